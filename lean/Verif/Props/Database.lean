import Verif.Model.Database
import Verif.Lemmas.Dict
import Mathlib.Data.List.Perm.Basic

/-!
# Reading a result database (C64, C65, C66)
-/

namespace RT1
namespace Database
variable {ρ : Type}

/-! ## Specification -/

/-- Consecutive blocks of `n` elements, the last one possibly smaller. -/
def Blocks {α : Type} (n : Nat) (l : List α) (bs : List (List α)) : Prop :=
  bs.flatten = l ∧ (∀ b ∈ bs, 0 < b.length ∧ b.length ≤ n) ∧ ∀ b ∈ bs.dropLast, b.length = n

/-- The frame contains exactly the rows of these IDs (each as often as it is stored). -/
def Holds (t : Frame ρ) (ids : List Nat) (f : Frame ρ) : Prop := f.Perm (t.filter fun e => e.1 ∈ ids)

/-! ## Lemmas -/

theorem chunks_nil {α : Type} (n : Nat) (hn : 0 < n) : chunks n ([] : List α) = [] := by
  unfold chunks
  rw [List.length_nil, Nat.zero_add, Nat.div_eq_of_lt (by omega)]
  rfl

theorem chunks_cons {α : Type} (n : Nat) (hn : 0 < n) (l : List α) (hl : l ≠ []) :
    chunks n l = l.take n :: chunks n (l.drop n) := by
  have hpos : 0 < l.length := List.length_pos_iff.2 hl
  have hd : (l.length + n - 1) / n = ((l.drop n).length + n - 1) / n + 1 := by
    rw [List.length_drop]
    by_cases h : l.length ≤ n
    · rw [show l.length - n + n - 1 = n - 1 by omega, Nat.div_eq_of_lt (by omega : n - 1 < n)]
      exact Nat.div_eq_of_lt_le (by omega) (by omega)
    · rw [show l.length + n - 1 = (l.length - n + n - 1) + n by omega, Nat.add_div_right _ hn]
  unfold chunks
  rw [hd, List.range_succ_eq_map, List.map_cons, List.map_map]
  simp only [Nat.zero_mul, List.drop_zero, List.cons.injEq, true_and]
  refine List.map_congr_left fun k _ => ?_
  simp only [Function.comp, List.drop_drop]
  rw [Nat.succ_mul, Nat.add_comm n]

theorem chunks_blocks {α : Type} (n : Nat) (hn : 0 < n) (l : List α) : Blocks n l (chunks n l) := by
  induction hk : l.length using Nat.strong_induction_on generalizing l with
  | _ k ih =>
    by_cases hl : l = []
    · subst hl; rw [chunks_nil n hn]; exact ⟨rfl, by simp, by simp⟩
    · have hpos : 0 < l.length := List.length_pos_iff.2 hl
      obtain ⟨h1, h2, h3⟩ := ih (l.drop n).length (by rw [List.length_drop]; omega) (l.drop n) rfl
      rw [chunks_cons n hn l hl]
      refine ⟨by rw [List.flatten_cons, h1, List.take_append_drop], ?_, ?_⟩
      · intro b hb
        rcases List.mem_cons.1 hb with rfl | hb
        · rw [List.length_take]; omega
        · exact h2 b hb
      · by_cases hd : l.drop n = []
        · rw [hd, chunks_nil n hn]; simp
        · have hne : chunks n (l.drop n) ≠ [] := by rw [chunks_cons n hn _ hd]; simp
          rw [List.dropLast_cons_of_ne_nil hne]
          intro b hb
          rcases List.mem_cons.1 hb with rfl | hb
          · have : 0 < (l.drop n).length := List.length_pos_iff.2 hd
            rw [List.length_drop] at this
            rw [List.length_take]; omega
          · exact h3 b hb

/-- Without a remainder: the next `q - j` frames are collected. -/
theorem loop_collect (multi : Bool) (q r10 : Nat) (hq : 0 < q) : ∀ (k : Nat) (i : Nat) (ds ret : List (Frame ρ)),
    k = q - i % q →
    loop multi q 0 r10 i ds ret =
      if ds.length < k then (if (ret ++ ds).isEmpty then ([], none) else ([(ret ++ ds).flatten], none))
      else ((ret ++ ds.take k).flatten :: (loop multi q 0 r10 (i + k) (ds.drop k) []).1,
        (loop multi q 0 r10 (i + k) (ds.drop k) []).2) := by
  intro k
  induction k with
  | zero => intro i ds ret hk; have := Nat.mod_lt i hq; omega
  | succ k ih =>
    intro i ds ret hk
    have hlt := Nat.mod_lt i hq
    cases ds with
    | nil => rw [loop.eq_def]; simp
    | cons d ds =>
      rw [loop.eq_def]
      dsimp only
      simp only [Nat.ne_of_gt hq, if_false, ne_eq, not_true_eq_false]
      by_cases hk0 : k = 0
      · subst hk0
        have hi : (i + 1) % q = 0 := by
          rw [Nat.add_mod, show i % q = q - 1 by omega]
          by_cases h1 : q = 1
          · subst h1; rfl
          · rw [Nat.mod_eq_of_lt (by omega : 1 < q), Nat.sub_add_cancel hq, Nat.mod_self]
        simp [hi]
      · have hi : (i + 1) % q = i % q + 1 := by
          rw [Nat.add_mod, Nat.mod_eq_of_lt (by omega : 1 < q), Nat.mod_eq_of_lt (by omega)]
        rw [if_neg (by omega), ih (i + 1) ds (ret ++ [d]) (by omega)]
        simp only [List.length_cons, Nat.add_lt_add_iff_right, List.append_assoc, List.singleton_append, List.take_succ_cons,
          List.drop_succ_cons, Nat.add_assoc, Nat.add_comm 1 k]

theorem chunks_take {α : Type} (c : Nat) (hc : 0 < c) : ∀ (q : Nat) (l : List α),
    ((chunks c l).take q).flatten = l.take (q * c) ∧ (chunks c l).drop q = chunks c (l.drop (q * c))
  | 0, l => by simp
  | q + 1, l => by
    by_cases hl : l = []
    · subst hl; simp [chunks_nil c hc]
    · obtain ⟨h1, h2⟩ := chunks_take c hc q (l.drop c)
      rw [chunks_cons c hc l hl]
      simp only [List.take_succ_cons, List.flatten_cons, List.drop_succ_cons, h1, h2, List.drop_drop]
      rw [Nat.succ_mul, Nat.add_comm (q * c) c]
      exact ⟨List.take_add.symm, rfl⟩

theorem chunks_length_le {α : Type} (c : Nat) (hc : 0 < c) (l : List α) : l.length ≤ (chunks c l).length * c := by
  have h := (chunks_take c hc (chunks c l).length l).1
  rw [List.take_length, (chunks_blocks c hc l).1] at h
  by_contra hlt
  have := congrArg List.length h
  rw [List.length_take] at this
  omega

theorem flatten_rowsOf (t : Frame ρ) : ∀ (bs : List (List Nat)), bs.flatten.Nodup →
    ((bs.map (rowsOf t)).flatten).Perm (t.filter fun e => e.1 ∈ bs.flatten)
  | [], _ => by simp
  | b :: bs, h => by
    rw [List.flatten_cons, List.nodup_append] at h
    rw [List.map_cons, List.flatten_cons]
    refine ((flatten_rowsOf t bs h.2.1).append_left _).trans ?_
    unfold rowsOf
    induction t with
    | nil => simp
    | cons e t ih =>
      by_cases h1 : e.1 ∈ b
      · have h2 : e.1 ∉ bs.flatten := fun h2 => h.2.2 _ h1 _ h2 rfl
        rw [List.filter_cons_of_pos (by simpa using h1), List.filter_cons_of_neg (by simpa using h2),
          List.filter_cons_of_pos (by simpa using Or.inl h1)]
        exact ih.cons _
      · by_cases h2 : e.1 ∈ bs.flatten
        · rw [List.filter_cons_of_neg (by simpa using h1), List.filter_cons_of_pos (by simpa using h2),
            List.filter_cons_of_pos (p := fun e : Nat × ρ => decide (e.1 ∈ (b :: bs).flatten))
              (decide_eq_true (by rw [List.flatten_cons]; exact List.mem_append_right _ h2))]
          exact List.perm_middle.trans (ih.cons _)
        · rw [List.filter_cons_of_neg (by simpa using h1), List.filter_cons_of_neg (by simpa using h2),
            List.filter_cons_of_neg (fun h => by
              have h := of_decide_eq_true h
              rw [List.flatten_cons, List.mem_append] at h
              exact h.elim h1 h2)]
          exact ih

/-- The loop over all chunks, without a remainder. -/
theorem loop_blocks (multi : Bool) (c q r10 : Nat) (hc : 0 < c) (hq : 0 < q) (t : Frame ρ) (l : List Nat)
    (hl : l.Nodup) : ∀ i, i % q = 0 →
    (loop multi q 0 r10 i ((chunks c l).map (rowsOf t)) []).2 = none ∧
      List.Forall₂ (Holds t) (chunks (q * c) l) (loop multi q 0 r10 i ((chunks c l).map (rowsOf t)) []).1 := by
  have hqc : 0 < q * c := Nat.mul_pos hq hc
  induction hk : l.length using Nat.strong_induction_on generalizing l with
  | _ k ih =>
    intro i hi
    by_cases hl0 : l = []
    · subst hl0
      rw [chunks_nil c hc, chunks_nil _ hqc, List.map_nil, loop.eq_def]
      exact ⟨rfl, .nil⟩
    · have hpos : 0 < l.length := List.length_pos_iff.2 hl0
      rw [loop_collect multi q r10 hq q i _ [] (by omega), List.nil_append, List.nil_append, List.length_map,
        ← List.map_take, ← List.map_drop, chunks_cons _ hqc l hl0, (chunks_take c hc q l).2]
      by_cases hlen : (chunks c l).length < q
      · have hle := chunks_length_le c hc l
        have hle' : l.length ≤ q * c := hle.trans (Nat.mul_le_mul_right c hlen.le)
        have hne : ((chunks c l).map (rowsOf t)).isEmpty = false := by
          rw [chunks_cons c hc l hl0]; rfl
        rw [if_pos hlen, hne, if_neg (by simp), List.drop_eq_nil_of_le hle', chunks_nil _ hqc, List.take_of_length_le hle']
        refine ⟨rfl, .cons ?_ .nil⟩
        have := flatten_rowsOf t (chunks c l) (by rw [(chunks_blocks c hc l).1]; exact hl)
        rwa [(chunks_blocks c hc l).1] at this
      · rw [if_neg hlen]
        have := ih (l.drop (q * c)).length (by rw [List.length_drop]; omega) (l.drop (q * c))
          (hl.sublist (List.drop_sublist _ _)) rfl (i + q) (by rw [Nat.add_mod_right]; exact hi)
        refine ⟨this.1, .cons ?_ this.2⟩
        have h := flatten_rowsOf t ((chunks c l).take q)
          (by rw [(chunks_take c hc q l).1]; exact hl.sublist (List.take_sublist _ _))
        rwa [(chunks_take c hc q l).1] at h

/-! ## C64 -/

/-- The read chunk size fits to the number of IDs per block. -/
def ChunkOk (multi : Bool) (n : Nat) : Option Nat → Prop
  | some c => 0 < c ∧ c ∣ n
  | none => multi = false ∨ n ≤ 10 ∨ 10 ∣ n

theorem readChunk_ok {multi : Bool} {n : Nat} {chunk : Option Nat} (hn : 0 < n) (h : ChunkOk multi n chunk) :
    0 < readChunk multi n chunk ∧ readChunk multi n chunk ∣ n := by
  cases chunk with
  | some c => exact h
  | none =>
    unfold readChunk
    cases multi with
    | false => exact ⟨hn, dvd_refl n⟩
    | true =>
      simp only [if_true]
      rcases h with h | h | h
      · cases h
      · rw [Nat.min_eq_right h]; exact ⟨hn, dvd_refl n⟩
      · rw [Nat.min_eq_left (Nat.le_of_dvd hn h)]; exact ⟨by omega, h⟩

/-- If the read chunk size divides the size of a block (also if it is chosen by default), the blocks are consecutive,
have the right size and contain exactly the rows of their IDs. (Missing: other chunk sizes, see `C64_fails`,
`C64_default_fails` and `C64_large_fails`.) -/
theorem C64_blocks_partial (db : DB ρ) (key : String) (t : Table ρ) (nids start : Nat) (chunk : Option Nat)
    (hu : db.index.Nodup) (ht : db.tables.get? key = some t) (hn : 0 < nids) (hs : start < db.ids.length)
    (hc : ChunkOk t.multi (min db.ids.length nids) chunk) :
    (nidsIter db key nids start chunk).2 = none ∧ ∃ bs, Blocks nids (db.index.drop start) bs ∧
      List.Forall₂ (Holds t.rows) bs (nidsIter db key nids start chunk).1 := by
  have hpos : 0 < min db.ids.length nids := by omega
  obtain ⟨hc0, q, hq⟩ := readChunk_ok hpos hc
  have hq0 : 0 < q := by
    rcases Nat.eq_zero_or_pos q with h | h
    · rw [h, Nat.mul_zero] at hq; omega
    · exact h
  have hlen : db.index.length = db.ids.length := by simp [DB.index]
  have hdiv : min db.ids.length nids / readChunk t.multi (min db.ids.length nids) chunk = q :=
    Nat.div_eq_of_eq_mul_right hc0 hq
  have hmod : min db.ids.length nids % readChunk t.multi (min db.ids.length nids) chunk = 0 :=
    Nat.mod_eq_zero_of_dvd ⟨q, hq⟩
  have hb := loop_blocks t.multi _ q (min db.ids.length nids % 10) hc0 hq0 t.rows (db.index.drop start)
    (hu.sublist (List.drop_sublist _ _)) 0 (Nat.zero_mod q)
  rw [Nat.mul_comm q, ← hq] at hb
  have he : nidsIter db key nids start chunk = loop t.multi q 0 (min db.ids.length nids % 10) 0
      ((chunks (readChunk t.multi (min db.ids.length nids) chunk) (db.index.drop start)).map (rowsOf t.rows)) [] := by
    unfold nidsIter getVals
    simp only [ht]
    rw [if_neg (by omega), if_neg (by omega)]
    simp only [hdiv, hmod]
  rw [he]
  refine ⟨hb.1, _, ?_, hb.2⟩
  obtain ⟨h1, h2, h3⟩ := chunks_blocks _ hpos (db.index.drop start)
  refine ⟨h1, fun b hb => ⟨(h2 b hb).1, (h2 b hb).2.trans (Nat.min_le_right _ _)⟩, ?_⟩
  intro b hb
  by_cases hle : nids ≤ db.ids.length
  · rw [h3 b hb, Nat.min_eq_right hle]
  · have hd : (db.index.drop start).length ≤ min db.ids.length nids := by
      rw [List.length_drop, hlen]; omega
    have hne : db.index.drop start ≠ [] := by
      rw [← List.length_pos_iff, List.length_drop, hlen]; omega
    rw [chunks_cons _ hpos _ hne, List.drop_eq_nil_of_le hd, chunks_nil _ hpos] at hb
    simp at hb

/-- All blocks together contain the rows of every ID from `start` on exactly once. -/
theorem C64_all_partial (db : DB ρ) (key : String) (t : Table ρ) (nids start : Nat) (chunk : Option Nat)
    (hu : db.index.Nodup) (ht : db.tables.get? key = some t) (hn : 0 < nids) (hs : start < db.ids.length)
    (hc : ChunkOk t.multi (min db.ids.length nids) chunk) :
    Holds t.rows (db.index.drop start) (nidsIter db key nids start chunk).1.flatten := by
  obtain ⟨_, bs, hb, hf⟩ := C64_blocks_partial db key t nids start chunk hu ht hn hs hc
  have hnd : bs.flatten.Nodup := by rw [hb.1]; exact hu.sublist (List.drop_sublist _ _)
  have h1 := flatten_rowsOf t.rows bs hnd
  rw [hb.1] at h1
  refine List.Perm.trans ?_ h1
  clear h1 hnd hb
  generalize (nidsIter db key nids start chunk).1 = ys at hf ⊢
  induction hf with
  | nil => exact .refl _
  | cons h _ ih => rw [List.flatten_cons, List.map_cons, List.flatten_cons]; exact h.append ih

/-- A database with `n` IDs and one row per ID. -/
def exDB (n : Nat) : DB Nat :=
  ⟨(List.range n).map fun i => (i, "RT1_" ++ toString i), [("dataset", ⟨true, (List.range n).map fun i => (i, i)⟩)]⟩

/-- Blocks of three IDs with a chunk size of two: the first block has four IDs. -/
theorem C64_fails : (nidsIter (exDB 8) "dataset" 3 0 (some 2)).1.head?.map List.length = some 4 := by decide +kernel

/-- The default chunk size (10) with blocks of 15 of 40 IDs: in the second block IDs of the first one are repeated, other
IDs are missing in all blocks. -/
theorem C64_default_fails : ∃ b0 b1 bs, nidsIter (exDB 40) "dataset" 15 0 none = (b0 :: b1 :: bs, none) ∧
    (5, 5) ∈ b0 ∧ (5, 5) ∈ b1 ∧ ∀ b ∈ b0 :: b1 :: bs, (15, 15) ∉ b := by
  refine ⟨_, _, _, rfl, ?_⟩
  decide +kernel

/-- … and with 30 IDs an exception is raised instead of the second block. -/
theorem C64_raises_fails : (nidsIter (exDB 30) "dataset" 15 0 none).1.length = 1 ∧
    (nidsIter (exDB 30) "dataset" 15 0 none).2 = some .runtimeError := by decide +kernel

/-- A chunk size larger than the size of a block always raises ZeroDivisionError. -/
theorem C64_large_fails (db : DB ρ) (key : String) (t : Table ρ) (nids start c : Nat)
    (ht : db.tables.get? key = some t) (hs : start < db.ids.length) (hc : nids < c) :
    nidsIter db key nids start (some c) = ([], some .zeroDivisionError) := by
  have hne : db.index.drop start ≠ [] := by
    rw [← List.length_pos_iff, List.length_drop, DB.index, List.length_map]; omega
  have hrc : readChunk t.multi (min db.ids.length nids) (some c) = c := rfl
  unfold nidsIter getVals
  simp only [ht, hrc]
  have hlen : db.index.length = db.ids.length := by simp [DB.index]
  rw [if_neg (by omega), if_neg (by omega)]
  dsimp only
  rw [chunks_cons c (by omega) _ hne, Nat.div_eq_of_lt (by omega), List.map_cons, loop.eq_def]
  simp

/-! ## C65 -/

/-- The numeric ID that is used is the one assigned to the string ID. -/
theorem C65_num (db : DB ρ) (hu : (db.ids.map Prod.snd).Nodup) (s : String) (n : Nat) :
    idNum db s = .ok n ↔ (n, s) ∈ db.ids := by
  unfold idNum
  constructor
  · intro h
    split at h
    · cases h
    · rename_i e l he
      cases h
      have : e ∈ db.ids.filter fun e => e.2 = s := by rw [he]; simp
      simp only [List.mem_filter, decide_eq_true_eq] at this
      rw [← this.2]; exact this.1
  · intro h
    have hm : (n, s) ∈ db.ids.filter fun e => e.2 = s := by simp [h]
    split
    · rename_i he; rw [he] at hm; cases hm
    · rename_i e l he
      have h1 : e ∈ db.ids.filter fun e => e.2 = s := by rw [he]; simp
      simp only [List.mem_filter, decide_eq_true_eq] at h1
      have : e = (n, s) := List.inj_on_of_nodup_map hu h1.1 h (by simpa using h1.2)
      rw [this]

/-- An unknown string ID raises IndexError. -/
theorem C65_unknown (db : DB ρ) (s : String) (h : s ∉ db.ids.map Prod.snd) : loadFit db (.str s) = .error .indexError := by
  have : (db.ids.filter fun e => e.2 = s) = [] := by
    rw [List.filter_eq_nil_iff]
    intro e he h'
    simp only [decide_eq_true_eq] at h'
    exact h (List.mem_map.2 ⟨e, he, h'⟩)
  unfold loadFit idNum
  simp only [this]
  rfl

/-- `get_id` returns the rows of the ID. -/
theorem C65_get (db : DB ρ) (key : String) (t : Table ρ) (n : Nat) (hu : db.index.Nodup) (hn : n ∈ db.index)
    (ht : db.tables.get? key = some t) : getId db key n = .ok (t.rows.filter fun e => e.1 = n) := by
  have hlt : db.index.idxOf n < db.index.length := List.idxOf_lt_length_iff.2 hn
  have hlen : db.index.length = db.ids.length := by simp [DB.index]
  have hloc : getLoc db n = .ok (db.index.idxOf n) := by
    unfold getLoc
    rw [List.count_eq_one_of_mem hu hn]; rfl
  have hmin : min db.ids.length 1 = 1 := by omega
  have hrc : readChunk t.multi 1 none = 1 := by unfold readChunk; cases t.multi <;> rfl
  have hdrop : db.index.drop (db.index.idxOf n) = n :: db.index.drop (db.index.idxOf n + 1) := by
    rw [List.drop_eq_getElem_cons hlt, List.getElem_idxOf]
  unfold getId
  rw [hloc]
  simp only [bind, Except.bind]
  unfold nidsIter getVals
  simp only [ht, hmin, hrc]
  rw [if_neg (by omega), if_neg (by omega)]
  dsimp only
  rw [hdrop, chunks_cons 1 (by omega) _ (by simp), List.map_cons, loop.eq_def]
  simp [Gen.next, rowsOf]

/-- A table that is missing, or the rows of the ID (there are some). -/
def Part (db : DB ρ) (key : String) (n : Nat) (p : Option (List ρ)) : Prop :=
  (db.tables.get? key = none ∧ p = none) ∨
    ∃ t, db.tables.get? key = some t ∧ p = some ((t.rows.filter fun e => e.1 = n).map Prod.snd) ∧ ∃ x, (n, x) ∈ t.rows

theorem part_ok {db : DB ρ} {key : String} {n : Nat} (hu : db.index.Nodup) (hn : n ∈ db.index)
    (h : ∀ t, db.tables.get? key = some t → ∃ x, (n, x) ∈ t.rows) : ∃ p, part db key n = .ok p ∧ Part db key n p := by
  unfold part
  cases ht : db.tables.get? key with
  | none =>
    have : ∃ e, getId db key n = .error e := by
      unfold getId
      cases getLoc db n with
      | error e => exact ⟨e, rfl⟩
      | ok pos => exact ⟨.assertionError, by simp [bind, Except.bind, nidsIter, ht, Gen.next]⟩
    obtain ⟨e, he⟩ := this
    rw [he]
    exact ⟨none, rfl, .inl ⟨ht, rfl⟩⟩
  | some t =>
    obtain ⟨x, hx⟩ := h t ht
    rw [C65_get db key t n hu hn ht]
    refine ⟨some ((t.rows.filter fun e => e.1 = n).map Prod.snd), ?_, .inr ⟨t, ht, rfl, x, hx⟩⟩
    have hl : loc (t.rows.filter fun e => e.1 = n) n = .ok ((t.rows.filter fun e => e.1 = n).map Prod.snd) := by
      unfold loc
      rw [List.filter_filter]
      simp only [Bool.and_self]
      split
      · rename_i he
        have : x ∈ (t.rows.filter fun e => e.1 = n).map Prod.snd := List.mem_map.2 ⟨(n, x), by simp [hx], rfl⟩
        rw [he] at this; cases this
      · rfl
    dsimp only
    rw [hl]; rfl

/-- Loading by a string ID gives the data stored for it, if every table has data for it. (Missing: IDs without data in
one of the tables, see `C65_aux_fails`, and IDs that are not unique, see `C65_duplicate_fails`.) -/
theorem C65_load_partial (db : DB ρ) (hu : db.index.Nodup) (hs : (db.ids.map Prod.snd).Nodup) (s : String) (n : Nat)
    (h : (n, s) ∈ db.ids) (hi : db.tables.get? "init_dict" ≠ none)
    (ht : ∀ key t, db.tables.get? key = some t → ∃ x, (n, x) ∈ t.rows) :
    ∃ l, loadFit db (.str s) = .ok (some l) ∧ l.ident = s ∧ Part db "init_dict" n (some l.init) ∧
      Part db "dataset" n l.dataset ∧ Part db "aux_data" n l.aux ∧ Part db "reader_arg" n l.readerArg ∧
      Part db "res_dict" n l.res := by
  have hn : n ∈ db.index := List.mem_map.2 ⟨(n, s), h, rfl⟩
  obtain ⟨t, hti⟩ := Option.ne_none_iff_exists'.1 hi
  obtain ⟨pi, hpi, hPi⟩ := part_ok hu hn (ht "init_dict")
  obtain ⟨pd, hpd, hPd⟩ := part_ok hu hn (ht "dataset")
  obtain ⟨pa, hpa, hPa⟩ := part_ok hu hn (ht "aux_data")
  obtain ⟨pr, hpr, hPr⟩ := part_ok hu hn (ht "reader_arg")
  obtain ⟨ps, hps, hPs⟩ := part_ok hu hn (ht "res_dict")
  have hid : identOf db n = .ok s := by
    unfold identOf
    cases hf : db.ids.find? fun e => e.1 = n with
    | none =>
      have := List.find?_eq_none.1 hf (n, s) h
      simp at this
    | some e =>
      have h1 := List.find?_some hf
      simp only [decide_eq_true_eq] at h1
      have : e = (n, s) := List.inj_on_of_nodup_map hu (List.mem_of_find?_eq_some hf) h h1
      rw [this]
  unfold part at hpi
  rw [C65_get db _ t n hu hn hti] at hpi
  dsimp only at hpi
  cases hl : loc (t.rows.filter fun e => e.1 = n) n with
  | error e => rw [hl] at hpi; cases hpi
  | ok li =>
    rw [hl] at hpi
    have hpi' : pi = some li := by cases hpi; rfl
    subst hpi'
    refine ⟨⟨s, li, pd, pa, pr, ps⟩, ?_, rfl, hPi, hPd, hPa, hPr, hPs⟩
    unfold loadFit
    simp only [(C65_num db hs s n).2 h, bind, Except.bind, C65_get db _ t n hu hn hti, hid, hl, hpd, hpa, hps, hpr]

/-- A site without aux data in a database in which another site has aux data cannot be loaded. -/
def exAux : DB String := ⟨[(0, "a"), (1, "b")], [("init_dict", ⟨false, [(0, "init a"), (1, "init b")]⟩),
  ("dataset", ⟨true, [(0, "data a"), (1, "data b")]⟩), ("aux_data", ⟨true, [(0, "aux a")]⟩)]⟩

theorem C65_aux_fails : exAux.index.Nodup ∧ (exAux.ids.map Prod.snd).Nodup ∧ (1, "b") ∈ exAux.ids ∧
    (∃ x, (1, x) ∈ [(0, "data a"), (1, "data b")]) ∧
    loadFit exAux (.str "b") = .error .keyError := by
  refine ⟨by decide, by decide, by decide, ⟨"data b", by simp⟩, ?_⟩
  decide +kernel

/-- Two sites with the same string ID (see C44): the data of the first one are returned for both. -/
theorem C65_duplicate_fails : ∃ (db : DB String), db.index.Nodup ∧ (1, "RT1_1") ∈ db.ids ∧
    idNum db "RT1_1" ≠ .ok 1 := by
  exact ⟨⟨[(0, "RT1_1"), (1, "RT1_1")], []⟩, by decide, by decide, by decide⟩

/-! ## C66 -/

/-- The layers of a config are read from the right place; a missing one raises KeyError. (Missing: constant layers,
see `C66_const_fails`.) -/
theorem C66_config_partial {τ : Type} (store : Dict (List String) τ) (key config : String) (x : τ) :
    getData store key (some config) = .ok x ↔ store.get? [config, key] = some x := by
  unfold getData Dict.getItem
  simp only [reduceCtorEq, false_and, if_false, Option.getD_some]
  cases store.get? [config, key] <;> simp

/-- A missing constant key is rejected. -/
theorem C66_missing {τ : Type} (store : Dict (List String) τ) (key : String) (h : store.get? [key] = none) :
    getData store key none = .error .assertionError := by
  unfold getData
  rw [if_pos]
  refine ⟨rfl, fun hm => ?_⟩
  have := (List.mem_filter.1 hm).1
  rw [← Dict.get?_isSome, h] at this
  cases this

/-- A constant layer can never be read (unless there is a config with the name "None", whose layer is then returned). -/
theorem C66_const_fails {τ : Type} (store : Dict (List String) τ) (key : String) (x : τ) (h : store.get? [key] = some x) :
    getData store key none = store.getItem ["None", key] := by
  unfold getData
  rw [if_neg]
  · rfl
  · rintro ⟨_, hm⟩
    refine hm (List.mem_filter.2 ⟨?_, by simp⟩)
    rw [← Dict.get?_isSome, h]; rfl

/-- C66 for constant layers does not hold. -/
theorem C66_fails : ¬ ∀ (store : Dict (List String) Nat) (key : String) (x : Nat), store.get? [key] = some x →
    getData store key none = .ok x := by
  intro h
  have := h [(["reader_arg"], 1), (["cfg", "tot"], 2)] "reader_arg" 1 (by decide)
  revert this
  decide

/-! ## Examples -/

example : (exDB 25).index.Nodup ∧ 3 < (exDB 25).ids.length ∧ (∃ t, (exDB 25).tables.get? "dataset" = some t) := by
  refine ⟨by decide +kernel, by decide +kernel, _, rfl⟩
example : ChunkOk true (min 25 20) none ∧ ChunkOk true (min 25 7) none ∧ ChunkOk true (min 25 6) (some 2) := by
  refine ⟨.inr (.inr (by decide)), .inr (.inl (by decide)), by decide, by decide⟩
example : (nidsIter (exDB 25) "dataset" 20 3 none).1.map List.length = [20, 2] := by decide +kernel
example : ∀ key t, (exDB 25).tables.get? key = some t → ∃ x, (3, x) ∈ t.rows := by
  intro key t h
  simp only [exDB, Dict.get?_cons, Dict.get?_nil] at h
  split_ifs at h
  cases h
  exact ⟨3, by decide +kernel⟩

/-- A database in which everything is there. -/
def exFull : DB String := ⟨[(4, "a"), (1, "b")], [("init_dict", ⟨false, [(4, "init a"), (1, "init b")]⟩),
  ("dataset", ⟨true, [(1, "data b"), (4, "data a"), (1, "more b")]⟩)]⟩

example : exFull.index.Nodup ∧ (exFull.ids.map Prod.snd).Nodup ∧ (1, "b") ∈ exFull.ids := by decide
example : ∀ key t, exFull.tables.get? key = some t → ∃ x, (1, x) ∈ t.rows := by
  intro key t h
  simp only [exFull, Dict.get?_cons, Dict.get?_nil] at h
  split_ifs at h
  · cases h; exact ⟨"init b", by simp⟩
  · cases h; exact ⟨"data b", by simp⟩
example : loadFit exFull (.str "b") = .ok (some ⟨"b", ["init b"], some ["data b", "more b"], none, none, none⟩) := by
  decide +kernel
example : "z" ∉ exFull.ids.map Prod.snd := by decide
example : getData [(["reader_arg"], 1), (["cfg", "tot"], 2)] "tot" (some "cfg") = .ok 2 := by decide

end Database
end RT1
