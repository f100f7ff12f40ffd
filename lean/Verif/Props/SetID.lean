import Verif.Model.SetID
import Verif.Props.Database

/-!
# Reading a result database with string-IDs (C113)
-/

namespace RT1
namespace SetID
open Database
variable {ρ : Type}

/-! ## Specification -/

/-- The rows of a frame with their numbers. -/
def Numbered (f : Frame ρ) (g : LFrame ρ) : Prop := List.Forall₂ (fun e e' => e' = (Label.num e.1, e.2)) f g

/-- The same rows in the same order, with the string-ID of the site instead of the number. -/
def Named (ids : List (Nat × String)) (f : Frame ρ) (g : LFrame ρ) : Prop :=
  List.Forall₂ (fun e e' => e'.2 = e.2 ∧ ∃ s, (e.1, s) ∈ ids ∧ e'.1 = .str s) f g

/-! ## Lemmas: frames -/

def numb (f : Frame ρ) : LFrame ρ := f.map fun e => (.num e.1, e.2)

theorem numbered_iff (f : Frame ρ) (g : LFrame ρ) : Numbered f g ↔ g = numb f := by
  unfold Numbered numb
  constructor
  · intro h
    induction h with
    | nil => rfl
    | cons h _ ih => rw [h, ih]; rfl
  · rintro rfl
    induction f with
    | nil => exact .nil
    | cons e f ih => exact .cons rfl ih

def mk (multi : Bool) (g : LFrame ρ) : DFrame ρ := if multi then .multi (fromRows g) else .single g

theorem read_eq (multi : Bool) (f : Frame ρ) : read multi f = mk multi (numb f) := rfl
theorem concat_eq (multi : Bool) (l : List (DFrame ρ)) : concat multi l = mk multi (l.map DFrame.labels).flatten := rfl

theorem numb_flatten (l : List (Frame ρ)) : (l.map numb).flatten = numb l.flatten := by
  unfold numb; rw [List.map_flatten]

theorem all_numb (f : Frame ρ) : ((numb f).all fun e => e.1.isNum) = true := by
  unfold numb; rw [List.all_map, List.all_eq_true]; intro e _; rfl

theorem factor_numb (f : Frame ρ) : factor (numb f) = (level f).map .num := by
  unfold factor level
  rw [if_pos (all_numb f)]
  congr 3
  unfold numb; rw [List.map_map]; rfl

theorem mem_factor {g : LFrame ρ} {e : Label × ρ} (h : e ∈ g) : e.1 ∈ factor g := by
  unfold factor
  by_cases ha : (g.all fun e => e.1.isNum) = true
  · rw [if_pos ha, List.mem_map]
    refine ⟨e.1.toNum, ?_, ?_⟩
    · rw [List.mem_insertionSort, List.mem_dedup]
      exact List.mem_map.2 ⟨e, h, rfl⟩
    · have := List.all_eq_true.1 ha e h
      cases he : e.1 with
      | num n => rfl
      | str s => rw [he] at this; cases this
  · rw [if_neg ha, List.mem_dedup]
    exact List.mem_map.2 ⟨e, h, rfl⟩

theorem getD_idxOf {α : Type} [DecidableEq α] {l : List α} {a d : α} (h : a ∈ l) : l.getD (l.idxOf a) d = a := by
  rw [List.getD_eq_getElem?_getD, List.getElem?_eq_getElem (List.idxOf_lt_length_iff.2 h), List.getElem_idxOf]
  rfl

theorem labels_fromRows (g : LFrame ρ) : (fromRows g).labels = g := by
  unfold MFrame.labels fromRows
  rw [List.map_map]
  refine (List.map_congr_left fun e he => ?_).trans (List.map_id g)
  simp only [Function.comp, id, getD_idxOf (mem_factor he)]

theorem labels_mk (multi : Bool) (g : LFrame ρ) : (mk multi g).labels = g := by
  cases multi
  · rfl
  · exact labels_fromRows g

theorem mem_level {f : Frame ρ} {n : Nat} : n ∈ level f ↔ n ∈ f.map Prod.fst := by
  unfold level; rw [List.mem_insertionSort, List.mem_dedup]

theorem level_nodup (f : Frame ρ) : (level f).Nodup :=
  ((List.perm_insertionSort _ _).nodup_iff).2 (List.nodup_dedup _)

/-- Selecting values of the first level, for frames with numbers. -/
theorem iloc_numb (multi : Bool) (f : Frame ρ) (sel : List Label → List Label) (sel' : List Nat → List Nat)
    (hsel : ∀ l : List Nat, sel (l.map .num) = (sel' l).map .num) :
    (iloc sel (mk multi (numb f))).map DFrame.labels = (ilocLevel multi f sel').map numb := by
  cases multi with
  | false => rfl
  | true =>
    show Except.ok (MFrame.labels _) = Except.ok _
    congr 1
    unfold MFrame.labels rowsOf
    show ((List.filter _ (fromRows (numb f)).rows).map _) = _
    have hl : (fromRows (numb f)).levels = factor (numb f) := rfl
    have hr : (fromRows (numb f)).rows = (numb f).map fun e => ((factor (numb f)).idxOf e.1, e.2) := rfl
    rw [hl, hr]
    have key : ∀ g : Frame ρ, (∀ e ∈ g, e ∈ f) →
        List.map (fun e => ((factor (numb f)).getD e.1 (Label.num 0), e.2))
          (List.filter (fun e => decide ((factor (numb f)).getD e.1 (Label.num 0) ∈ sel (factor (numb f))))
            ((numb g).map fun e => ((factor (numb f)).idxOf e.1, e.2))) =
        numb (g.filter fun e => decide (e.1 ∈ sel' (level f))) := by
      intro g
      induction g with
      | nil => intro _; rfl
      | cons e g ih =>
        intro hg
        have he : (Label.num e.1) ∈ factor (numb f) :=
          mem_factor (e := (Label.num e.1, e.2)) (List.mem_map.2 ⟨e, hg e (by simp), rfl⟩)
        have hd := getD_idxOf (d := Label.num 0) he
        have hm : (Label.num e.1 ∈ sel (factor (numb f))) ↔ e.1 ∈ sel' (level f) := by
          rw [factor_numb, hsel, List.mem_map]
          constructor
          · rintro ⟨n, hn, h⟩; cases h; exact hn
          · intro h; exact ⟨_, h, rfl⟩
        have ih' := ih fun e' h => hg e' (List.mem_cons_of_mem _ h)
        show List.map _ (List.filter _ ((_, e.2) :: (numb g).map _)) = _
        by_cases h1 : e.1 ∈ sel' (level f)
        · rw [List.filter_cons_of_pos, List.filter_cons_of_pos, List.map_cons, ih']
          · simp only [hd]; rfl
          · simpa using h1
          · simp only [hd]; exact decide_eq_true (hm.2 h1)
        · rw [List.filter_cons_of_neg, List.filter_cons_of_neg, ih']
          · simpa using h1
          · simp only [hd]; simpa using fun h => h1 (hm.1 h)
    exact key f fun e h => h

/-! ## Lemmas: labels -/

theorem idsLoc_ok {ids : List (Nat × String)} (hu : (ids.map Prod.fst).Nodup) : ∀ (ns : List Nat), (∀ n ∈ ns, n ∈ ids.map Prod.fst) →
    ∃ new, idsLoc ids (ns.map .num) = .ok new ∧ List.Forall₂ (fun n s => (n, s) ∈ ids) ns new
  | [], _ => ⟨[], rfl, .nil⟩
  | n :: ns, h => by
    obtain ⟨new, hn, hf⟩ := idsLoc_ok hu ns fun m hm => h m (List.mem_cons_of_mem _ hm)
    obtain ⟨⟨n', s⟩, he, hs⟩ := List.mem_map.1 (h n (by simp))
    cases hs
    have hfil : ids.filter (fun e => e.1 = n') = [(n', s)] := by
      clear hn hf h
      induction ids with
      | nil => cases he
      | cons e ids ih =>
        rw [List.map_cons, List.nodup_cons] at hu
        rcases List.mem_cons.1 he with rfl | he
        · rw [List.filter_cons_of_pos (by simp), List.filter_eq_nil_iff.2]
          intro e' he' h'
          simp only [decide_eq_true_eq] at h'
          exact hu.1 (List.mem_map.2 ⟨e', he', h'⟩)
        · rw [List.filter_cons_of_neg, ih hu.2 he]
          simp only [decide_eq_true_eq]
          intro h'
          exact hu.1 (List.mem_map.2 ⟨_, he, h'.symm⟩)
    refine ⟨s :: new, ?_, .cons he hf⟩
    simp only [List.map_cons, idsLoc]
    rw [hfil, hn]
    rfl

theorem names_nodup {ids : List (Nat × String)} (hs : (ids.map Prod.snd).Nodup) {ns : List Nat} {new : List String}
    (h : List.Forall₂ (fun n s => (n, s) ∈ ids) ns new) (hn : ns.Nodup) : new.Nodup := by
  induction h with
  | nil => exact .nil
  | @cons n s ns new h1 h2 ih =>
    rw [List.nodup_cons] at hn ⊢
    refine ⟨fun hm => hn.1 ?_, ih hn.2⟩
    clear ih hn
    induction h2 with
    | nil => cases hm
    | @cons n' s' _ _ h3 _ ih =>
      rcases List.mem_cons.1 hm with rfl | hm
      · have := List.inj_on_of_nodup_map hs h1 h3 rfl
        cases this; simp
      · exact List.mem_cons_of_mem _ (ih hm)

theorem getD_names {ids : List (Nat × String)} {ns : List Nat} {new : List String}
    (h : List.Forall₂ (fun n s => (n, s) ∈ ids) ns new) {n : Nat} (hn : n ∈ ns) :
    ∃ s, (n, s) ∈ ids ∧ (new.map Label.str).getD ((ns.map Label.num).idxOf (Label.num n)) (.num 0) = .str s := by
  induction h with
  | nil => cases hn
  | @cons m s ns new h1 _ ih =>
    by_cases hm : m = n
    · subst hm; exact ⟨s, h1, by simp⟩
    · obtain ⟨s', h', h''⟩ := ih ((List.mem_cons.1 hn).resolve_left (Ne.symm hm))
      refine ⟨s', h', ?_⟩
      rw [List.map_cons, List.map_cons, List.idxOf_cons_ne _ (by simpa using hm), List.getD_cons_succ]
      exact h''

theorem setIDs_ok {ids : List (Nat × String)} (hu : (ids.map Prod.fst).Nodup) (multi : Bool)
    (hs : multi = true → (ids.map Prod.snd).Nodup) (f : Frame ρ) (hf : ∀ e ∈ f, e.1 ∈ ids.map Prod.fst) :
    ∃ d, setIDs ids (mk multi (numb f)) = .ok d ∧ Named ids f d.labels := by
  cases multi with
  | true =>
    obtain ⟨new, hn, h2⟩ := idsLoc_ok hu (level f) fun n hn => by
      obtain ⟨e, he, rfl⟩ := List.mem_map.1 (mem_level.1 hn)
      exact hf e he
    have hnd := names_nodup (hs rfl) h2 (level_nodup f)
    refine ⟨.multi ⟨new.map .str, (fromRows (numb f)).rows⟩, ?_, ?_⟩
    · show setIDs ids (.multi (fromRows (numb f))) = _
      have : (fromRows (numb f)).levels = (level f).map .num := factor_numb f
      unfold setIDs
      dsimp only
      rw [this, hn]
      exact if_pos hnd
    · show Named ids f (MFrame.labels _)
      unfold Named MFrame.labels fromRows
      rw [factor_numb, List.map_map]
      unfold numb
      rw [List.map_map, List.forall₂_map_right_iff, List.forall₂_same]
      intro e he
      refine ⟨rfl, ?_⟩
      exact getD_names h2 (mem_level.2 (List.mem_map.2 ⟨e, he, rfl⟩))
  | false =>
    obtain ⟨new, hn, h2⟩ := idsLoc_ok hu (f.map Prod.fst) fun n hn => by
      obtain ⟨e, he, rfl⟩ := List.mem_map.1 hn
      exact hf e he
    have hlen : new.length = (numb f).length := by
      rw [← h2.length_eq]; simp [numb]
    refine ⟨.single (List.zipWith (fun s e => (.str s, e.2)) new (numb f)), ?_, ?_⟩
    · show setIDs ids (.single (numb f)) = _
      unfold setIDs
      dsimp only
      have : (numb f).map Prod.fst = (f.map Prod.fst).map Label.num := by
        unfold numb; rw [List.map_map, List.map_map]; rfl
      rw [this, hn]
      exact if_pos hlen
    · show Named ids f (List.zipWith _ new (numb f))
      clear hlen hn hf hs
      induction f generalizing new with
      | nil => cases h2; exact .nil
      | cons e f ih =>
        cases h2 with
        | cons h1 h2 => exact .cons ⟨rfl, _, h1, rfl⟩ (ih _ h2)

/-! ## Lemmas: the loop -/

theorem map_labels (multi : Bool) (l : List (Frame ρ)) : (l.map (read multi)).map DFrame.labels = l.map numb := by
  rw [List.map_map]
  exact List.map_congr_left fun f _ => labels_mk multi _

theorem concat_numb {multi : Bool} {l : List (DFrame ρ)} {fs : List (Frame ρ)} (h : l.map DFrame.labels = fs.map numb) :
    concat multi l = mk multi (numb fs.flatten) := by
  rw [concat_eq, h, numb_flatten]

theorem take_hsel (k : Nat) (l : List Nat) : List.take k (l.map Label.num) = (List.take k l).map .num := List.map_take.symm
theorem drop_hsel (k : Nat) (l : List Nat) : List.drop k (l.map Label.num) = (List.drop k l).map .num := List.map_drop.symm

/-- With numeric IDs: the same frames as in `Database.loop`. -/
theorem loop_false (multi : Bool) (ids : List (Nat × String)) (q r r10 : Nat) : ∀ (k : Nat) (fs : List (Frame ρ)), fs.length ≤ k →
    ∀ (i : Nat) (ret : List (DFrame ρ)) (rs : List (Frame ρ)), ret.map DFrame.labels = rs.map numb →
    (loop multi false ids q r r10 i (fs.map (read multi)) ret).2 = (Database.loop multi q r r10 i fs rs).2 ∧
      (loop multi false ids q r r10 i (fs.map (read multi)) ret).1.map DFrame.labels =
        (Database.loop multi q r r10 i fs rs).1.map numb := by
  intro k
  induction k with
  | zero =>
    intro fs hk i ret rs h
    have : fs = [] := List.length_eq_zero_iff.1 (by omega)
    subst this
    rw [List.map_nil, loop.eq_def, Database.loop.eq_def]
    dsimp only
    have hl := congrArg List.length h
    rw [List.length_map, List.length_map] at hl
    cases ret with
    | nil =>
      have : rs = [] := List.length_eq_zero_iff.1 hl.symm
      subst this; exact ⟨rfl, rfl⟩
    | cons a ret =>
      cases rs with
      | nil => cases hl
      | cons b rs =>
        refine ⟨rfl, ?_⟩
        show [_] = [_]
        rw [concat_numb h, labels_mk]
  | succ k ih =>
    intro fs hk i ret rs h
    cases fs with
    | nil => exact ih [] (by simp) i ret rs h
    | cons f fs =>
      rw [List.map_cons, loop.eq_def, Database.loop.eq_def]
      dsimp only
      have h' : (ret ++ [read multi f]).map DFrame.labels = (rs ++ [f]).map numb := by
        rw [List.map_append, List.map_append, h]
        congr 1
        show [(read multi f).labels] = _
        rw [read_eq, labels_mk]; rfl
      by_cases hq : q = 0
      · rw [if_pos hq, if_pos hq]; exact ⟨rfl, rfl⟩
      · rw [if_neg hq, if_neg hq]
        by_cases hi : (i + 1) % q = 0
        · rw [if_pos hi, if_pos hi]
          by_cases hr : r = 0
          · rw [if_neg (not_not.2 hr), if_neg (not_not.2 hr), concat_numb h']
            have := ih fs (by simpa using hk) (i + 1) [] [] rfl
            simp only [applyID, Bool.false_eq_true, if_false, List.map_cons, labels_mk, this, and_self]
          · rw [if_pos hr, if_pos hr]
            cases fs with
            | nil => exact ⟨rfl, rfl⟩
            | cons g fs =>
              rw [List.map_cons]
              dsimp only
              have h1 := iloc_numb multi g (List.take r10) (List.take r10) (take_hsel r10)
              rw [← read_eq] at h1
              cases hx : iloc (List.take r10) (read multi g) with
              | error e =>
                cases hy : ilocLevel multi g (List.take r10) with
                | error e' => rw [hx, hy] at h1; cases h1; exact ⟨rfl, rfl⟩
                | ok y => rw [hx, hy] at h1; cases h1
              | ok x =>
                cases hy : ilocLevel multi g (List.take r10) with
                | error e' => rw [hx, hy] at h1; cases h1
                | ok y =>
                  rw [hx, hy] at h1
                  have h1 : x.labels = numb y := by injection h1
                  have h2 : (ret ++ [read multi f] ++ [x]).map DFrame.labels = (rs ++ [f] ++ [y]).map numb := by
                    rw [List.map_append, List.map_append (l₁ := rs ++ [f]), h']
                    congr 1
                    show [_] = [_]
                    rw [h1]
                  dsimp only
                  rw [concat_numb h2]
                  simp only [applyID, Bool.false_eq_true, if_false]
                  have h3 := iloc_numb multi (rs ++ [f] ++ [y]).flatten (List.drop r10) (List.drop r10) (drop_hsel r10)
                  cases hz : iloc (List.drop r10) (mk multi (numb (rs ++ [f] ++ [y]).flatten)) with
                  | error e =>
                    cases hw : ilocLevel multi (rs ++ [f] ++ [y]).flatten (List.drop r10) with
                    | error e' =>
                      rw [hz, hw] at h3; cases h3
                      refine ⟨rfl, ?_⟩
                      show [_] = [_]
                      rw [labels_mk]
                    | ok w => rw [hz, hw] at h3; cases h3
                  | ok z =>
                    cases hw : ilocLevel multi (rs ++ [f] ++ [y]).flatten (List.drop r10) with
                    | error e' => rw [hz, hw] at h3; cases h3
                    | ok w =>
                      rw [hz, hw] at h3
                      have h3 : z.labels = numb w := by injection h3
                      have := ih fs (by simp only [List.length_cons] at hk; omega) (i + 1) [z] [w] (by
                        show [_] = [_]
                        rw [h3])
                      simp only [List.map_cons, labels_mk, this, and_self]
        · rw [if_neg hi, if_neg hi]
          exact ih fs (by simpa using hk) (i + 1) _ _ h'

theorem loop_true {ids : List (Nat × String)} (hu : (ids.map Prod.fst).Nodup) (multi : Bool)
    (hs : multi = true → (ids.map Prod.snd).Nodup) (q r10 : Nat) (hq : 0 < q) : ∀ (fs : List (Frame ρ)),
    (∀ f ∈ fs, ∀ e ∈ f, e.1 ∈ ids.map Prod.fst) → ∀ (i : Nat) (ret : List (DFrame ρ)) (rs : List (Frame ρ)),
    ret.map DFrame.labels = rs.map numb → (∀ f ∈ rs, ∀ e ∈ f, e.1 ∈ ids.map Prod.fst) → (rs = [] ↔ i % q = 0) →
    (loop multi true ids q 0 r10 i (fs.map (read multi)) ret).2 = none ∧
    (Database.loop multi q 0 r10 i fs rs).2 = none ∧
    ∃ full named rest, (Database.loop multi q 0 r10 i fs rs).1 = full ++ rest ∧
      (loop multi true ids q 0 r10 i (fs.map (read multi)) ret).1.map DFrame.labels = named ++ rest.map numb ∧
      List.Forall₂ (Named ids) full named ∧ full.length = (i + fs.length) / q - i / q ∧
      rest.length = if (i + fs.length) % q = 0 then 0 else 1 := by
  intro fs
  induction fs with
  | nil =>
    intro _ i ret rs h _ hi
    rw [List.map_nil, loop.eq_def, Database.loop.eq_def]
    dsimp only
    have hl := congrArg List.length h
    rw [List.length_map, List.length_map] at hl
    cases ret with
    | nil =>
      have : rs = [] := List.length_eq_zero_iff.1 hl.symm
      subst this
      exact ⟨rfl, rfl, [], [], [], rfl, rfl, .nil, by simp, by simp [hi.1 rfl]⟩
    | cons a ret =>
      cases rs with
      | nil => cases hl
      | cons b rs =>
        have hne : ¬ i % q = 0 := fun h => by cases hi.2 h
        refine ⟨rfl, rfl, [], [], [(b :: rs).flatten], rfl, ?_, .nil, by simp, by simp [hne]⟩
        show [_] = [_]
        rw [concat_numb h, labels_mk]
  | cons f fs ih =>
    intro hfs i ret rs h hrs hi
    rw [List.map_cons, loop.eq_def, Database.loop.eq_def]
    dsimp only
    have h' : (ret ++ [read multi f]).map DFrame.labels = (rs ++ [f]).map numb := by
      rw [List.map_append, List.map_append, h]
      congr 1
      show [(read multi f).labels] = _
      rw [read_eq, labels_mk]; rfl
    have hrs' : ∀ g ∈ rs ++ [f], ∀ e ∈ g, e.1 ∈ ids.map Prod.fst := by
      intro g hg
      rcases List.mem_append.1 hg with hg | hg
      · exact hrs g hg
      · rw [List.mem_singleton.1 hg]; exact hfs f (by simp)
    have hfs' : ∀ g ∈ fs, ∀ e ∈ g, e.1 ∈ ids.map Prod.fst := fun g hg => hfs g (List.mem_cons_of_mem _ hg)
    have hlen : i + (f :: fs).length = i + 1 + fs.length := by rw [List.length_cons]; omega
    rw [if_neg hq.ne', if_neg hq.ne', hlen]
    by_cases hi1 : (i + 1) % q = 0
    · rw [if_pos hi1, if_pos hi1, if_neg (by simp), if_neg (by simp), concat_numb h']
      obtain ⟨d, hd, hN⟩ := setIDs_ok hu multi hs (rs ++ [f]).flatten (by
        intro e he
        obtain ⟨g, hg, he⟩ := List.mem_flatten.1 he
        exact hrs' g hg e he)
      simp only [applyID, if_true, hd]
      obtain ⟨h1, h2, full, named, rest, h3, h4, h5, h6, h7⟩ := ih hfs' (i + 1) [] [] rfl (by simp) (by simp [hi1])
      refine ⟨h1, h2, (rs ++ [f]).flatten :: full, d.labels :: named, rest, by rw [h3]; rfl, ?_, .cons hN h5, ?_, h7⟩
      · rw [List.map_cons, h4]; rfl
      · rw [List.length_cons, h6]
        have ha : i / q + 1 = (i + 1) / q := by
          rw [Nat.succ_div, if_pos (Nat.dvd_of_mod_eq_zero hi1)]
        have hb : (i + 1) / q ≤ (i + 1 + fs.length) / q := Nat.div_le_div_right (by omega)
        omega
    · rw [if_neg hi1, if_neg hi1]
      obtain ⟨h1, h2, full, named, rest, h3, h4, h5, h6, h7⟩ := ih hfs' (i + 1) _ _ h' hrs' (by simp [hi1])
      refine ⟨h1, h2, full, named, rest, h3, h4, h5, ?_, h7⟩
      have ha : i / q = (i + 1) / q := by
        rw [Nat.succ_div, if_neg (fun hd => hi1 (Nat.mod_eq_zero_of_dvd hd))]; rfl
      rw [h6, ha]

theorem rows_index {index : List Nat} {t : Frame ρ} {c : Nat} (hc : 0 < c) {start : Nat} :
    ∀ f ∈ (chunks c (index.drop start)).map (rowsOf t), ∀ e ∈ f, e.1 ∈ index := by
  intro f hf e he
  obtain ⟨b, hb, rfl⟩ := List.mem_map.1 hf
  unfold rowsOf at he
  have := (List.mem_filter.1 he).2
  simp only [decide_eq_true_eq] at this
  have hm : e.1 ∈ (chunks c (index.drop start)).flatten := List.mem_flatten.2 ⟨b, hb, this⟩
  rw [(chunks_blocks c hc _).1] at hm
  exact List.mem_of_mem_drop hm

/-! ## C113: blocks -/

/-- With `set_ID=False` the frames hold the numeric IDs (for all arguments, also if an exception is raised). -/
theorem C113_numeric (db : DB ρ) (key : String) (nids start : Nat) (chunk : Option Nat) :
    (nidsIter db false key nids start chunk).2 = (Database.nidsIter db key nids start chunk).2 ∧
      List.Forall₂ (fun f d => Numbered f d.labels) (Database.nidsIter db key nids start chunk).1
        (nidsIter db false key nids start chunk).1 := by
  have conv : ∀ (l : List (DFrame ρ)) (fs : List (Frame ρ)), l.map DFrame.labels = fs.map numb →
      List.Forall₂ (fun f d => Numbered f d.labels) fs l := by
    intro l
    induction l with
    | nil =>
      intro fs h
      have : fs = [] := by cases fs with
        | nil => rfl
        | cons => cases h
      subst this; exact .nil
    | cons d l ih =>
      intro fs h
      cases fs with
      | nil => cases h
      | cons f fs =>
        rw [List.map_cons, List.map_cons, List.cons.injEq] at h
        exact .cons ((numbered_iff _ _).2 h.1) (ih fs h.2)
  unfold nidsIter Database.nidsIter
  dsimp only
  cases db.tables.get? key with
  | none => exact ⟨rfl, .nil⟩
  | some t =>
    dsimp only
    cases getVals db.index t.rows (readChunk t.multi (min db.ids.length nids) chunk) start with
    | error e => exact ⟨rfl, .nil⟩
    | ok frames =>
      have := loop_false t.multi db.ids (min db.ids.length nids / readChunk t.multi (min db.ids.length nids) chunk)
        (min db.ids.length nids % readChunk t.multi (min db.ids.length nids) chunk) (min db.ids.length nids % 10)
        frames.length frames le_rfl 0 [] [] rfl
      exact ⟨this.1, conv _ _ this.2⟩

/-- The structure of the blocks if the read chunk size divides the size of a block. -/
theorem blocks_true (db : DB ρ) (key : String) (t : Table ρ) (nids start : Nat) (chunk : Option Nat)
    (hu : db.index.Nodup) (hs : t.multi = true → (db.ids.map Prod.snd).Nodup) (ht : db.tables.get? key = some t) (hn : 0 < nids)
    (hst : start < db.ids.length) (hc : ChunkOk t.multi (min db.ids.length nids) chunk) :
    (nidsIter db true key nids start chunk).2 = none ∧ ∃ q, 0 < q ∧
    min db.ids.length nids = q * readChunk t.multi (min db.ids.length nids) chunk ∧ ∃ full named rest,
      (Database.nidsIter db key nids start chunk).1 = full ++ rest ∧
      (nidsIter db true key nids start chunk).1.map DFrame.labels = named ++ rest.map numb ∧
      List.Forall₂ (Named db.ids) full named ∧
      full.length = (db.ids.length - start + readChunk t.multi (min db.ids.length nids) chunk - 1) /
        readChunk t.multi (min db.ids.length nids) chunk / q ∧
      rest.length = if (db.ids.length - start + readChunk t.multi (min db.ids.length nids) chunk - 1) /
        readChunk t.multi (min db.ids.length nids) chunk % q = 0 then 0 else 1 := by
  have hpos : 0 < min db.ids.length nids := by omega
  obtain ⟨hc0, q, hq⟩ := readChunk_ok hpos hc
  have hq0 : 0 < q := by
    rcases Nat.eq_zero_or_pos q with h | h
    · rw [h, Nat.mul_zero] at hq; omega
    · exact h
  have hlen : db.index.length = db.ids.length := by simp [DB.index]
  have hdiv : min db.ids.length nids / readChunk t.multi (min db.ids.length nids) chunk = q :=
    Nat.div_eq_of_eq_mul_right hc0 hq
  have hmod : min db.ids.length nids % readChunk t.multi (min db.ids.length nids) chunk = 0 :=
    Nat.mod_eq_zero_of_dvd ⟨q, hq⟩
  have hg : getVals db.index t.rows (readChunk t.multi (min db.ids.length nids) chunk) start =
      .ok ((chunks (readChunk t.multi (min db.ids.length nids) chunk) (db.index.drop start)).map (rowsOf t.rows)) := by
    unfold getVals
    rw [if_neg (by omega), if_neg (by omega)]
  obtain ⟨h1, _, full, named, rest, h3, h4, h5, h6, h7⟩ := loop_true hu t.multi hs q (min db.ids.length nids % 10) hq0
    ((chunks (readChunk t.multi (min db.ids.length nids) chunk) (db.index.drop start)).map (rowsOf t.rows))
    (rows_index hc0) 0 [] [] rfl (by simp) (by simp)
  have hL : ((chunks (readChunk t.multi (min db.ids.length nids) chunk) (db.index.drop start)).map (rowsOf t.rows)).length =
      (db.ids.length - start + readChunk t.multi (min db.ids.length nids) chunk - 1) /
        readChunk t.multi (min db.ids.length nids) chunk := by
    rw [List.length_map]
    unfold chunks
    rw [List.length_map, List.length_range, List.length_drop, hlen]
  rw [Nat.zero_add, hL] at h6 h7
  have e1 : nidsIter db true key nids start chunk = loop t.multi true db.ids q 0 (min db.ids.length nids % 10) 0
      (((chunks (readChunk t.multi (min db.ids.length nids) chunk) (db.index.drop start)).map (rowsOf t.rows)).map
        (read t.multi)) [] := by
    unfold nidsIter
    simp only [ht, hg, hdiv, hmod]
  have e2 : Database.nidsIter db key nids start chunk = Database.loop t.multi q 0 (min db.ids.length nids % 10) 0
      ((chunks (readChunk t.multi (min db.ids.length nids) chunk) (db.index.drop start)).map (rowsOf t.rows)) [] := by
    unfold Database.nidsIter
    simp only [ht, hg, hdiv, hmod]
  rw [e1, e2]
  refine ⟨h1, q, hq0, by rw [Nat.mul_comm]; exact hq, full, named, rest, h3, h4, h5, ?_, h7⟩
  rw [h6, Nat.zero_div, Nat.sub_zero]

/-- The last block of `n` IDs (of `m` IDs altogether, read in chunks of `c`) is read in as many steps as the other blocks. -/
def Complete (c n m : Nat) : Prop := n ≤ (m - 1) % n + c

theorem complete_iff {c q m n : Nat} (hn : n = q * c) (hc : 0 < c) (hq : 0 < q) (hm : 0 < m) :
    Complete c n m ↔ (m + c - 1) / c % q = 0 := by
  subst hn
  unfold Complete
  have h1 : (m + c - 1) / c = (m - 1) / c + 1 := by
    rw [show m + c - 1 = (m - 1) + c by omega, Nat.add_div_right _ hc]
  have h2 : (m - 1) % (q * c) / c = (m - 1) / c % q := by
    rw [Nat.mul_comm, Nat.mod_mul_right_div_self]
  rw [h1]
  generalize hx : (m - 1) % (q * c) = x at h2
  generalize (m - 1) / c = y at h2 ⊢
  have hxlt : x < q * c := by rw [← hx]; exact Nat.mod_lt _ (Nat.mul_pos hq hc)
  have hy : y % q < q := Nat.mod_lt _ hq
  have h3 : (y + 1) % q = 0 ↔ y % q = q - 1 := by
    rw [Nat.add_mod]
    by_cases h1q : q = 1
    · subst h1q; simp [Nat.mod_one]
    · rw [Nat.mod_eq_of_lt (by omega : 1 < q)]
      constructor
      · intro h
        by_contra hne
        rw [Nat.mod_eq_of_lt (by omega)] at h
        omega
      · intro h; rw [h, Nat.sub_add_cancel hq, Nat.mod_self]
  rw [h3, ← h2]
  constructor
  · intro h
    have h4 : q - 1 ≤ x / c := by
      rw [Nat.le_div_iff_mul_le hc, Nat.sub_mul]; omega
    omega
  · intro h
    have h4 : (q - 1) * c ≤ x := by
      rw [← Nat.le_div_iff_mul_le hc]; omega
    rw [Nat.sub_mul] at h4
    omega

/-- With `set_ID=True`, all blocks have the same rows with the string-IDs, if the read chunk size divides the size of a block and the last
block is read in as many steps as the others.  (Missing: other last blocks, see `C113_last_fails`; remainders, see `C113_remainder_fails`;
string-IDs that are not unique, see `C113_collision_fails`.) -/
theorem C113_blocks_partial (db : DB ρ) (key : String) (t : Table ρ) (nids start : Nat) (chunk : Option Nat)
    (hu : db.index.Nodup) (hs : t.multi = true → (db.ids.map Prod.snd).Nodup) (ht : db.tables.get? key = some t) (hn : 0 < nids)
    (hst : start < db.ids.length) (hc : ChunkOk t.multi (min db.ids.length nids) chunk)
    (hl : Complete (readChunk t.multi (min db.ids.length nids) chunk) (min db.ids.length nids) (db.ids.length - start)) :
    (nidsIter db true key nids start chunk).2 = none ∧
      List.Forall₂ (fun f d => Named db.ids f d.labels) (Database.nidsIter db key nids start chunk).1
        (nidsIter db true key nids start chunk).1 := by
  obtain ⟨h1, q, hq, hqc, full, named, rest, h3, h4, h5, _, h7⟩ := blocks_true db key t nids start chunk hu hs ht hn hst hc
  refine ⟨h1, ?_⟩
  have hc0 := (readChunk_ok (by omega) hc).1
  rw [complete_iff hqc hc0 hq (by omega)] at hl
  rw [if_pos hl, List.length_eq_zero_iff] at h7
  subst h7
  rw [List.map_nil, List.append_nil] at h4
  rw [List.append_nil] at h3
  rw [h3, ← List.forall₂_map_right_iff (f := DFrame.labels) (R := fun f g => Named db.ids f g), h4]
  exact h5

/-- Otherwise the last block has the numeric IDs, although `set_ID=True`. -/
theorem C113_last_fails (db : DB ρ) (key : String) (t : Table ρ) (nids start : Nat) (chunk : Option Nat)
    (hu : db.index.Nodup) (hs : t.multi = true → (db.ids.map Prod.snd).Nodup) (ht : db.tables.get? key = some t) (hn : 0 < nids)
    (hst : start < db.ids.length) (hc : ChunkOk t.multi (min db.ids.length nids) chunk)
    (hl : ¬ Complete (readChunk t.multi (min db.ids.length nids) chunk) (min db.ids.length nids) (db.ids.length - start)) :
    ∃ f d, (Database.nidsIter db key nids start chunk).1.getLast? = some f ∧
      (nidsIter db true key nids start chunk).1.getLast? = some d ∧ Numbered f d.labels := by
  obtain ⟨h1, q, hq, hqc, full, named, rest, h3, h4, h5, _, h7⟩ := blocks_true db key t nids start chunk hu hs ht hn hst hc
  have hc0 := (readChunk_ok (by omega) hc).1
  rw [complete_iff hqc hc0 hq (by omega)] at hl
  rw [if_neg hl, List.length_eq_one_iff] at h7
  obtain ⟨f, rfl⟩ := h7
  have h8 := congrArg List.getLast? h4
  rw [List.getLast?_map, List.map_cons, List.map_nil, List.getLast?_concat] at h8
  obtain ⟨d, hd, hd'⟩ := Option.map_eq_some_iff.1 h8
  exact ⟨f, d, by rw [h3, List.getLast?_concat], hd, (numbered_iff _ _).2 hd'⟩

/-- The default settings with at most ten IDs in each block. -/
theorem C113_default (db : DB ρ) (key : String) (t : Table ρ) (nids start : Nat)
    (hu : db.index.Nodup) (hs : t.multi = true → (db.ids.map Prod.snd).Nodup) (ht : db.tables.get? key = some t) (hn : 0 < nids)
    (hst : start < db.ids.length) (hc : t.multi = false ∨ nids ≤ 10) :
    (nidsIter db true key nids start none).2 = none ∧
      List.Forall₂ (fun f d => Named db.ids f d.labels) (Database.nidsIter db key nids start none).1
        (nidsIter db true key nids start none).1 := by
  have hr : readChunk t.multi (min db.ids.length nids) none = min db.ids.length nids := by
    unfold readChunk
    cases hm : t.multi with
    | false => rfl
    | true =>
      have : nids ≤ 10 := hc.resolve_left (by simp [hm])
      simp only [if_true]; omega
  refine C113_blocks_partial db key t nids start none hu hs ht hn hst ?_ ?_
  · rcases hc with hc | hc
    · exact .inl hc
    · exact .inr (.inl (by omega))
  · rw [hr]; unfold Complete; omega

/-! ## C113: the first block, single IDs and whole tables -/

/-- `get_nids`: string-IDs if the IDs from `start` on need as many steps as a block.  (Missing: see `C113_nids_fails`.) -/
theorem C113_nids_partial (db : DB ρ) (key : String) (t : Table ρ) (nids start : Nat) (chunk : Option Nat)
    (hu : db.index.Nodup) (hs : t.multi = true → (db.ids.map Prod.snd).Nodup) (ht : db.tables.get? key = some t) (hn : 0 < nids)
    (hst : start < db.ids.length) (hc : ChunkOk t.multi (min db.ids.length nids) chunk)
    (hl : min db.ids.length nids < db.ids.length - start + readChunk t.multi (min db.ids.length nids) chunk) :
    ∃ f d, (Database.nidsIter db key nids start chunk).next = .ok f ∧ getNids db true key nids start chunk = .ok d ∧
      Named db.ids f d.labels := by
  obtain ⟨_, q, hq, hqc, full, named, rest, h3, h4, h5, h6, _⟩ := blocks_true db key t nids start chunk hu hs ht hn hst hc
  have hc0 := (readChunk_ok (by omega) hc).1
  have hpos : 0 < full.length := by
    rw [h6, Nat.div_pos_iff]
    refine ⟨hq, ?_⟩
    rw [Nat.le_div_iff_mul_le hc0, ← hqc]
    omega
  cases h5 with
  | nil => simp at hpos
  | @cons f g full named h5 _ =>
    unfold getNids
    cases hg : nidsIter db true key nids start chunk with
    | mk l e =>
      cases hd : Database.nidsIter db key nids start chunk with
      | mk l' e' =>
        rw [hg] at h4
        rw [hd] at h3
        dsimp only at h3 h4
        subst h3
        cases l with
        | nil => simp at h4
        | cons d l =>
          rw [List.map_cons, List.cons_append, List.cons.injEq] at h4
          exact ⟨f, d, rfl, rfl, by rw [h4.1]; exact h5⟩

/-- Otherwise numeric IDs are returned. -/
theorem C113_nids_fails (db : DB ρ) (key : String) (t : Table ρ) (nids start : Nat) (chunk : Option Nat)
    (hu : db.index.Nodup) (hs : t.multi = true → (db.ids.map Prod.snd).Nodup) (ht : db.tables.get? key = some t) (hn : 0 < nids)
    (hst : start < db.ids.length) (hc : ChunkOk t.multi (min db.ids.length nids) chunk)
    (hl : db.ids.length - start + readChunk t.multi (min db.ids.length nids) chunk ≤ min db.ids.length nids) :
    ∃ f d, (Database.nidsIter db key nids start chunk).next = .ok f ∧ getNids db true key nids start chunk = .ok d ∧
      Numbered f d.labels := by
  obtain ⟨_, q, hq, hqc, full, named, rest, h3, h4, h5, h6, h7⟩ := blocks_true db key t nids start chunk hu hs ht hn hst hc
  have hc0 := (readChunk_ok (by omega) hc).1
  have hlt : (db.ids.length - start + readChunk t.multi (min db.ids.length nids) chunk - 1) /
      readChunk t.multi (min db.ids.length nids) chunk < q := by
    rw [Nat.div_lt_iff_lt_mul hc0, ← hqc]
    omega
  have hpos : 0 < (db.ids.length - start + readChunk t.multi (min db.ids.length nids) chunk - 1) /
      readChunk t.multi (min db.ids.length nids) chunk := Nat.div_pos (by omega) hc0
  rw [Nat.div_eq_of_lt hlt, List.length_eq_zero_iff] at h6
  subst h6
  cases h5
  rw [Nat.mod_eq_of_lt hlt, if_neg (by omega), List.length_eq_one_iff] at h7
  obtain ⟨f, rfl⟩ := h7
  unfold getNids
  cases hg : nidsIter db true key nids start chunk with
  | mk l e =>
    cases hd : Database.nidsIter db key nids start chunk with
    | mk l' e' =>
      rw [hg] at h4
      rw [hd] at h3
      dsimp only at h3 h4
      subst h3
      cases l with
      | nil => simp at h4
      | cons d l =>
        rw [List.map_cons, List.nil_append, List.map_cons, List.cons.injEq] at h4
        exact ⟨f, d, rfl, rfl, (numbered_iff _ _).2 h4.1⟩

/-- `get_id` returns the rows of the site, with its string-ID or with its number. -/
theorem C113_id (db : DB ρ) (key : String) (t : Table ρ) (n : Nat) (s : String) (hu : db.index.Nodup)
    (hs : (db.ids.map Prod.snd).Nodup) (hn : (n, s) ∈ db.ids) (ht : db.tables.get? key = some t) (k : Key) (hk : k = .num n ∨ k = .str s) :
    (∃ d, getId db true key k = .ok d ∧ d.labels = (t.rows.filter fun e => e.1 = n).map fun e => (.str s, e.2)) ∧
      ∃ d, getId db false key k = .ok d ∧ d.labels = (t.rows.filter fun e => e.1 = n).map fun e => (.num n, e.2) := by
  have hn' : n ∈ db.index := List.mem_map.2 ⟨_, hn, rfl⟩
  have hlt : db.index.idxOf n < db.index.length := List.idxOf_lt_length_iff.2 hn'
  have hlen : db.index.length = db.ids.length := by simp [DB.index]
  have hloc : getLoc db n = .ok (db.index.idxOf n) := by
    unfold getLoc
    rw [List.count_eq_one_of_mem hu hn']; rfl
  have hkn : keyNum db k = .ok n := by
    rcases hk with rfl | rfl
    · rfl
    · exact (C65_num db hs s n).2 hn
  have hget := C65_get db key t n hu hn' ht
  unfold Database.getId at hget
  rw [hloc] at hget
  simp only [bind, Except.bind] at hget
  have hall : ∀ e ∈ t.rows.filter (fun e => decide (e.1 = n)), e.1 = n := fun e he => by simpa using (List.mem_filter.1 he).2
  constructor
  · obtain ⟨_, hF⟩ := C113_default db key t 1 (db.index.idxOf n) hu (fun _ => hs) ht (by omega) (by omega) (.inr (by omega))
    unfold getId
    rw [hkn]
    dsimp only
    rw [hloc]
    dsimp only
    cases hd : Database.nidsIter db key 1 (db.index.idxOf n) none with
    | mk l e =>
      cases hg : nidsIter db true key 1 (db.index.idxOf n) none with
      | mk l' e' =>
        rw [hd, hg] at hF
        rw [hd] at hget
        cases l with
        | nil => cases e <;> cases hget
        | cons f l =>
          cases hF with
          | @cons _ d _ _ hN _ =>
            refine ⟨d, rfl, ?_⟩
            have : f = t.rows.filter fun e => decide (e.1 = n) := by injection hget
            subst this
            clear hget hd hg
            generalize List.filter (fun e => decide (e.1 = n)) t.rows = g at hN hall
            generalize d.labels = x at hN
            induction hN with
            | nil => rfl
            | @cons a b _ _ h1 _ ih =>
              obtain ⟨h1, s', h2, h3⟩ := h1
              have ha := hall a (by simp)
              have : ((a.1, s') : Nat × String) = (n, s) := List.inj_on_of_nodup_map hu h2 hn ha
              cases this
              rw [List.map_cons, ih fun e he => hall e (List.mem_cons_of_mem _ he), ← h1, ← h3]
  · obtain ⟨_, hF⟩ := C113_numeric db key 1 (db.index.idxOf n) none
    unfold getId
    rw [hkn]
    dsimp only
    rw [hloc]
    dsimp only
    cases hd : Database.nidsIter db key 1 (db.index.idxOf n) none with
    | mk l e =>
      cases hg : nidsIter db false key 1 (db.index.idxOf n) none with
      | mk l' e' =>
        rw [hd, hg] at hF
        rw [hd] at hget
        cases l with
        | nil => cases e <;> cases hget
        | cons f l =>
          cases hF with
          | @cons _ d _ _ hN _ =>
            refine ⟨d, rfl, ?_⟩
            have : f = t.rows.filter fun e => decide (e.1 = n) := by injection hget
            subst this
            rw [(numbered_iff _ _).1 hN]
            exact List.map_congr_left fun e he => by rw [hall e he]

/-- `select`: the whole table. -/
theorem C113_select (db : DB ρ) (key : String) (t : Table ρ) (hu : db.index.Nodup) (hs : t.multi = true → (db.ids.map Prod.snd).Nodup)
    (ht : db.tables.get? key = some t) (hr : ∀ e ∈ t.rows, e.1 ∈ db.index) :
    (∃ d, select db true key = .ok d ∧ Named db.ids t.rows d.labels) ∧
      ∃ d, select db false key = .ok d ∧ Numbered t.rows d.labels := by
  unfold select
  rw [ht]
  refine ⟨setIDs_ok hu t.multi hs t.rows hr, _, rfl, ?_⟩
  rw [numbered_iff, read_eq, labels_mk]

/-! ## C113: load_fit -/

theorem getId_false (db : DB ρ) (key : String) (n : Nat) :
    (getId db false key (.num n)).map DFrame.labels = (Database.getId db key n).map numb := by
  unfold getId Database.getId keyNum
  dsimp only
  cases getLoc db n with
  | error e => rfl
  | ok pos =>
    simp only [bind, Except.bind]
    obtain ⟨h1, h2⟩ := C113_numeric db key 1 pos none
    cases hd : Database.nidsIter db key 1 pos none with
    | mk l e =>
      cases hg : nidsIter db false key 1 pos none with
      | mk l' e' =>
        rw [hd, hg] at h1 h2
        dsimp only at h1
        subst h1
        cases h2 with
        | nil => cases e' <;> rfl
        | cons h _ => exact congrArg Except.ok ((numbered_iff _ _).1 h)

theorem loc_numb {d : DFrame ρ} {f : Frame ρ} (h : d.labels = numb f) (n : Nat) : loc d n = Database.loc f n := by
  unfold loc Database.loc
  rw [h]
  have : ((numb f).filter fun e => decide (e.1 = Label.num n)).map Prod.snd = (f.filter fun e => decide (e.1 = n)).map Prod.snd := by
    unfold numb
    rw [List.filter_map, List.map_map]
    have : ((fun e : Label × ρ => decide (e.1 = Label.num n)) ∘ fun e : Nat × ρ => (Label.num e.1, e.2)) = fun e => decide (e.1 = n) := by
      funext e; simp
    rw [this]; rfl
  rw [this]
  cases (f.filter fun e => decide (e.1 = n)).map Prod.snd <;> rfl

theorem part_false (db : DB ρ) (key : String) (n : Nat) : part db false key n = Database.part db key n := by
  unfold part Database.part
  have h := getId_false db key n
  cases hg : getId db false key (.num n) with
  | error e =>
    cases hd : Database.getId db key n with
    | error e' => rfl
    | ok f => rw [hg, hd] at h; cases h
  | ok d =>
    cases hd : Database.getId db key n with
    | error e' => rw [hg, hd] at h; cases h
    | ok f =>
      rw [hg, hd] at h
      have h : d.labels = numb f := by injection h
      dsimp only
      rw [loc_numb h]

/-- `load_fit` does not depend on `set_ID` (see C65 for the loaded fit), and leaves it as it is, also if it raises an exception. -/
theorem C113_load (db : DB ρ) (setID : Bool) (key : Key) : loadFit db setID key = (Database.loadFit db key, setID) := by
  unfold loadFit numericID
  dsimp only
  congr 1
  unfold loadBody Database.loadFit
  have key' : ∀ n, (match getId db false "init_dict" (.num n) with
      | .error _ => Except.ok none
      | .ok f => do
        let ident ← identOf db n
        let init ← loc f n
        let dataset ← part db false "dataset" n
        let aux ← part db false "aux_data" n
        let res ← part db false "res_dict" n
        let readerArg := match part db false "reader_arg" n with
          | .ok r => r
          | .error _ => none
        .ok (some ⟨ident, init, dataset, aux, readerArg, res⟩) : Except PyErr (Option (Loaded ρ))) =
      (match Database.getId db "init_dict" n with
      | .error _ => .ok none
      | .ok f => do
        let ident ← identOf db n
        let init ← Database.loc f n
        let dataset ← Database.part db "dataset" n
        let aux ← Database.part db "aux_data" n
        let res ← Database.part db "res_dict" n
        let readerArg := match Database.part db "reader_arg" n with
          | .ok r => r
          | .error _ => none
        .ok (some ⟨ident, init, dataset, aux, readerArg, res⟩)) := by
    intro n
    have h := getId_false db "init_dict" n
    cases hg : getId db false "init_dict" (.num n) with
    | error e =>
      cases hd : Database.getId db "init_dict" n with
      | error e' => rfl
      | ok f => rw [hg, hd] at h; cases h
    | ok d =>
      cases hd : Database.getId db "init_dict" n with
      | error e' => rw [hg, hd] at h; cases h
      | ok f =>
        rw [hg, hd] at h
        have h : d.labels = numb f := by injection h
        dsimp only
        simp only [loc_numb h, part_false]
  cases key with
  | num n => exact key' n
  | str s =>
    show (idNum db s >>= _) = (idNum db s >>= _)
    congr 1
    funext n
    exact key' n

/-! ## C113: the attributes of `datasets` -/

/-- The keys that are used. -/
def Used (keys : List (List String)) (p : List String) : Prop := p ∈ keys ∧ p.getLast? ≠ some "meta"

instance (keys : List (List String)) (p : List String) : Decidable (Used keys p) := by unfold Used; infer_instance

theorem addCfg_fold : ∀ (l : List (List String)) (d : Dict String (List String)) (c : String),
    ((l.foldl addCfg d).get? c = none ↔ d.get? c = none ∧ ∀ k, [c, k] ∉ l) ∧
      ∀ k, k ∈ ((l.foldl addCfg d).get? c).getD [] ↔ k ∈ (d.get? c).getD [] ∨ [c, k] ∈ l
  | [], d, c => by simp
  | p :: l, d, c => by
    have ih := addCfg_fold l (addCfg d p) c
    rw [List.foldl_cons]
    match p with
    | [] => simpa [addCfg] using ih
    | [a] => simpa [addCfg] using ih
    | a :: b :: x :: y => simpa [addCfg] using ih
    | [a, b] =>
      have hg : (addCfg d [a, b]).get? c = if c = a then some ((d.get? a).getD [] ++ [b]) else d.get? c := by
        unfold addCfg; rw [Dict.get?_set]
      rw [hg] at ih
      by_cases hc : c = a
      · subst hc
        rw [if_pos rfl] at ih
        refine ⟨by rw [ih.1]; simp only [reduceCtorEq, false_and, false_iff, not_and]; exact fun _ h => h b (by simp), fun k => ?_⟩
        rw [ih.2 k]
        simp [or_assoc]
      · rw [if_neg hc] at ih
        refine ⟨by rw [ih.1]; simp [hc], fun k => ?_⟩
        rw [ih.2 k]; simp [hc]

theorem addCfg_nodup : ∀ (l : List (List String)) (d : Dict String (List String)), d.keys.Nodup → (l.foldl addCfg d).keys.Nodup
  | [], _, h => h
  | p :: l, d, h => by
    refine addCfg_nodup l _ ?_
    match p with
    | [] => exact h
    | [_] => exact h
    | _ :: _ :: _ :: _ => exact h
    | [_, _] => exact Dict.nodup_set h _ _

theorem addAttr_fold : ∀ (l : List (List String)) (d : Dict Attr Sel) (k : String),
    (l.foldl addAttr d).get? (.name k) = if [k] ∈ l then some (.table [k]) else d.get? (.name k)
  | [], d, k => by simp
  | p :: l, d, k => by
    rw [List.foldl_cons, addAttr_fold l]
    match p with
    | [] => simp [addAttr, Dict.get?_set]
    | [a] =>
      by_cases h : [k] ∈ l
      · simp [h]
      · by_cases ha : k = a
        · subst ha; simp [addAttr, Dict.get?_set]
        · simp [addAttr, Dict.get?_set, h, ha]
    | [a, b] => simp [addAttr]
    | a :: b :: x :: y => simp [addAttr, Dict.get?_set]

theorem cfg_fold : ∀ (l : Dict String (List String)), l.keys.Nodup → ∀ (d : Dict Attr Sel) (k : String),
    (l.foldl (fun d ck => d.set (.name ck.1) (cfgSel ck.1 ck.2)) d).get? (.name k) =
      match l.get? k with
      | some ks => some (cfgSel k ks)
      | none => d.get? (.name k)
  | [], _, d, k => rfl
  | e :: l, h, d, k => by
    rw [Dict.keys_cons, List.nodup_cons] at h
    rw [List.foldl_cons, cfg_fold l h.2, Dict.get?_cons]
    by_cases hk : e.1 = k
    · subst hk
      rw [(Dict.get?_eq_none l e.1).2 h.1, if_pos rfl]
      simp [Dict.get?_set]
    · rw [if_neg hk]
      cases Dict.get? l k with
      | some ks => rfl
      | none => simp [Dict.get?_set, Ne.symm hk]

theorem cfgSel_get (c : String) (k : String) : ∀ (ks : List String) (d : Dict String (List String)),
    (ks.foldl (fun d k => d.set k [c, k]) d).get? k = if k ∈ ks then some [c, k] else d.get? k
  | [], d => by simp
  | a :: ks, d => by
    rw [List.foldl_cons, cfgSel_get c k ks, Dict.get?_set]
    by_cases h : k ∈ ks
    · simp [h]
    · by_cases ha : k = a
      · subst ha; simp
      · simp [h, ha]

theorem datasets_get (keys : List (List String)) (k : String) :
    (datasets keys).get? (.name k) =
      match ((keys.filter fun p => p.getLast? ≠ some "meta").foldl addCfg []).get? k with
      | some ks => some (cfgSel k ks)
      | none => if Used keys [k] then some (.table [k]) else none := by
  unfold datasets
  dsimp only
  rw [cfg_fold _ (addCfg_nodup _ [] List.nodup_nil)]
  have : ([k] ∈ keys.filter fun p => decide (p.getLast? ≠ some "meta")) ↔ Used keys [k] := by
    unfold Used; rw [List.mem_filter, decide_eq_true_eq]
  cases ((keys.filter fun p => p.getLast? ≠ some "meta").foldl addCfg []).get? k with
  | some ks => rfl
  | none =>
    dsimp only
    rw [addAttr_fold]
    simp only [this]
    rfl

/-- Without a config of the same name, a table is found as attribute (and only tables of the store are found). (Missing: tables with the name of
a config, see `C113_shadow_fails`, or with the name `meta`.) -/
theorem C113_table_partial (keys : List (List String)) (k : String) (path : List String) :
    (datasets keys).get? (.name k) = some (.table path) ↔ path = [k] ∧ Used keys [k] ∧ ∀ x, ¬ Used keys [k, x] := by
  rw [datasets_get]
  have h := (addCfg_fold (keys.filter fun p => p.getLast? ≠ some "meta") [] k).1
  have hU : ∀ x, [k, x] ∈ (keys.filter fun p => decide (p.getLast? ≠ some "meta")) ↔ Used keys [k, x] := by
    intro x; unfold Used; rw [List.mem_filter, decide_eq_true_eq]
  cases hg : ((keys.filter fun p => p.getLast? ≠ some "meta").foldl addCfg []).get? k with
  | some ks =>
    dsimp only
    unfold cfgSel
    constructor
    · intro h'; cases h'
    · rintro ⟨_, _, h3⟩
      rw [hg] at h
      have := h.2 ⟨rfl, fun x hx => h3 x ((hU x).1 hx)⟩
      cases this
  | none =>
    dsimp only
    have h2 := (h.1 hg).2
    constructor
    · intro h'
      split_ifs at h' with h''
      cases h'
      exact ⟨rfl, h'', fun x hx => h2 x ((hU x).2 hx)⟩
    · rintro ⟨rfl, h1, _⟩
      rw [if_pos h1]

/-- The tables of a config are found as attributes of the attribute with the name of the config. -/
theorem C113_config (keys : List (List String)) (c k : String) (path : List String) :
    (∃ tables, (datasets keys).get? (.name c) = some (.cfg tables) ∧ tables.get? k = some path) ↔ path = [c, k] ∧ Used keys [c, k] := by
  rw [datasets_get]
  have h := addCfg_fold (keys.filter fun p => p.getLast? ≠ some "meta") [] c
  have hU : ∀ x, [c, x] ∈ (keys.filter fun p => decide (p.getLast? ≠ some "meta")) ↔ Used keys [c, x] := by
    intro x; unfold Used; rw [List.mem_filter, decide_eq_true_eq]
  cases hg : ((keys.filter fun p => p.getLast? ≠ some "meta").foldl addCfg []).get? c with
  | some ks =>
    rw [hg] at h
    have h2 := h.2 k
    rw [hU] at h2
    simp only [Dict.get?_nil, Option.getD_some, Option.getD_none, List.not_mem_nil, false_or] at h2
    dsimp only
    unfold cfgSel
    constructor
    · rintro ⟨tables, h3, h4⟩
      cases h3
      rw [cfgSel_get] at h4
      split_ifs at h4 with hk
      · cases h4; exact ⟨rfl, h2.1 hk⟩
      · cases h4
    · rintro ⟨rfl, h3⟩
      refine ⟨_, rfl, ?_⟩
      rw [cfgSel_get, if_pos (h2.2 h3)]
  | none =>
    dsimp only
    constructor
    · rintro ⟨tables, h3, _⟩
      split_ifs at h3
      cases h3
    · rintro ⟨_, h3⟩
      exact absurd ((hU k).2 h3) ((h.1.1 hg).2 k)

/-- A table with the name of a config cannot be found. -/
theorem C113_shadow_fails : ∃ keys : List (List String), Used keys ["dataset"] ∧
    (datasets keys).get? (.name "dataset") ≠ some (.table ["dataset"]) := by
  refine ⟨[["dataset"], ["dataset", "tau"]], ⟨by decide, by decide⟩, ?_⟩
  intro h
  exact ((C113_table_partial _ _ _).1 h).2.2 "tau" ⟨by decide, by decide⟩

/-! ## C113: violations -/

/-- Blocks of 20 of 25 IDs (with the default settings): the second block has numeric IDs. -/
theorem C113_fails : ∃ db : DB Nat, db.index.Nodup ∧ (db.ids.map Prod.snd).Nodup ∧
    (nidsIter db true "dataset" 20 0 none).2 = none ∧
    ((nidsIter db true "dataset" 20 0 none).1.map DFrame.labels).map (fun f => f.all fun e => !e.1.isNum) = [true, false] := by
  refine ⟨⟨(List.range 25).map fun i => (i, String.ofList (List.replicate i 'a')), [("dataset", ⟨true, (List.range 25).map fun i => (i, i)⟩)]⟩,
    by decide +kernel, by decide +kernel, by decide +kernel, by decide +kernel⟩

/-- Blocks of 15 of 50 IDs: KeyError instead of the second block. -/
theorem C113_remainder_fails : ∃ db : DB Nat, db.index.Nodup ∧ (db.ids.map Prod.snd).Nodup ∧
    (nidsIter db true "dataset" 15 0 none).1.length = 1 ∧ (nidsIter db true "dataset" 15 0 none).2 = some .keyError ∧
    (nidsIter db false "dataset" 15 0 none).2 = some .runtimeError := by
  refine ⟨⟨(List.range 50).map fun i => (i, String.ofList (List.replicate i 'a')), [("dataset", ⟨true, (List.range 50).map fun i => (i, i)⟩)]⟩,
    by decide +kernel, by decide +kernel, by decide +kernel, by decide +kernel, by decide +kernel⟩

/-- Two sites with the same string-ID (see C44): ValueError for a table with a MultiIndex. -/
theorem C113_collision_fails : ∃ db : DB Nat, db.index.Nodup ∧ (nidsIter db false "dataset" 2 0 none).2 = none ∧
    (nidsIter db true "dataset" 2 0 none).2 = some .valueError := by
  refine ⟨⟨[(0, "RT1_1"), (1, "RT1_1")], [("dataset", ⟨true, [(0, 5), (1, 6)]⟩)]⟩, by decide +kernel, by decide +kernel, by decide +kernel⟩

/-! ## Examples -/

/-- Three sites, not sorted. -/
def exDB : DB Nat := ⟨[(4, "a"), (1, "b"), (2, "c")], [("dataset", ⟨true, [(1, 10), (4, 40), (1, 11), (2, 20)]⟩),
  ("init_dict", ⟨false, [(4, 0), (1, 1), (2, 2)]⟩)]⟩

example : exDB.index.Nodup ∧ (exDB.ids.map Prod.snd).Nodup := by decide
example : ChunkOk true (min 3 2) (some 1) ∧ Complete 1 2 (3 - 1) ∧ ¬ Complete 1 2 (3 - 0) := by unfold Complete ChunkOk; decide
example : (nidsIter exDB true "dataset" 2 1 (some 1)).1.map DFrame.labels = [[(.str "b", 10), (.str "b", 11), (.str "c", 20)]] := by decide +kernel
example : (nidsIter exDB true "dataset" 2 0 (some 1)).1.map DFrame.labels =
    [[(.str "a", 40), (.str "b", 10), (.str "b", 11)], [(.num 2, 20)]] := by decide +kernel
example : ∀ e ∈ ([(1, 10), (4, 40), (1, 11), (2, 20)] : List (Nat × Nat)), e.1 ∈ exDB.index := by decide
example : (select exDB true "init_dict").map DFrame.labels = .ok [(.str "a", 0), (.str "b", 1), (.str "c", 2)] := rfl
example : loadBody exDB (.num 1) true = .error .keyError := rfl
example : (loadFit exDB true (.str "b")).1 = .ok (some ⟨"b", [1], some [10, 11], none, none, none⟩) := by rw [C113_load]; decide +kernel
example : Used [["dataset"], ["cfg", "tau"], ["cfg", "x", "meta"]] ["cfg", "tau"] ∧ Used [["dataset"], ["cfg", "tau"]] ["dataset"] ∧
    ¬ Used [["dataset"], ["cfg", "tau"], ["cfg", "x", "meta"]] ["cfg", "x", "meta"] := by unfold Used; decide

end SetID
end RT1
