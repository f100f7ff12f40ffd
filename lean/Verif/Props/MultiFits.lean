import Verif.Model.MultiFits
import Verif.Lemmas.Dict
import Verif.Lemmas.General

/-!
# The MultiFits container (C68)
-/

namespace RT1
namespace MultiFits
variable {V : Type}

/-! ## Specification -/

/-- A name that can be used. -/
def Valid (isIdent : String → Bool) (n : String) : Prop := isIdent n = true ∧ n ∉ reserved

instance (isIdent : String → Bool) (n : String) : Decidable (Valid isIdent n) := by unfold Valid; infer_instance

/-- The (valid) configurations added, in order. -/
def added (isIdent : String → Bool) : List (Op V) → List (String × Nat)
  | [] => []
  | .add n o :: ops => if Valid isIdent n then (n, o) :: added isIdent ops else added isIdent ops
  | _ :: ops => added isIdent ops

/-- Every element once, in the order of the first occurrences. -/
def firsts {α : Type} [DecidableEq α] : List α → List α
  | [] => []
  | x :: l => x :: (firsts l).filter (· ≠ x)

/-- The object that was added last under a name. -/
def lastAdded (l : List (String × Nat)) (n : String) : Option Nat := ((l.reverse.find? fun e => e.1 = n).map Prod.snd)

/-- No object is added under two names. -/
def Separate (l : List (String × Nat)) : Prop := ∀ e ∈ l, ∀ e' ∈ l, e.2 = e'.2 → e.1 = e'.1

/-! ## Lemmas -/

theorem added_append (isIdent : String → Bool) (a b : List (Op V)) :
    added isIdent (a ++ b) = added isIdent a ++ added isIdent b := by
  induction a with
  | nil => rfl
  | cons o a ih =>
    cases o with
    | add n i => simp only [List.cons_append, added, ih]; split_ifs <;> rfl
    | _ => simpa only [List.cons_append, added] using ih

theorem run_append (isIdent : String → Bool) (s : State V) (ops : List (Op V)) (o : Op V) :
    run isIdent s (ops ++ [o]) = step isIdent (run isIdent s ops) o := by
  simp [run, List.foldl_append]

theorem step_add (isIdent : String → Bool) (s : State V) (n : String) (o : Nat) :
    step isIdent s (.add n o) = if Valid isIdent n then { s with
      names := s.names ++ [n]
      heap := fun i => if i = o then { s.heap o with dataset := s.dataset, aux := s.aux, configName := some n } else s.heap i
      attrs := s.attrs.set n o } else s := by
  unfold step addConfig Valid
  by_cases h : isIdent n = true
  · by_cases h' : n ∈ reserved <;> simp [h, h']
  · simp [h]

theorem setAll_attrs (s : State V) (f : Fit V → Fit V) : (setAll s f).attrs = s.attrs ∧ (setAll s f).names = s.names :=
  ⟨rfl, rfl⟩

/-- The loop over the names for a setter that is idempotent: exactly the objects of the configurations change. -/
theorem setAll_heap (s : State V) (f : Fit V → Fit V) (hf : ∀ x, f (f x) = f x) (i : Nat) :
    (setAll s f).heap i = if ∃ n ∈ s.names, s.attrs.get? n = some i then f (s.heap i) else s.heap i := by
  unfold setAll
  dsimp only
  have key : ∀ (l : List String) (h : Nat → Fit V), (l.foldl (fun h n => match s.attrs.get? n with
      | some o => fun i => if i = o then f (h o) else h i
      | none => h) h) i = if ∃ n ∈ l, s.attrs.get? n = some i then f (h i) else h i := by
    intro l
    induction l with
    | nil => intro h; simp
    | cons n l ih =>
      intro h
      rw [List.foldl_cons, ih]
      cases hn : s.attrs.get? n with
      | none => simp [hn]
      | some o =>
        dsimp only
        by_cases ho : i = o
        · subst ho
          simp [hn, hf]
        · have : some o ≠ some i := by simpa using fun e => ho e.symm
          simp [hn, ho, this]
  exact key _ _

theorem step_other (isIdent : String → Bool) (s : State V) (op : Op V) (h : ∀ n o, op ≠ .add n o) :
    (step isIdent s op).names = s.names ∧ (step isIdent s op).attrs = s.attrs ∧
      ∀ i, ((step isIdent s op).heap i).configName = (s.heap i).configName := by
  have hh : ∀ (s : State V) (f : Fit V → Fit V), (∀ x, f (f x) = f x) → (∀ x, (f x).configName = x.configName) →
      ∀ i, ((setAll s f).heap i).configName = (s.heap i).configName := by
    intro s f h1 h2 i
    rw [setAll_heap s f h1]
    split_ifs
    · exact h2 _
    · rfl
  cases op with
  | add n o => exact absurd rfl (h n o)
  | setDataset v => exact ⟨rfl, rfl, hh { s with dataset := v } (fun f => { f with dataset := v }) (fun _ => rfl) (fun _ => rfl)⟩
  | setAux v => exact ⟨rfl, rfl, hh { s with aux := v } (fun f => { f with aux := v }) (fun _ => rfl) (fun _ => rfl)⟩
  | setReaderArg v => exact ⟨rfl, rfl, hh { s with readerArg := v } (fun f => { f with readerArg := v }) (fun _ => rfl) (fun _ => rfl)⟩
  | setID v => exact ⟨rfl, rfl, hh s (fun f => { f with ident := v }) (fun _ => rfl) (fun _ => rfl)⟩

theorem added_other (isIdent : String → Bool) (op : Op V) (h : ∀ n o, op ≠ .add n o) : added isIdent [op] = [] := by
  cases op with
  | add n o => exact absurd rfl (h n o)
  | _ => rfl

theorem lastAdded_append (l : List (String × Nat)) (e : String × Nat) (n : String) :
    lastAdded (l ++ [e]) n = if e.1 = n then some e.2 else lastAdded l n := by
  unfold lastAdded
  rw [List.reverse_append, List.reverse_singleton, List.singleton_append, List.find?_cons]
  by_cases h : e.1 = n <;> simp [h]

theorem lastAdded_mem {l : List (String × Nat)} {n : String} {o : Nat} (h : lastAdded l n = some o) : (n, o) ∈ l := by
  unfold lastAdded at h
  obtain ⟨e, he, rfl⟩ := Option.map_eq_some_iff.1 h
  have h1 := List.find?_some he
  simp only [decide_eq_true_eq] at h1
  subst h1
  exact List.mem_reverse.1 (List.mem_of_find?_eq_some he)

theorem lastAdded_isSome {l : List (String × Nat)} {n : String} : (lastAdded l n).isSome ↔ n ∈ l.map Prod.fst := by
  unfold lastAdded
  simp [List.find?_isSome]

/-! ## C68 -/

section
variable (isIdent : String → Bool) (heap : Nat → Fit V) (d a r : V)

/-- `config_names` lists all names that were added, as often as they were added. -/
theorem C68_names (ops : List (Op V)) :
    (run isIdent (fresh heap d a r) ops).names = (added isIdent ops).map Prod.fst := by
  induction ops using List.reverseRecOn with
  | nil => rfl
  | append_singleton ops op ih =>
    rw [run_append, added_append, List.map_append, ← ih]
    by_cases h : ∃ n o, op = .add n o
    · obtain ⟨n, o, rfl⟩ := h
      rw [step_add]
      simp only [added]
      split_ifs <;> simp
    · push Not at h
      rw [(step_other isIdent _ op h).1, added_other isIdent op h]
      simp

/-- Each name maps to the object that was added last under this name. -/
theorem C68_last (ops : List (Op V)) (n : String) :
    (run isIdent (fresh heap d a r) ops).attrs.get? n = lastAdded (added isIdent ops) n := by
  induction ops using List.reverseRecOn with
  | nil => rfl
  | append_singleton ops op ih =>
    rw [run_append, added_append]
    by_cases h : ∃ n o, op = .add n o
    · obtain ⟨m, o, rfl⟩ := h
      rw [step_add]
      by_cases hv : Valid isIdent m
      · simp only [added, hv, if_true, lastAdded_append, Dict.get?_set, ih]
        by_cases hm : m = n
        · simp [hm]
        · simp [hm, Ne.symm hm]
      · simp only [added, hv, if_false, List.append_nil]
        exact ih
    · push Not at h
      rw [(step_other isIdent _ op h).2.1, added_other isIdent op h, List.append_nil]
      exact ih

/-- If no name is added twice, the names are listed once, in order. (Missing: names that are added again, see
`C68_names_fails`.) -/
theorem C68_names_partial (ops : List (Op V)) (h : ((added isIdent ops).map Prod.fst).Nodup) :
    (run isIdent (fresh heap d a r) ops).names = firsts ((added isIdent ops).map Prod.fst) := by
  rw [C68_names]
  generalize (added isIdent ops).map Prod.fst = l at h
  induction l with
  | nil => rfl
  | cons x l ih =>
    rw [List.nodup_cons] at h
    rw [firsts, ← ih h.2]
    congr 1
    rw [List.filter_eq_self.2]
    intro y hy
    simp only [ne_eq, decide_not, Bool.not_eq_true', decide_eq_false_iff_not]
    rintro rfl
    exact h.1 hy

end

/-! ### Shared attributes -/

/-- The last value given to `set_dataset`. -/
def lastDataset (d : V) (ops : List (Op V)) : V := ops.foldl (fun cur o => match o with
  | .setDataset v => v
  | _ => cur) d

/-- The last value given to `set_aux_data`. -/
def lastAux (a : V) (ops : List (Op V)) : V := ops.foldl (fun cur o => match o with
  | .setAux v => v
  | _ => cur) a

/-- The invariant: the dataset and the aux data of all configurations. -/
theorem shared (isIdent : String → Bool) (heap : Nat → Fit V) (d a r : V) (ops : List (Op V)) :
    let s := run isIdent (fresh heap d a r) ops
    s.dataset = lastDataset d ops ∧ s.aux = lastAux a ops ∧
      ∀ n o, n ∈ s.names → s.attrs.get? n = some o → (s.heap o).dataset = s.dataset ∧ (s.heap o).aux = s.aux := by
  induction ops using List.reverseRecOn with
  | nil => exact ⟨rfl, rfl, by simp [run, fresh]⟩
  | append_singleton ops op ih =>
    dsimp only at ih ⊢
    rw [run_append]
    generalize run isIdent (fresh heap d a r) ops = s at ih
    obtain ⟨h1, h2, h3⟩ := ih
    simp only [lastDataset, lastAux, List.foldl_append, List.foldl_cons, List.foldl_nil] at h1 h2 ⊢
    cases op with
    | add n o =>
      rw [step_add]
      split_ifs with hv
      · refine ⟨h1, h2, ?_⟩
        intro m i hm hi
        dsimp only at hm hi ⊢
        by_cases hio : i = o
        · simp [hio]
        · simp only [hio, if_false]
          rw [Dict.get?_set] at hi
          by_cases hmn : m = n
          · rw [if_pos hmn] at hi; exact absurd (Option.some.inj hi).symm hio
          · rw [if_neg hmn] at hi
            refine h3 m i ?_ hi
            rcases List.mem_append.1 hm with h | h
            · exact h
            · exact absurd (List.mem_singleton.1 h) hmn
      · exact ⟨h1, h2, h3⟩
    | setDataset v =>
      refine ⟨rfl, h2, ?_⟩
      intro m i hm hi
      simp only [step, setDataset, setAll_heap { s with dataset := v } (fun f => { f with dataset := v }) (fun _ => rfl)]
      rw [if_pos ⟨m, hm, hi⟩]
      exact ⟨rfl, (h3 m i hm hi).2⟩
    | setAux v =>
      refine ⟨h1, rfl, ?_⟩
      intro m i hm hi
      simp only [step, setAux, setAll_heap { s with aux := v } (fun f => { f with aux := v }) (fun _ => rfl)]
      rw [if_pos ⟨m, hm, hi⟩]
      exact ⟨(h3 m i hm hi).1, rfl⟩
    | setReaderArg v =>
      refine ⟨h1, h2, ?_⟩
      intro m i hm hi
      simp only [step, setReaderArg, setAll_heap { s with readerArg := v } (fun f => { f with readerArg := v }) (fun _ => rfl)]
      rw [if_pos ⟨m, hm, hi⟩]
      exact h3 m i hm hi
    | setID v =>
      refine ⟨h1, h2, ?_⟩
      intro m i hm hi
      simp only [step, setID, setAll_heap s (fun f => { f with ident := v }) (fun _ => rfl)]
      rw [if_pos ⟨m, hm, hi⟩]
      exact h3 m i hm hi

section
variable (isIdent : String → Bool) (heap : Nat → Fit V) (d a r : V)

/-- All configurations have the dataset and the aux data that were set last, no matter when they were added. -/
theorem C68_dataset (ops : List (Op V)) (n : String) (o : Nat) (h : lastAdded (added isIdent ops) n = some o) :
    ((run isIdent (fresh heap d a r) ops).heap o).dataset = lastDataset d ops ∧
      ((run isIdent (fresh heap d a r) ops).heap o).aux = lastAux a ops := by
  obtain ⟨h1, h2, h3⟩ := shared isIdent heap d a r ops
  rw [← h1, ← h2]
  refine h3 n o ?_ ?_
  · rw [C68_names]
    exact lastAdded_isSome.1 (by rw [h]; rfl)
  · rw [C68_last]; exact h

/-- `set_reader_arg` and `set_ID` reach all configurations that have been added. -/
theorem C68_setters (ops : List (Op V)) (v : V) (n : String) (o : Nat) (h : lastAdded (added isIdent ops) n = some o) :
    ((run isIdent (fresh heap d a r) (ops ++ [.setReaderArg v])).heap o).readerArg = v ∧
      ((run isIdent (fresh heap d a r) (ops ++ [.setID v])).heap o).ident = v := by
  have hn : n ∈ (run isIdent (fresh heap d a r) ops).names := by
    rw [C68_names]
    exact lastAdded_isSome.1 (by rw [h]; rfl)
  have ho : (run isIdent (fresh heap d a r) ops).attrs.get? n = some o := by rw [C68_last]; exact h
  rw [run_append, run_append]
  generalize run isIdent (fresh heap d a r) ops = s at hn ho
  simp only [step, setReaderArg, setID,
    setAll_heap { s with readerArg := v } (fun f => { f with readerArg := v }) (fun _ => rfl),
    setAll_heap s (fun f => { f with ident := v }) (fun _ => rfl)]
  rw [if_pos ⟨n, hn, ho⟩, if_pos ⟨n, hn, ho⟩]
  exact ⟨rfl, rfl⟩

/-- Objects that belong to no configuration are not changed by the setters. -/
theorem C68_untouched (ops : List (Op V)) (o : Nat) (h : ∀ n, (n, o) ∉ added isIdent ops) :
    (run isIdent (fresh heap d a r) ops).heap o = heap o := by
  induction ops using List.reverseRecOn with
  | nil => rfl
  | append_singleton ops op ih =>
    rw [added_append] at h
    have ih := ih fun n hn => h n (List.mem_append_left _ hn)
    have hno : ∀ n, (run isIdent (fresh heap d a r) ops).attrs.get? n ≠ some o := by
      intro n hn
      rw [C68_last] at hn
      exact h n (List.mem_append_left _ (lastAdded_mem hn))
    rw [run_append]
    generalize run isIdent (fresh heap d a r) ops = s at ih hno
    have hne : ¬ ∃ n ∈ s.names, s.attrs.get? n = some o := fun ⟨n, _, hn⟩ => hno n hn
    cases op with
    | add n i =>
      rw [step_add]
      split_ifs with hv
      · have : o ≠ i := by
          rintro rfl
          exact h n (List.mem_append_right _ (by simp [added, hv]))
        simpa [this] using ih
      · exact ih
    | setDataset v =>
      simp only [step, setDataset, setAll_heap { s with dataset := v } (fun f => { f with dataset := v }) (fun _ => rfl)]
      rw [if_neg hne]; exact ih
    | setAux v =>
      simp only [step, setAux, setAll_heap { s with aux := v } (fun f => { f with aux := v }) (fun _ => rfl)]
      rw [if_neg hne]; exact ih
    | setReaderArg v =>
      simp only [step, setReaderArg, setAll_heap { s with readerArg := v } (fun f => { f with readerArg := v }) (fun _ => rfl)]
      rw [if_neg hne]; exact ih
    | setID v =>
      simp only [step, setID, setAll_heap s (fun f => { f with ident := v }) (fun _ => rfl)]
      rw [if_neg hne]; exact ih

end

/-! ### apply -/

theorem set_map (v : String → Nat) (L : List String) (x : String) :
    Dict.set (L.map fun n => (some n, v n)) (some x) (v x) =
      (if x ∈ L then L else L ++ [x]).map fun n => (some n, v n) := by
  induction L with
  | nil => rfl
  | cons y L ih =>
    simp only [List.map_cons, Dict.set, Option.some.injEq]
    by_cases h : y = x
    · simp [h]
    · rw [if_neg h, ih]
      by_cases h' : x ∈ L
      · simp [h']
      · simp [h', Ne.symm h]

theorem update_map (v : String → Nat) (l : List String) : ∀ L : List String,
    Dict.update (L.map fun n => (some n, v n)) (l.map fun n => (some n, v n)) =
      (L ++ (firsts l).filter (· ∉ L)).map fun n => (some n, v n) := by
  induction l with
  | nil => intro L; simp [Dict.update, firsts]
  | cons x l ih =>
    intro L
    rw [List.map_cons, Dict.update_cons, set_map, ih]
    congr 1
    by_cases h : x ∈ L
    · rw [if_pos h, firsts, List.filter_cons_of_neg (by simpa using h), List.filter_filter]
      congr 1
      refine List.filter_congr fun y _ => ?_
      by_cases hy : y = x <;> simp [hy, h]
    · rw [if_neg h, firsts, List.filter_cons_of_pos (by simpa using h), List.filter_filter, List.append_assoc]
      congr 1
      rw [List.singleton_append]
      congr 1
      refine List.filter_congr fun y _ => ?_
      by_cases hy : y = x <;> simp [hy]

/-- The names of the objects. -/
theorem config_name (isIdent : String → Bool) (heap : Nat → Fit V) (d a r : V) (ops : List (Op V))
    (hs : Separate (added isIdent ops)) : ∀ n o, (n, o) ∈ added isIdent ops →
      ((run isIdent (fresh heap d a r) ops).heap o).configName = some n := by
  induction ops using List.reverseRecOn with
  | nil => intro n o h; cases h
  | append_singleton ops op ih =>
    rw [added_append] at hs ⊢
    have ih := ih fun e he e' he' => hs e (List.mem_append_left _ he) e' (List.mem_append_left _ he')
    rw [run_append]
    intro n o hm
    by_cases h : ∃ n o, op = .add n o
    · obtain ⟨m, i, rfl⟩ := h
      rw [step_add]
      by_cases hv : Valid isIdent m
      · rw [if_pos hv]
        simp only [added, hv, if_true] at hs hm
        dsimp only
        by_cases hoi : o = i
        · rw [if_pos hoi]
          dsimp only
          exact congrArg some (hs (n, o) hm (m, i) (by simp) hoi).symm
        · rw [if_neg hoi]
          rcases List.mem_append.1 hm with hm | hm
          · exact ih n o hm
          · simp only [List.mem_singleton, Prod.mk.injEq] at hm
            exact absurd hm.2 hoi
      · rw [if_neg hv]
        simp only [added, hv, if_false, List.append_nil] at hm
        exact ih n o hm
    · push Not at h
      rw [added_other isIdent op h, List.append_nil] at hm
      rw [(step_other isIdent _ op h).2.2]
      exact ih n o hm

/-- The dict of all configurations. -/
theorem configFits_eq (isIdent : String → Bool) (heap : Nat → Fit V) (d a r : V) (ops : List (Op V))
    (hs : Separate (added isIdent ops)) (hp : "_parent" ∉ (added isIdent ops).map Prod.fst) :
    configFits (run isIdent (fresh heap d a r) ops) = .ok ((firsts ((added isIdent ops).map Prod.fst)).map
      fun n => (some n, (lastAdded (added isIdent ops) n).getD 0)) := by
  have hl := C68_last isIdent heap d a r ops
  have hn := C68_names isIdent heap d a r ops
  have hc := config_name isIdent heap d a r ops hs
  generalize run isIdent (fresh heap d a r) ops = s at hl hn hc
  have hit : iter s = .ok (s.names.map fun n => (lastAdded (added isIdent ops) n).getD 0) := by
    unfold iter
    have : (s.attrs.get? "_parent").isSome = false := by
      rw [hl, Bool.eq_false_iff]
      intro h
      exact hp (lastAdded_isSome.1 h)
    rw [this, if_neg (by simp), General.mapM_ok_iff, List.forall₂_map_right_iff, List.forall₂_same]
    intro n h
    rw [hl]
    rw [hn, ← lastAdded_isSome] at h
    cases hx : lastAdded (added isIdent ops) n with
    | none => rw [hx] at h; cases h
    | some o => rfl
  unfold configFits
  rw [hit]
  simp only [bind, Except.bind, List.map_map]
  have h1 : s.names.map ((fun o => ((s.heap o).configName, o)) ∘ fun n => (lastAdded (added isIdent ops) n).getD 0) =
      s.names.map fun n => (some n, (lastAdded (added isIdent ops) n).getD 0) := by
    refine List.map_congr_left fun n h => ?_
    rw [hn, ← lastAdded_isSome] at h
    cases hx : lastAdded (added isIdent ops) n with
    | none => rw [hx] at h; cases h
    | some o =>
      simp only [Function.comp, hx, Option.getD_some]
      rw [hc n o (lastAdded_mem hx)]
  rw [h1, Dict.ofList, show ([] : Dict (Option String) Nat) =
    ([] : List String).map fun n => (some n, (lastAdded (added isIdent ops) n).getD 0) from rfl, update_map, hn]
  simp

theorem get?_map_firsts (v : String → Nat) (l : List String) (n : String) :
    Dict.get? ((firsts l).map fun n => (some n, v n)) (some n) = if n ∈ l then some (v n) else none := by
  induction l with
  | nil => simp [firsts, Dict.get?_nil]
  | cons x l ih =>
    have hfil : ∀ L : List String, n ≠ x → Dict.get? ((L.filter (· ≠ x)).map fun n => (some n, v n)) (some n) =
        Dict.get? (L.map fun n => (some n, v n)) (some n) := by
      intro L hx
      induction L with
      | nil => rfl
      | cons y L ihL =>
        by_cases hy : y = x
        · rw [List.filter_cons_of_neg (by simp [hy]), ihL, List.map_cons, Dict.get?_cons]
          simp [hy, Ne.symm hx]
        · rw [List.filter_cons_of_pos (by simp [hy]), List.map_cons, List.map_cons, Dict.get?_cons, Dict.get?_cons, ihL]
    simp only [firsts, List.map_cons, Dict.get?_cons, Option.some.injEq]
    by_cases h : n = x
    · simp [h]
    · rw [if_neg (Ne.symm h), hfil _ h, ih]
      simp [h]

section
variable (isIdent : String → Bool) (heap : Nat → Fit V) (d a r : V) {W : Type} (f : Nat → W)

/-- `apply` gives one result per configuration, in the order of the first additions, computed with the object that
was added last. (Missing: objects that are added under two names, see `C68_shared_fails`, and the name `_parent`,
see `C68_parent_fails`.) -/
theorem C68_apply_partial (ops : List (Op V)) (hs : Separate (added isIdent ops))
    (hp : "_parent" ∉ (added isIdent ops).map Prod.fst) :
    ∃ res, apply (run isIdent (fresh heap d a r) ops) f .all = .ok res ∧
      List.Forall₂ (fun n e => ∃ o, lastAdded (added isIdent ops) n = some o ∧ e = (some n, f o))
        (firsts ((added isIdent ops).map Prod.fst)) res := by
  unfold apply
  rw [configFits_eq isIdent heap d a r ops hs hp]
  refine ⟨_, rfl, ?_⟩
  rw [List.map_map, List.forall₂_map_right_iff, List.forall₂_same]
  intro n h
  have hmem : ∀ (l : List String), n ∈ firsts l → n ∈ l := by
    intro l
    induction l with
    | nil => intro h; exact h
    | cons x l ih =>
      intro h
      rw [firsts] at h
      rcases List.mem_cons.1 h with h | h
      · exact List.mem_cons.2 (.inl h)
      · exact List.mem_cons_of_mem _ (ih (List.mem_filter.1 h).1)
  have hn := lastAdded_isSome.2 (hmem _ h)
  cases hx : lastAdded (added isIdent ops) n with
  | none => rw [hx] at hn; cases hn
  | some o => exact ⟨o, rfl, by simp [hx]⟩

theorem getItem_config (ops : List (Op V)) (n : String) (o : Nat) :
    Dict.getItem ((firsts ((added isIdent ops).map Prod.fst)).map
      fun n => (some n, (lastAdded (added isIdent ops) n).getD 0)) (some n) = .ok o ↔
      lastAdded (added isIdent ops) n = some o := by
  unfold Dict.getItem
  rw [get?_map_firsts fun n => (lastAdded (added isIdent ops) n).getD 0]
  have := lastAdded_isSome (l := added isIdent ops) (n := n)
  cases hx : lastAdded (added isIdent ops) n with
  | none =>
    rw [hx] at this
    rw [if_neg fun h => by simpa using this.2 h]
    simp
  | some i =>
    rw [hx] at this
    rw [if_pos (this.1 rfl)]
    simp

/-- A list of names: one result per name, in the order of the list (`KeyError` if one of them is not there). -/
theorem C68_select_partial (ops : List (Op V)) (hs : Separate (added isIdent ops))
    (hp : "_parent" ∉ (added isIdent ops).map Prod.fst) (ns : List String) (res : List (Option String × W)) :
    apply (run isIdent (fresh heap d a r) ops) f (.list ns) = .ok res ↔
      List.Forall₂ (fun n e => ∃ o, lastAdded (added isIdent ops) n = some o ∧ e = (some n, f o)) ns res := by
  unfold apply
  rw [General.mapM_ok_iff, configFits_eq isIdent heap d a r ops hs hp]
  have : ∀ n e, (do
      let d ← (Except.ok ((firsts ((added isIdent ops).map Prod.fst)).map
        fun n => (some n, (lastAdded (added isIdent ops) n).getD 0)) : Except PyErr (Dict (Option String) Nat))
      let o ← d.getItem (some n)
      Except.ok (some n, f o)) = Except.ok e ↔ ∃ o, lastAdded (added isIdent ops) n = some o ∧ e = (some n, f o) := by
    intro n e
    simp only [← getItem_config, bind, Except.bind]
    cases Dict.getItem ((firsts ((added isIdent ops).map Prod.fst)).map
      fun n => (some n, (lastAdded (added isIdent ops) n).getD 0)) (some n) with
    | error x => simp
    | ok o => simp [eq_comm]
  simp only [this]

/-- A single name. -/
theorem C68_one_partial (ops : List (Op V)) (hs : Separate (added isIdent ops))
    (hp : "_parent" ∉ (added isIdent ops).map Prod.fst) (n : String) (res : List (Option String × W)) :
    apply (run isIdent (fresh heap d a r) ops) f (.one n) = .ok res ↔
      ∃ o, lastAdded (added isIdent ops) n = some o ∧ res = [(some n, f o)] := by
  unfold apply
  rw [configFits_eq isIdent heap d a r ops hs hp]
  simp only [← getItem_config, bind, Except.bind]
  cases Dict.getItem ((firsts ((added isIdent ops).map Prod.fst)).map
    fun n => (some n, (lastAdded (added isIdent ops) n).getD 0)) (some n) with
  | error x => simp
  | ok o => simp [eq_comm]

end

/-! ### What does not hold -/

/-- No attributes have been set. -/
def exFresh : State Nat := fresh (fun _ => ⟨0, 0, 0, 0, none⟩) 0 0 0

/-- A name that is added again is listed twice. -/
theorem C68_names_fails : ¬ ∀ ops : List (Op Nat),
    (run (fun _ => true) exFresh ops).names =
      firsts ((added (fun _ => true) ops).map Prod.fst) := by
  intro h
  have := h [.add "a" 0, .add "a" 1]
  revert this
  decide

/-- An object that is added under two names: there is only one result. -/
theorem C68_shared_fails : ¬ ∀ (ops : List (Op Nat)) (res : List (Option String × Nat)),
    apply (run (fun _ => true) exFresh ops) id .all = .ok res →
      res.map Prod.fst = (firsts ((added (fun _ => true) ops).map Prod.fst)).map some := by
  intro h
  have := h [.add "a" 0, .add "b" 0] [(some "b", 0)] (by decide +kernel)
  revert this
  decide

/-- After a configuration with the name `_parent` has been added no results can be obtained at all. -/
theorem C68_parent_fails {W : Type} (isIdent : String → Bool) (heap : Nat → Fit V) (d a r : V) (f : Nat → W)
    (ops : List (Op V)) (h : "_parent" ∈ (added isIdent ops).map Prod.fst) :
    apply (run isIdent (fresh heap d a r) ops) f .all = .error .attributeError := by
  unfold apply configFits iter
  rw [C68_last, if_pos (lastAdded_isSome.2 h)]
  rfl

/-- A configuration that is added after `set_reader_arg` does not get the reader argument. -/
theorem C68_late_fails : ¬ ∀ (ops : List (Op Nat)) (v : Nat) (n : String) (o : Nat),
    ((run (fun _ => true) exFresh (ops ++ [.setReaderArg v, .add n o])).heap o).readerArg = v := by
  intro h
  have := h [] 1 "a" 0
  revert this
  decide

/-! ## Examples -/

def exOps : List (Op Nat) := [.add "a" 0, .setDataset 5, .add "b" 1, .add "configs" 7, .add "a" 2, .setAux 3]

example : Separate (added (fun _ => true) exOps) ∧ "_parent" ∉ (added (fun _ => true) exOps).map Prod.fst := by
  unfold Separate; decide
example : added (fun _ => true) exOps = [("a", 0), ("b", 1), ("a", 2)] := by decide
example : ((added (fun _ => true) (exOps.take 4)).map Prod.fst).Nodup := by decide
example : lastAdded (added (fun _ => true) exOps) "a" = some 2 := by decide
example : ∀ n, (n, 7) ∉ added (fun _ => true) exOps := by
  rw [show added (fun _ => true) exOps = [("a", 0), ("b", 1), ("a", 2)] by decide]; simp
example : apply (run (fun _ => true) exFresh exOps) (· + 10) .all = .ok [(some "a", 12), (some "b", 11)] := by
  decide +kernel
example : apply (run (fun _ => true) exFresh exOps) (· + 10) (.list ["b", "a", "b"]) =
    .ok [(some "b", 11), (some "a", 12), (some "b", 11)] := by decide +kernel
example : "_parent" ∈ (added (fun _ => true) [(.add "_parent" 0 : Op Nat)]).map Prod.fst := by decide

end MultiFits
end RT1
