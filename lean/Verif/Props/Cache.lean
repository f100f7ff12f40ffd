import Verif.Lemmas.Cache

/-!
# Derived quantities of `Fits` are never stale (C43)
-/

namespace RT1.Cache
open General

variable {S B D F M ν : Type}

/-- Specification: an assignment replaces exactly one attribute of exactly one object (datasets are sorted, invalid defdicts
are rejected). -/
def Assigned (c : Cls S B D F M ν) (objs : Nat → Attrs S B D F M) (o : Nat) :
    Assign S B D F M → Except PyErr (Nat → Attrs S B D F M)
  | .sig0 v => .ok (Function.update objs o ⟨v, (objs o).dB, (objs o).dataset, (objs o).defdict, (objs o).set_V_SRF⟩)
  | .dB v => .ok (Function.update objs o ⟨(objs o).sig0, v, (objs o).dataset, (objs o).defdict, (objs o).set_V_SRF⟩)
  | .dataset v =>
    .ok (Function.update objs o ⟨(objs o).sig0, (objs o).dB, c.sortData v, (objs o).defdict, (objs o).set_V_SRF⟩)
  | .defdict v =>
    match c.parseDef v with
    | .ok d => .ok (Function.update objs o ⟨(objs o).sig0, (objs o).dB, (objs o).dataset, d, (objs o).set_V_SRF⟩)
    | .error e => .error e
  | .set_V_SRF v => .ok (Function.update objs o ⟨(objs o).sig0, (objs o).dB, (objs o).dataset, (objs o).defdict, v⟩)

theorem setObj_eq (objs : Nat → Attrs S B D F M) (o : Nat) (a : Attrs S B D F M) : setObj objs o a = Function.update objs o a := by
  funext o'
  by_cases h : o' = o <;> simp [setObj, Function.update, h]

theorem assigned_eq (c : Cls S B D F M ν) (objs : Nat → Attrs S B D F M) (o : Nat) (x : Assign S B D F M) :
    Assigned c objs o x = (assignAttr c (objs o) x).map (setObj objs o) := by
  cases x <;> simp only [Assigned, assignAttr, setObj_eq, Except.map]
  cases c.parseDef _ <;> simp [setObj_eq]

/-- Specification: one operation without caches; reads are computed from scratch from the current attributes. -/
def specStep (c : Cls S B D F M ν) (fuel : Nat) (objs : Nat → Attrs S B D F M) :
    Op S B D F M → Obs ν × (Nat → Attrs S B D F M)
  | .assign o x =>
    match Assigned c objs o x with
    | .ok objs' => (.done (.ok ()), objs')
    | .error e => (.done (.error e), objs)
  | .read o q args => (.value (scratch c o (objs o) fuel q args), objs)
  | .clear => (.done (.ok ()), objs)

/-- Specification: the observations of a sequence of operations without caches. -/
def specRun (c : Cls S B D F M ν) (fuel : Nat) : (Nat → Attrs S B D F M) → List (Op S B D F M) → List (Obs ν)
  | _, [] => []
  | objs, op :: ops => (specStep c fuel objs op).1 :: specRun c fuel (specStep c fuel objs op).2 ops

/-- The invariant of the histories. -/
def Inv (c : Cls S B D F M ν) (rank : Name → Nat) (s : State S B D F M ν) : Prop :=
  Coherent c rank s.objs s.tables ∧ MethodsOk s.tables

theorem step_spec {c : Cls S B D F M ν} {rank : Name → Nat} (hc : Valid c rank) (fuel : Nat) (hf : ∀ q, rank q < fuel)
    (s : State S B D F M ν) (hs : Inv c rank s) (op : Op S B D F M) :
    (step c fuel s op).1 = (specStep c fuel s.objs op).1 ∧ (step c fuel s op).2.objs = (specStep c fuel s.objs op).2 ∧
      Inv c rank (step c fuel s op).2 := by
  cases op with
  | assign o x =>
    simp only [step, specStep, setAttr, assigned_eq]
    cases h : assignAttr c (s.objs o) x with
    | ok a => exact ⟨rfl, rfl, clear_coherent hc s.objs _ s.tables hs.1 hs.2⟩
    | error e => exact ⟨rfl, rfl, clear_coherent hc s.objs _ s.tables hs.1 hs.2⟩
  | read o q args =>
    obtain ⟨h1, h2, _⟩ := read_spec hc s.objs o fuel q args s.tables (hf q) hs.1
    simp only [step, specStep]
    refine ⟨?_, trivial, h2.coh, h2.meth hs.2⟩
    rw [h1, scratch_fuel hc o (s.objs o) fuel q args (hf q)]
  | clear => exact ⟨rfl, rfl, clear_coherent hc s.objs _ s.tables hs.1 hs.2⟩

theorem run_specRun {c : Cls S B D F M ν} {rank : Name → Nat} (hc : Valid c rank) (fuel : Nat) (hf : ∀ q, rank q < fuel)
    (ops : List (Op S B D F M)) (s : State S B D F M ν) (hs : Inv c rank s) :
    (run c fuel s ops).1 = specRun c fuel s.objs ops ∧ Inv c rank (run c fuel s ops).2 := by
  induction ops generalizing s with
  | nil => exact ⟨rfl, hs⟩
  | cons op ops ih =>
    obtain ⟨h1, h2, h3⟩ := step_spec hc fuel hf s hs op
    obtain ⟨i1, i2⟩ := ih _ h3
    simp only [run, specRun]
    exact ⟨by rw [i1, h1, h2], i2⟩

/-- The state of a new process: empty caches. -/
def start (objs : Nat → Attrs S B D F M) : State S B D F M ν := ⟨objs, fun _ => []⟩

theorem inv_start (c : Cls S B D F M ν) (rank : Name → Nat) (objs : Nat → Attrs S B D F M) : Inv c rank (start objs) :=
  ⟨fun _ _ _ _ h => by simp [start] at h, fun _ _ _ h => by simp [start] at h⟩

/-- C43, for the cached quantities and assignments of the defining attributes: for every sequence of assignments, reads and
cache clearings on any number of fit objects (sharing the tables, with eviction of old entries), every observed value is
the one computed from scratch from the current attributes of its object. -/
theorem C43_assignments_partial {c : Cls S B D F M ν} {rank : Name → Nat} (hc : Valid c rank) (fuel : Nat)
    (hf : ∀ q, rank q < fuel) (objs : Nat → Attrs S B D F M) (ops : List (Op S B D F M)) :
    (run c fuel (start objs) ops).1 = specRun c fuel objs ops :=
  (run_specRun hc fuel hf ops _ (inv_start c rank objs)).1

/-- C43: the value computed from scratch does not depend on the recursion limit (if it is large enough). -/
theorem C43_scratch_unique {c : Cls S B D F M ν} {rank : Name → Nat} (hc : Valid c rank) (o : Nat) (a : Attrs S B D F M)
    (f f' : Nat) (q : Name) (args : List String) (h : rank q < f) (h' : rank q < f') :
    scratch c o a f q args = scratch c o a f' q args := by
  rw [scratch_fuel hc o a f q args h, scratch_fuel hc o a f' q args h']

/-- After any history, a quantity that has been read is returned unchanged whatever the attributes are. -/
theorem stale {c : Cls S B D F M ν} {rank : Name → Nat} (hc : Valid c rank) (fuel : Nat) (hf : ∀ q, rank q < fuel)
    (objs : Nat → Attrs S B D F M) (ops : List (Op S B D F M)) (o : Nat) (q : Name) (args : List String) (v : ν)
    (hv : scratch c o ((run c fuel (start objs) ops).2.objs o) fuel q args = .ok v) (a' : Attrs S B D F M) :
    (read c o a' fuel q args (step c fuel (run c fuel (start objs) ops).2 (.read o q args)).2.tables).1 = .ok v := by
  have hinv := (run_specRun hc fuel hf ops _ (inv_start c rank objs)).2
  set s := (run c fuel (start objs) ops).2 with hs
  have h1 := (read_spec hc s.objs o fuel q args s.tables (hf q) hinv.1).1
  rw [← scratch_fuel hc o (s.objs o) fuel q args (hf q), hv] at h1
  have h2 := lookup_read hc s.objs o fuel q args s.tables (hf q) hinv.1 v h1
  simp only [step]
  obtain ⟨n, rfl⟩ : ∃ n, fuel = n + 1 := ⟨fuel - 1, by have := hf q; omega⟩
  generalize (read c o (s.objs o) (n + 1) q args s.tables).2 = t at h2
  simp only [read, h2]

/-- C43: the full statement fails for datasets assigned with `MultiFits.set_dataset`: whenever a quantity that has been read
before changes with the new dataset, the old value is returned. -/
theorem C43_set_dataset_fails {c : Cls S B D F M ν} {rank : Name → Nat} (hc : Valid c rank) (fuel : Nat)
    (hf : ∀ q, rank q < fuel) (objs : Nat → Attrs S B D F M) (ops : List (Op S B D F M)) (o : Nat) (q : Name)
    (args : List String) (v : ν) (d : D)
    (hv : scratch c o ((run c fuel (start objs) ops).2.objs o) fuel q args = .ok v)
    (hd : scratch c o { (run c fuel (start objs) ops).2.objs o with dataset := c.sortData d } fuel q args ≠ .ok v) :
    let s := multiSetDataset c (step c fuel (run c fuel (start objs) ops).2 (.read o q args)).2 [o] d
    (read c o (s.objs o) fuel q args s.tables).1 ≠ scratch c o (s.objs o) fuel q args := by
  intro s
  have h1 := stale hc fuel hf objs ops o q args v hv (s.objs o)
  have h2 : s.objs o = { (run c fuel (start objs) ops).2.objs o with dataset := c.sortData d } := by
    simp [s, multiSetDataset, setObj, step]
  have h3 : (read c o (s.objs o) fuel q args s.tables).1 = .ok v := h1
  rw [h3, h2]
  exact fun h => hd h.symm

/-- C43: the same for in-place changes of the dataset, the defdict or the model definition. -/
theorem C43_inplace_fails {c : Cls S B D F M ν} {rank : Name → Nat} (hc : Valid c rank) (fuel : Nat)
    (hf : ∀ q, rank q < fuel) (objs : Nat → Attrs S B D F M) (ops : List (Op S B D F M)) (o : Nat) (q : Name)
    (args : List String) (v : ν) (f : Attrs S B D F M → Attrs S B D F M)
    (hv : scratch c o ((run c fuel (start objs) ops).2.objs o) fuel q args = .ok v)
    (hd : scratch c o (f ((run c fuel (start objs) ops).2.objs o)) fuel q args ≠ .ok v) :
    let s := mutate (step c fuel (run c fuel (start objs) ops).2 (.read o q args)).2 o f
    (read c o (s.objs o) fuel q args s.tables).1 ≠ scratch c o (s.objs o) fuel q args := by
  intro s
  have h1 := stale hc fuel hf objs ops o q args v hv (s.objs o)
  have h2 : s.objs o = f ((run c fuel (start objs) ops).2.objs o) := by
    simp [s, mutate, setObj, step]
  have h3 : (read c o (s.objs o) fuel q args s.tables).1 = .ok v := h1
  rw [h3, h2]
  exact fun h => hd h.symm

/-- C43: the coefficient functions of `fit.R` are right for the attributes at the first access, and as long as the
attributes are not changed. -/
theorem C43_fnevals_first {φ : Type} (gen : Attrs S B D F M → φ) (a : Attrs S B D F M) (n : Nat) :
    (readFnevals gen ((fun s => (readFnevals gen s).2)^[n] ⟨a, true, none⟩)).1 = some (gen a) := by
  have h : ∀ n, ((fun s => (readFnevals gen s).2)^[n] ⟨a, true, none⟩) = ⟨a, true, none⟩ ∨
      ((fun s => (readFnevals gen s).2)^[n] ⟨a, true, none⟩) = ⟨a, true, some (gen a)⟩ := by
    intro n
    induction n with
    | zero => exact .inl rfl
    | succ n ih =>
      rw [Function.iterate_succ_apply']
      rcases ih with ih | ih <;> rw [ih] <;> exact .inr rfl
  rcases h n with h | h <;> rw [h] <;> rfl

/-- C43: the full statement fails for the coefficient functions of the interaction term: they are generated at the first
access of `fit.R`, stored on the fit object, and not discarded by assignments.  After assigning e.g. a different model
definition, the functions of the old definition are used. -/
theorem C43_fnevals_fails {φ : Type} (c : Cls S B D F M ν) (gen : Attrs S B D F M → φ) (a : Attrs S B D F M)
    (x : Assign S B D F M) (a' : Attrs S B D F M) (hx : assignAttr c a x = .ok a') (hg : gen a' ≠ gen a) :
    let s := FitR.assign c (readFnevals gen ⟨a, true, none⟩).2 x
    s.attrs = a' ∧ (readFnevals gen s).1 ≠ some (gen s.attrs) := by
  simp only [readFnevals, FitR.assign, hx, if_true]
  exact ⟨trivial, fun h => hg (Option.some.inj h).symm⟩

/-! ## a concrete class -/

/-- A class with the bodies of `data_weights` (`rt1/rtfits.py` lines 965-977, data frames are lists of named columns), of
`interp_vals` (lines 554-578) and of `set_model` (reads V); the other bodies are constant. -/
def demo : Cls Bool Bool (List (String × List Nat)) (List (String × Bool)) Nat (List (String ⊕ Nat)) where
  body q _ _ a := match q with
    | .data_weights => if a.dataset.any fun col => col.1 = "data_weights" then
        .ask .dataset_used [] fun r => match r with
          | .ok v => .ret v
          | .error e => .raise e
      else .ret [.inr 1]
    | .dataset_used => .ret ((a.dataset.flatMap Prod.snd).map .inr)
    | .interp_vals => .ret ((a.defdict.filter Prod.snd).map fun x => .inl x.1)
    | .set_model => .ask .V [] fun r => match r with
        | .ok _ => .ret []
        | .error e => .raise e
    | .meandt_interp_assigns => .ask .param_dyn_dict [] fun r => match r with
        | .ok v => .ret v
        | .error e => .raise e
    | .assignvals_log_message => .ret []
    | _ => .ret []
  sortData := id
  parseDef := .ok

def demoRank : Name → Nat
  | .data_weights | .set_model | .meandt_interp_assigns => 1
  | _ => 0

theorem demo_valid : Valid demo demoRank where
  below q o args a := by
    cases q <;> simp only [demo] <;> (try split) <;>
      simp only [Prog.Below, demoRank, zero_lt_one, true_and] <;> intro r <;> cases r <;> trivial
  set_model o args a := ⟨.inl rfl, fun _ => trivial⟩
  interp o args a := ⟨.inl rfl, fun _ => trivial⟩
  message := ⟨[], fun _ _ _ => rfl⟩

/-- The hypotheses of `C43_set_dataset_fails` are met: the weights of a MultiFits config read before the new dataset is
set. -/
example : scratch demo 0 ⟨true, true, [("sig", [5])], [], 0⟩ 2 .data_weights [] = .ok [.inr 1] ∧
    scratch demo 0 ⟨true, true, demo.sortData [("data_weights", [7])], [], 0⟩ 2 .data_weights [] ≠ .ok [.inr 1] := by
  decide +kernel

example : ∀ q, demoRank q < 2 := by intro q; cases q <;> decide

end RT1.Cache
