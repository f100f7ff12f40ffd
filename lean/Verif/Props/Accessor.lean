import Verif.Model.Accessor
import Verif.Lemmas.Dict

/-!
# C100: the callbacks of `MultiFits.accessor`

Specification: a callback calls the method of the fit of its configuration with the arguments given to the accessor, overridden by
the arguments of this call.
-/

namespace RT1.Accessor

variable {O V : Type}

/-- The value of a keyword argument: that of the call, otherwise that of the accessor. -/
def override (kwargs start : Dict String V) (k : String) : Option V := (kwargs.get? k).or (start.get? k)

/-- The keyword arguments of the requests for one configuration, in the order of the calls. -/
def requests (n : String) (rs : List (Req V)) : List (Dict String V) :=
  (rs.filter fun r => decide (r.name = n)).map Req.kwargs

/-- The value given by the last of several dicts that contains the key. -/
def lastValue (ds : List (Dict String V)) (k : String) : Option V := ds.foldl (fun acc d => (d.get? k).or acc) none

theorem run_append (cbs : Dict String (Cb O V)) (rs : List (Req V)) (r : Req V) :
    (run cbs (rs ++ [r])).1 = (run cbs rs).1 ++ [(step (run cbs rs).2 r).1] ∧
    (run cbs (rs ++ [r])).2 = (step (run cbs rs).2 r).2 := by
  induction rs generalizing cbs with
  | nil => simp [run]
  | cons x rs ih =>
    obtain ⟨h1, h2⟩ := ih (step cbs x).2
    simp only [List.cons_append, run, h1, h2, and_self]

theorem lastValue_append (ds : List (Dict String V)) (d : Dict String V) (k : String) :
    lastValue (ds ++ [d]) k = (d.get? k).or (lastValue ds k) := by
  simp [lastValue, List.foldl_append]

theorem requests_append (n : String) (rs : List (Req V)) (r : Req V) :
    requests n (rs ++ [r]) = requests n rs ++ (if r.name = n then [r.kwargs] else []) := by
  by_cases h : r.name = n <;> simp [requests, List.filter_append, h]

/-- The state of a callback after a sequence of requests. -/
theorem state (cbs : Dict String (Cb O V)) (n : String) (c : Cb O V) (hc : cbs.get? n = some c) (rs : List (Req V))
    (ha : ∀ r ∈ rs, r.args = []) (hn : ∀ r ∈ rs, r.kwargs.keys.Nodup) :
    ∃ c', (run cbs rs).2.get? n = some c' ∧ c'.obj = c.obj ∧ ∀ k, c'.start.get? k = (lastValue (requests n rs) k).or (c.start.get? k) := by
  induction rs using List.reverseRecOn with
  | nil => exact ⟨c, hc, rfl, fun k => by simp [requests, lastValue]⟩
  | append_singleton rs r ih =>
    obtain ⟨c', h1, h2, h3⟩ := ih (fun r hr => ha r (by simp [hr])) (fun r hr => hn r (by simp [hr]))
    have har := ha r (by simp)
    have hnr := hn r (by simp)
    rw [(run_append cbs rs r).2, requests_append]
    by_cases h : r.name = n
    · subst h
      refine ⟨{ c' with start := c'.start.update r.kwargs }, ?_, h2, fun k => ?_⟩
      · simp only [step, h1, Cb.call, har, ne_eq, not_true_eq_false, if_false, Dict.get?_set, if_true]
      · rw [if_pos rfl, lastValue_append, Dict.get?_update _ hnr, h3, Option.or_assoc]
    · refine ⟨c', ?_, h2, fun k => by rw [if_neg h, List.append_nil, h3]⟩
      cases hx : (run cbs rs).2.get? r.name with
      | none => simp only [step, hx, h1]
      | some x => simp only [step, hx, Dict.get?_set, if_neg (Ne.symm h), h1]

/-- The accessor gives one callback for each configuration. -/
theorem get?_accessor (cfgs : Dict String O) (kwargs : Dict String V) (n : String) :
    Dict.get? (cfgs.map fun e => (e.1, (⟨e.2, kwargs⟩ : Cb O V))) n = (cfgs.get? n).map fun o => ⟨o, kwargs⟩ := by
  induction cfgs with
  | nil => rfl
  | cons e cfgs ih =>
    rw [List.map_cons, Dict.get?_cons, Dict.get?_cons, ih]
    split_ifs <;> rfl

/-- C100: which call is performed: after arbitrary previous calls (without positional arguments), a callback calls the method of the fit of
its own configuration; each argument has the value given last in the calls of the callback of *this* configuration, otherwise that given to the
accessor. In particular, the calls for other configurations have no influence. -/
theorem C100_call (cfgs : Dict String O) (kwargs : Dict String V) (cbs : Dict String (Cb O V))
    (hacc : accessorCall cfgs [] kwargs = .ok cbs) (rs : List (Req V)) (ha : ∀ r ∈ rs, r.args = [])
    (hn : ∀ r ∈ rs, r.kwargs.keys.Nodup) (n : String) (o : O) (ho : cfgs.get? n = some o) (kw : Dict String V) (hkw : kw.keys.Nodup) :
    ∃ c, (run cbs (rs ++ [⟨n, [], kw⟩])).1 = (run cbs rs).1 ++ [.ok c] ∧ c.obj = o ∧
      ∀ k, c.kwargs.get? k = ((kw.get? k).or (lastValue (requests n rs) k)).or (kwargs.get? k) := by
  simp only [accessorCall, ne_eq, not_true_eq_false, if_false, Except.ok.injEq] at hacc
  subst hacc
  have hc := get?_accessor cfgs kwargs n
  rw [ho, Option.map_some] at hc
  obtain ⟨c', h1, h2, h3⟩ := state _ n _ hc rs ha hn
  refine ⟨⟨c'.obj, c'.start.update kw⟩, ?_, h2, fun k => ?_⟩
  · rw [(run_append _ rs _).1]
    simp only [step, h1, Cb.call, ne_eq, not_true_eq_false, if_false]
  · rw [Dict.get?_update _ hkw, h3, Option.or_assoc]

/-- C100 (partial): the first call of a callback uses the arguments of the accessor, overridden by the arguments of the call. Missing: repeated calls,
see `C100_repeat_fails`. -/
theorem C100_first_partial (cfgs : Dict String O) (kwargs : Dict String V) (cbs : Dict String (Cb O V))
    (hacc : accessorCall cfgs [] kwargs = .ok cbs) (rs : List (Req V)) (ha : ∀ r ∈ rs, r.args = [])
    (hn : ∀ r ∈ rs, r.kwargs.keys.Nodup) (n : String) (hfirst : ∀ r ∈ rs, r.name ≠ n) (o : O) (ho : cfgs.get? n = some o)
    (kw : Dict String V) (hkw : kw.keys.Nodup) :
    ∃ c, (run cbs (rs ++ [⟨n, [], kw⟩])).1 = (run cbs rs).1 ++ [.ok c] ∧ c.obj = o ∧ ∀ k, c.kwargs.get? k = override kw kwargs k := by
  obtain ⟨c, h1, h2, h3⟩ := C100_call cfgs kwargs cbs hacc rs ha hn n o ho kw hkw
  refine ⟨c, h1, h2, fun k => ?_⟩
  have : requests n rs = [] := by
    rw [requests, List.filter_eq_nil_iff.2 (by simpa using hfirst), List.map_nil]
  rw [h3, this, override, Option.or_assoc]
  simp [lastValue]

/-- C100: the callbacks are those of all configurations. -/
theorem C100_keys (cfgs : Dict String O) (kwargs : Dict String V) (cbs : Dict String (Cb O V))
    (hacc : accessorCall cfgs [] kwargs = .ok cbs) : cbs.keys = cfgs.keys := by
  simp only [accessorCall, ne_eq, not_true_eq_false, if_false, Except.ok.injEq] at hacc
  subst hacc
  simp [Dict.keys, Function.comp_def]

/-- C100 fails: the arguments of a call persist: the second call of a callback (without arguments) uses the overridden value, not the one given to the
accessor. -/
theorem C100_repeat_fails : ¬ ∀ (cfgs : Dict String Nat) (kwargs : Dict String Nat) (cbs : Dict String (Cb Nat Nat)),
    accessorCall cfgs [] kwargs = .ok cbs → ∀ (rs : List (Req Nat)), (∀ r ∈ rs, r.args = []) →
    ∀ n o, cfgs.get? n = some o → ∀ kw : Dict String Nat,
    ∃ c, (run cbs (rs ++ [⟨n, [], kw⟩])).1 = (run cbs rs).1 ++ [.ok c] ∧ ∀ k, c.kwargs.get? k = override kw kwargs k := by
  intro h
  obtain ⟨c, h1, h2⟩ := h [("a", 0)] [("x", 1)] [("a", ⟨0, [("x", 1)]⟩)] rfl [⟨"a", [], [("x", 2)]⟩] (by simp) "a" 0 rfl []
  have h3 : c = ⟨0, [("x", 2)]⟩ := by
    have e : (run [("a", (⟨0, [("x", 1)]⟩ : Cb Nat Nat))] ([⟨"a", [], [("x", 2)]⟩] ++ [⟨"a", [], []⟩])).1 =
        [.ok ⟨0, [("x", 2)]⟩, .ok ⟨0, [("x", 2)]⟩] := rfl
    have e' : (run [("a", (⟨0, [("x", 1)]⟩ : Cb Nat Nat))] [⟨"a", [], [("x", 2)]⟩]).1 = [.ok ⟨0, [("x", 2)]⟩] := rfl
    rw [e, e'] at h1
    simp only [List.cons_append, List.nil_append, List.cons.injEq, Except.ok.injEq, and_true, true_and] at h1
    exact h1.symm
  have := h2 "x"
  rw [h3] at this
  revert this
  decide

/-- C100 fails: positional arguments are rejected by the accessor and by the callbacks. -/
theorem C100_positional_fails (cfgs : Dict String O) (kwargs kw : Dict String V) (c : Cb O V) (a : V) (args : List V) :
    accessorCall cfgs (a :: args) kwargs = .error .typeError ∧ (c.call (a :: args) kw).1 = .error .attributeError := by
  simp [accessorCall, Cb.call]

/-! ## Example -/

example : (run [("a", (⟨0, [("x", 1), ("y", 5)]⟩ : Cb Nat Nat)), ("b", ⟨1, [("x", 1), ("y", 5)]⟩)]
    [⟨"a", [], [("x", 2)]⟩, ⟨"b", [], []⟩, ⟨"b", [], [("y", 7)]⟩, ⟨"c", [], []⟩]).1 =
    [.ok ⟨0, [("x", 2), ("y", 5)]⟩, .ok ⟨1, [("x", 1), ("y", 5)]⟩, .ok ⟨1, [("x", 1), ("y", 7)]⟩, .error .keyError] := rfl

/-! ## properties -/

theorem mem_classProps (names : List String) (p : String) (l : List Create) (cls : List String) :
    p ∈ classProps names cls l ↔ p ∈ cls ∨ (.construct ∈ l ∧ p ∈ names) := by
  induction l generalizing cls with
  | nil => simp [classProps]
  | cons x l ih =>
    cases x with
    | construct => simp [classProps, ih, or_assoc]; tauto
    | unpickle => simp [classProps, ih]

/-- C100 (partial): a property of the accessor gives the value of each configuration, if any `MultiFits` object has been constructed in this
process.  (Missing: processes in which the objects have only been loaded, where it is false.) -/
theorem C100_props_partial (names : List String) (l : List Create) (h : .construct ∈ l) (cfgs : Dict String O) (attr : O → String → V) (prop : String)
    (hp : prop ∈ names) :
    ∃ d, getProp (classProps names [] l) cfgs attr prop = .ok d ∧ d.keys = cfgs.keys ∧
      ∀ name, d.get? name = (cfgs.get? name).map fun o => attr o prop := by
  refine ⟨_, if_pos ((mem_classProps names prop l []).2 (.inr ⟨h, hp⟩)), by simp [Dict.keys, Function.comp_def], fun name => ?_⟩
  induction cfgs with
  | nil => rfl
  | cons e cfgs ih =>
    simp only [List.map_cons, Dict.get?_cons, ih]
    split <;> rfl

/-- C100 fails: in a process in which the objects have only been loaded (`rt1.rtfits.load`), no property of the accessor exists. -/
theorem C100_loaded_fails (names : List String) (l : List Create) (h : .construct ∉ l) (cfgs : Dict String O) (attr : O → String → V) (prop : String) :
    getProp (classProps names [] l) cfgs attr prop = .error .attributeError :=
  if_neg fun hp => by
    rcases (mem_classProps names prop l []).1 hp with h' | h'
    · simp at h'
    · exact h h'.1

/-- The hypotheses of `C100_props_partial`. -/
example : getProp (classProps ["res_dict"] [] [.unpickle, .construct]) [("a", 1), ("b", 2)] (fun o _ => o * 10) "res_dict" =
    .ok [("a", 10), ("b", 20)] := rfl

end RT1.Accessor
