import Verif.Model.RT1Deriv
import Verif.Props.PhaseCache
import Mathlib.Tactic.NormNum
import Mathlib.Tactic.Linarith

/-!
# The jacobian of an RT1 object is the one of its current attributes (C128)
-/

namespace RT1.Rad
open General Real PhaseCache

/-! ## Specification -/

/-- The attributes of object `i` after a history. -/
def current (i : Nat) : Elem → List DOp → Elem
  | o, [] => o
  | o, .set j f :: ops => current i (if j = i then f o else o) ops
  | o, _ :: ops => current i o ops

/-- The assignments to object `i` do not replace `V`, and do not change the names of the parameters. -/
def KeepsVol (i : Nat) (ops : List DOp) : Prop :=
  ∀ f, .set i f ∈ ops → ∀ o : Elem, (f o).dp = o.dp ∧ ∀ k, k ∈ (f o).keys ↔ k ∈ o.keys

/-- The assignments to object `i` do not replace `SRF`, and do not change the names of the parameters. -/
def KeepsSurf (i : Nat) (ops : List DOp) : Prop :=
  ∀ f, .set i f ∈ ops → ∀ o : Elem, (f o).dbrdf = o.dbrdf ∧ ∀ k, k ∈ (f o).keys ↔ k ∈ o.keys

/-! ## Lemmas -/

/-- The entries of object `i` are the given derivatives. -/
def TabOk (c : DTable) (i : Nat) (names : List String) (d : String → Env → AngFn) : Prop :=
  ∀ key f, ((i, key), f) ∈ c → f.body = d key ∧ ∀ k, k ∈ f.names ↔ k ∈ names

theorem lookup_mem (c : DTable) (k : Nat × String) (new : Compiled) (e : (Nat × String) × Compiled) (he : e ∈ (lookup c k new).2) :
    e = (k, new) ∨ e ∈ c := by
  unfold lookup at he
  cases hf : c.find k with
  | some f =>
    rw [hf] at he
    rcases mem_touch he with h | h
    · subst h
      exact .inr (find_mem hf)
    · exact .inr h
  | none =>
    rw [hf] at he
    exact mem_insert he

theorem lookup_fst (c : DTable) (k : Nat × String) (new : Compiled) : (lookup c k new).1 = new ∨ (k, (lookup c k new).1) ∈ c := by
  unfold lookup
  cases hf : c.find k with
  | some f => exact .inr (find_mem hf)
  | none => exact .inl rfl

theorem lookup_tab (c : DTable) (i j : Nat) (key : String) (names : List String) (d : String → Env → AngFn) (new : Compiled)
    (h : TabOk c i names d) (hnew : j = i → new = ⟨names, d key⟩) : TabOk (lookup c (j, key) new).2 i names d := by
  intro key' f hf
  rcases lookup_mem _ _ _ _ hf with e | e
  · cases e
    rw [hnew rfl]
    exact ⟨rfl, fun k => Iff.rfl⟩
  · exact h key' f e

theorem lookup_val (c : DTable) (i : Nat) (key : String) (names : List String) (d : String → Env → AngFn) (h : TabOk c i names d) :
    (lookup c (i, key) ⟨names, d key⟩).1.body = d key ∧ ∀ k, k ∈ (lookup c (i, key) ⟨names, d key⟩).1.names ↔ k ∈ names := by
  rcases lookup_fst c (i, key) ⟨names, d key⟩ with e | e
  · rw [e]
    exact ⟨rfl, fun k => Iff.rfl⟩
  · exact h _ _ e

def SurfOk (s : DState) (i : Nat) : Prop := TabOk s.surf i (s.objs i).keys (s.objs i).dbrdf
def VolOk (s : DState) (i : Nat) : Prop := TabOk s.vol i (s.objs i).keys (s.objs i).dp

theorem callable_iff (f : Compiled) (o : Elem) : callable f o = true ↔ ∀ k, k ∈ f.names ↔ k ∈ o.keys := by
  unfold callable
  simp only [Bool.and_eq_true, List.all_eq_true, decide_eq_true_eq]
  exact ⟨fun h k => ⟨h.1 k, h.2 k⟩, fun h => ⟨fun k => (h k).1, fun k => (h k).2⟩⟩

/-- An evaluation of any object keeps the objects and the validity of both tables. -/
theorem dEntry_inv (s : DState) (j : Nat) (dB sig0 : Bool) (key : String) :
    (dEntry s j dB sig0 key).2.objs = s.objs ∧ (∀ i, SurfOk s i → SurfOk (dEntry s j dB sig0 key).2 i) ∧
      ∀ i, VolOk s i → VolOk (dEntry s j dB sig0 key).2 i := by
  have hS : ∀ i, SurfOk s i → SurfOk (readSurf s j key).2 i := fun i h => lookup_tab _ _ _ _ _ _ _ h (by rintro rfl; rfl)
  have hV : ∀ i, VolOk s i → VolOk (readVol (readSurf s j key).2 j key).2 i := fun i h => lookup_tab _ _ _ _ _ _ _ h (by rintro rfl; rfl)
  unfold dEntry
  split
  · exact ⟨rfl, fun _ h => h, fun _ h => h⟩
  · dsimp only
    split
    · split
      · exact ⟨rfl, hS, hV⟩
      · exact ⟨rfl, hS, hV⟩
    · exact ⟨rfl, hS, fun i h => h⟩

theorem dEntry_val (s : DState) (i : Nat) (dB sig0 : Bool) (key : String) (hs : SurfOk s i) (hv : VolOk s i) :
    (dEntry s i dB sig0 key).1 = (s.objs i).jacEntry dB sig0 key := by
  obtain ⟨a1, a2⟩ := lookup_val s.surf i key _ _ hs
  obtain ⟨b1, b2⟩ := lookup_val s.vol i key _ _ hv
  unfold dEntry
  split
  · rfl
  · next h =>
    push Not at h
    obtain ⟨h1, h2, h3, h4, h5⟩ := h
    dsimp only
    have c1 : callable (readSurf s i key).1 (s.objs i) = true := (callable_iff _ _).2 a2
    have c2 : callable (readVol (readSurf s i key).2 i key).1 (s.objs i) = true := (callable_iff _ _).2 b2
    rw [if_pos c1, if_pos c2]
    unfold Elem.jacEntry
    rw [if_neg h1, if_neg h2, if_neg h3, if_neg h4, if_pos h5]
    have e1 : (readSurf s i key).1.body = (s.objs i).dbrdf key := a1
    have e2 : (readVol (readSurf s i key).2 i key).1.body = (s.objs i).dp key := b1
    rw [e1, e2]
    rfl

theorem dLoop_inv (j : Nat) (dB sig0 : Bool) (ks : List String) (s : DState) (jac : List ℝ) :
    (dLoop j dB sig0 s ks jac).2.objs = s.objs ∧ (∀ i, SurfOk s i → SurfOk (dLoop j dB sig0 s ks jac).2 i) ∧
      ∀ i, VolOk s i → VolOk (dLoop j dB sig0 s ks jac).2 i := by
  induction ks generalizing s jac with
  | nil => exact ⟨rfl, fun _ h => h, fun _ h => h⟩
  | cons key ks ih =>
    have h := dEntry_inv s j dB sig0 key
    rw [dLoop]
    cases e : dEntry s j dB sig0 key with
    | mk r s1 =>
      rw [e] at h
      cases r with
      | error x => exact h
      | ok v =>
        obtain ⟨g1, g2, g3⟩ := ih s1 (jac ++ [v])
        exact ⟨g1.trans h.1, fun i x => g2 i (h.2.1 i x), fun i x => g3 i (h.2.2 i x)⟩

theorem dLoop_val (i : Nat) (dB sig0 : Bool) (ks : List String) (s : DState) (jac : List ℝ) (hs : SurfOk s i) (hv : VolOk s i) :
    (dLoop i dB sig0 s ks jac).1 = (s.objs i).jacobianLoop dB sig0 ks jac := by
  induction ks generalizing s jac with
  | nil => rfl
  | cons key ks ih =>
    have h := dEntry_inv s i dB sig0 key
    have hval := dEntry_val s i dB sig0 key hs hv
    rw [dLoop, Elem.jacobianLoop, ← hval]
    cases e : dEntry s i dB sig0 key with
    | mk r s1 =>
      rw [e] at h
      cases r with
      | error x => rfl
      | ok v =>
        dsimp only
        rw [ih s1 (jac ++ [v]) (h.2.1 i hs) (h.2.2 i hv), h.1]

theorem tab_congr {c : DTable} {i : Nat} {n m : List String} {d e : String → Env → AngFn} (h : TabOk c i n d) (hd : e = d)
    (hn : ∀ k, k ∈ m ↔ k ∈ n) : TabOk c i m e := by
  intro key f hf
  obtain ⟨a, b⟩ := h key f hf
  exact ⟨by rw [hd]; exact a, fun k => (b k).trans (hn k).symm⟩

theorem step_objs (s : DState) (op : DOp) (i : Nat) : (dStep s op).objs i = current i (s.objs i) [op] := by
  cases op with
  | set j f =>
    show (if i = j then f (s.objs j) else s.objs i) = if j = i then f (s.objs i) else s.objs i
    by_cases h : i = j
    · subst h; rw [if_pos rfl]
    · rw [if_neg h, if_neg (Ne.symm h)]
  | clear => rfl
  | jac j dB sig0 ks => exact congrFun (dLoop_inv j dB sig0 ks s []).1 i

theorem step_surf (s : DState) (op : DOp) (i : Nat) (hk : KeepsSurf i [op]) (h : SurfOk s i) : SurfOk (dStep s op) i := by
  cases op with
  | set j f =>
    by_cases hij : i = j
    · subst hij
      have := hk f (List.mem_singleton.2 rfl) (s.objs i)
      unfold SurfOk dStep
      dsimp only
      rw [if_pos rfl]
      exact tab_congr h this.1 this.2
    · unfold SurfOk dStep
      dsimp only
      rw [if_neg hij]
      exact h
  | clear => intro key f hf; exact absurd hf (List.not_mem_nil)
  | jac j dB sig0 ks => exact (dLoop_inv j dB sig0 ks s []).2.1 i h

theorem step_vol (s : DState) (op : DOp) (i : Nat) (hk : KeepsVol i [op]) (h : VolOk s i) : VolOk (dStep s op) i := by
  cases op with
  | set j f =>
    by_cases hij : i = j
    · subst hij
      have := hk f (List.mem_singleton.2 rfl) (s.objs i)
      unfold VolOk dStep
      dsimp only
      rw [if_pos rfl]
      exact tab_congr h this.1 this.2
    · unfold VolOk dStep
      dsimp only
      rw [if_neg hij]
      exact h
  | clear => exact h
  | jac j dB sig0 ks => exact (dLoop_inv j dB sig0 ks s []).2.2 i h

theorem current_cons (i : Nat) (o : Elem) (op : DOp) (ops : List DOp) : current i o (op :: ops) = current i (current i o [op]) ops := by
  cases op <;> rfl

theorem foldl_spec (ops : List DOp) (s : DState) (i : Nat) :
    (ops.foldl dStep s).objs i = current i (s.objs i) ops ∧ (KeepsSurf i ops → SurfOk s i → SurfOk (ops.foldl dStep s) i) ∧
      (KeepsVol i ops → VolOk s i → VolOk (ops.foldl dStep s) i) := by
  induction ops generalizing s with
  | nil => exact ⟨rfl, fun _ h => h, fun _ h => h⟩
  | cons op ops ih =>
    obtain ⟨a, b, c⟩ := ih (dStep s op)
    rw [List.foldl_cons]
    have sub : ∀ f, .set i f ∈ [op] → .set i f ∈ op :: ops := fun f hf => by
      rw [List.mem_singleton] at hf
      exact hf ▸ List.mem_cons_self ..
    refine ⟨?_, fun hk h => ?_, fun hk h => ?_⟩
    · rw [a, step_objs, ← current_cons]
    · exact b (fun f hf => hk f (List.mem_cons_of_mem _ hf)) (step_surf s op i (fun f hf => hk f (sub f hf)) h)
    · exact c (fun f hf => hk f (List.mem_cons_of_mem _ hf)) (step_vol s op i (fun f hf => hk f (sub f hf)) h)

theorem empty_ok (i : Nat) (n : List String) (d : String → Env → AngFn) : TabOk [] i n d := fun _ _ h => absurd h List.not_mem_nil

/-! ## Theorems -/

/-- Angles, parameter values, `tau`, `omega`, … may change, and anything may happen to other objects: the jacobian is the one of an object with
the current attributes. -/
theorem C128_unchanged_partial (objs : Nat → Elem) (ops : List DOp) (i : Nat) (hs : KeepsSurf i ops) (hv : KeepsVol i ops) (dB sig0 : Bool)
    (ks : List String) : (dJacobian (dExec objs ops) i dB sig0 ks).1 = (current i (objs i) ops).jacobian dB sig0 ks := by
  obtain ⟨a, b, c⟩ := foldl_spec ops ⟨objs, [], []⟩ i
  rw [← a]
  exact dLoop_val i dB sig0 ks _ [] (b hs (empty_ok _ _ _)) (c hv (empty_ok _ _ _))

/-- `SRF` may be replaced if `_clear_cache()` is called before the evaluation. -/
theorem C128_cleared_partial (objs : Nat → Elem) (ops : List DOp) (i : Nat) (hv : KeepsVol i ops) (dB sig0 : Bool) (ks : List String) :
    (dJacobian (dExec objs (ops ++ [.clear])) i dB sig0 ks).1 = (current i (objs i) ops).jacobian dB sig0 ks := by
  obtain ⟨a, -, c⟩ := foldl_spec ops ⟨objs, [], []⟩ i
  have e : dExec objs (ops ++ [.clear]) = dClear (dExec objs ops) := by
    unfold dExec
    rw [List.foldl_append]
    rfl
  rw [← a, e]
  exact dLoop_val i dB sig0 ks _ [] (empty_ok _ _ _) (c hv (empty_ok _ _ _))

/-- The first jacobian of an object with respect to a parameter stores its derivatives. -/
theorem first_tables (objs : Nat → Elem) (i : Nat) (key : String) (h1 : key ≠ "omega") (h2 : key ≠ "tau") (h3 : key ≠ "NormBRDF") (h4 : key ≠ "bsf")
    (h5 : key ∈ (objs i).keys) (dB sig0 : Bool) :
    dExec objs [.jac i dB sig0 [key]] = ⟨objs, [((i, key), ⟨(objs i).keys, (objs i).dbrdf key⟩)], [((i, key), ⟨(objs i).keys, (objs i).dp key⟩)]⟩ := by
  have c : ∀ d, callable ⟨(objs i).keys, d⟩ (objs i) = true := fun d => (callable_iff _ _).2 fun k => Iff.rfl
  unfold dExec
  rw [List.foldl_cons, List.foldl_nil, dStep, dJacobian, dLoop, dEntry, if_neg (by push Not; exact ⟨h1, h2, h3, h4, h5⟩)]
  dsimp only
  rw [show (readSurf ⟨objs, [], []⟩ i key).1 = ⟨(objs i).keys, (objs i).dbrdf key⟩ from rfl, if_pos (c _),
    show (readVol (readSurf ⟨objs, [], []⟩ i key).2 i key).1 = ⟨(objs i).keys, (objs i).dp key⟩ from rfl, if_pos (c _)]
  rfl

/-- The jacobian with a stored derivative of the volume, and without one of the surface. -/
theorem jac_stored (objs : Nat → Elem) (i : Nat) (o : Elem) (ho : objs i = o) (g : Compiled) (key : String) (h1 : key ≠ "omega") (h2 : key ≠ "tau")
    (h3 : key ≠ "NormBRDF") (h4 : key ≠ "bsf") (h5 : key ∈ o.keys) (dB sig0 : Bool) :
    (dJacobian ⟨objs, [], [((i, key), g)]⟩ i dB sig0 [key]).1 =
      if callable g o then .ok [(o.dsurfaceDdummy key + ({ o with dp := fun _ => g.body } : Elem).dvolumeDdummy key) * o.jacNorm dB sig0]
      else .error .typeError := by
  subst ho
  have c : callable ⟨(objs i).keys, (objs i).dbrdf key⟩ (objs i) = true := (callable_iff _ _).2 fun k => Iff.rfl
  have e1 : (readSurf ⟨objs, [], [((i, key), g)]⟩ i key).1 = ⟨(objs i).keys, (objs i).dbrdf key⟩ := rfl
  have e2 : (readVol (readSurf ⟨objs, [], [((i, key), g)]⟩ i key).2 i key).1 = g := by
    show (lookup [((i, key), g)] (i, key) ⟨(objs i).keys, (objs i).dp key⟩).1 = g
    unfold lookup Lru.find
    simp
  unfold dJacobian
  rw [dLoop, dEntry, if_neg (by push Not; exact ⟨h1, h2, h3, h4, h5⟩)]
  dsimp only
  rw [e1, e2, if_pos c]
  by_cases hg : callable g (objs i) = true
  · rw [if_pos hg, if_pos hg]
    rfl
  · rw [if_neg hg, if_neg hg]

/-- `V` is replaced: `_clear_cache()` has no effect on the derivative of the volume; the jacobian is still the one of the old `V`. -/
theorem C128_volume_fails (objs : Nat → Elem) (i : Nat) (key : String) (h1 : key ≠ "omega") (h2 : key ≠ "tau") (h3 : key ≠ "NormBRDF")
    (h4 : key ≠ "bsf") (h5 : key ∈ (objs i).keys) (dp' : String → Env → AngFn) :
    (dJacobian (dExec objs [.jac i false false [key], .set i (fun o => { o with dp := dp' }), .clear]) i false false [key]).1 =
      (objs i).jacobian false false [key] := by
  have e : dExec objs [.jac i false false [key], .set i (fun o => { o with dp := dp' }), .clear] =
      dClear (dStep (dExec objs [.jac i false false [key]]) (.set i (fun o => { o with dp := dp' }))) := rfl
  rw [e, first_tables objs i key h1 h2 h3 h4 h5]
  unfold dClear dStep
  dsimp only
  rw [jac_stored _ i { objs i with dp := dp' } (if_pos rfl) _ key h1 h2 h3 h4 h5, if_pos ((callable_iff _ _).2 fun k => Iff.rfl), Elem.jacobian,
    Elem.jacobianLoop, Elem.jacEntry, if_neg h1, if_neg h2, if_neg h3, if_neg h4, if_pos h5]
  rfl

/-- A parameter is added to `param_dict`: TypeError, even after `_clear_cache()`; a new object gives the jacobian. -/
theorem C128_names_fails (objs : Nat → Elem) (i : Nat) (key new : String) (h1 : key ≠ "omega") (h2 : key ≠ "tau") (h3 : key ≠ "NormBRDF")
    (h4 : key ≠ "bsf") (h5 : key ∈ (objs i).keys) (hnew : new ∉ (objs i).keys) :
    (dJacobian (dExec objs [.jac i false false [key], .set i (fun o => { o with keys := new :: o.keys }), .clear]) i false false [key]).1 =
      .error .typeError ∧ ∃ v, ({ objs i with keys := new :: (objs i).keys } : Elem).jacobian false false [key] = .ok [v] := by
  refine ⟨?_, ?_⟩
  · have e : dExec objs [.jac i false false [key], .set i (fun o => { o with keys := new :: o.keys }), .clear] =
        dClear (dStep (dExec objs [.jac i false false [key]]) (.set i (fun o => { o with keys := new :: o.keys }))) := rfl
    rw [e, first_tables objs i key h1 h2 h3 h4 h5]
    unfold dClear dStep
    dsimp only
    rw [jac_stored _ i { objs i with keys := new :: (objs i).keys } (if_pos rfl) _ key h1 h2 h3 h4 (List.mem_cons_of_mem _ h5), if_neg]
    intro h
    exact hnew (((callable_iff _ _).1 h new).2 (List.mem_cons_self ..))
  · refine ⟨(({ objs i with keys := new :: (objs i).keys } : Elem).dsurfaceDdummy key +
      ({ objs i with keys := new :: (objs i).keys } : Elem).dvolumeDdummy key) * ({ objs i with keys := new :: (objs i).keys } : Elem).jacNorm false false, ?_⟩
    rw [Elem.jacobian, Elem.jacobianLoop, Elem.jacEntry, if_neg h1, if_neg h2, if_neg h3, if_neg h4, if_pos (List.mem_cons_of_mem _ h5)]
    rfl

/-- An object with the parameter `x`, whose phase function of the volume has the derivative `c`. -/
noncomputable def sample (c : ℝ) : Elem where
  I0 := 1
  tau := 1
  omega := 1
  NormBRDF := 1
  bsf := 0
  t0 := 0
  tex := 0
  p0 := 0
  pex := 0
  env := fun _ => 0
  keys := ["x"]
  brdf := fun _ _ _ _ _ => 0
  p := fun _ _ _ _ _ => 0
  brdfDiff := fun _ _ _ _ _ _ => 0
  pDiff := fun _ _ _ _ _ _ => 0
  dbrdf := fun _ _ _ _ _ _ => 0
  dp := fun _ _ _ _ _ _ => c

/-- The old and the new jacobian are different in general: the property is violated. -/
theorem C128_stale_fails : ∃ (objs : Nat → Elem) (ops : List DOp) (i : Nat) (ks : List String),
    (dJacobian (dExec objs (ops ++ [.clear])) i false false ks).1 ≠ (current i (objs i) ops).jacobian false false ks := by
  refine ⟨fun _ => sample 0, [.jac 0 false false ["x"], .set 0 fun o => { o with dp := fun _ _ _ _ _ _ => 1 }], 0, ["x"], ?_⟩
  rw [List.cons_append, List.cons_append, List.nil_append,
    C128_volume_fails (fun _ => sample 0) 0 "x" (by decide) (by decide) (by decide) (by decide) (List.mem_singleton.2 rfl)]
  have h : ∀ c, (sample c).jacobian false false ["x"] = .ok [1 / 2 * (1 - exp (-2)) * c] := by
    intro c
    rw [Elem.jacobian, Elem.jacobianLoop, Elem.jacEntry, if_neg (by decide), if_neg (by decide), if_neg (by decide), if_neg (by decide),
      if_pos (show "x" ∈ (sample c).keys from List.mem_singleton.2 rfl)]
    simp only [Elem.jacobianLoop, Elem.dsurfaceDdummy, Elem.dvolumeDdummy, Elem.jacNorm, Elem.mu0, Elem.muex, sample, cos_zero]
    norm_num
  have hc : current 0 (sample 0) [.jac 0 false false ["x"], .set 0 fun o => { o with dp := fun _ _ _ _ _ _ => 1 }] = sample 1 := rfl
  rw [hc, h, h]
  intro e
  have e' : 1 / 2 * (1 - exp (-2)) * (0 : ℝ) = 1 / 2 * (1 - exp (-2)) * 1 := by simpa using e
  have : exp (-2) < 1 := Real.exp_lt_one_iff.2 (by norm_num)
  linarith

/-- A history: the angle changes, another object gets another `V`. -/
example : KeepsSurf 0 [.jac 0 false false ["x"], .set 0 (fun o => { o with t0 := 1 }), .set 1 fun o => { o with dp := fun _ _ _ _ _ _ => 1 }] ∧
    KeepsVol 0 [.jac 0 false false ["x"], .set 0 (fun o => { o with t0 := 1 }), .set 1 fun o => { o with dp := fun _ _ _ _ _ _ => 1 }] := by
  constructor <;>
  · intro f hf o
    simp only [List.mem_cons, reduceCtorEq, DOp.set.injEq, true_and, Nat.zero_ne_one, false_and, List.not_mem_nil, or_false, false_or] at hf
    subst hf
    exact ⟨rfl, fun k => Iff.rfl⟩

example : "x" ∈ (sample 0).keys ∧ "y" ∉ (sample 0).keys := ⟨List.mem_singleton.2 rfl, by show "y" ∉ ["x"]; decide⟩

end RT1.Rad
