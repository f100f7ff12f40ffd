import Verif.Lemmas.RT1
import Verif.Lemmas.General
import Mathlib.Tactic.NormNum
import Mathlib.Analysis.SpecialFunctions.Trigonometric.ArctanDeriv

/-!
# Properties C01–C10: radiative transfer formulas (`rt1/rt1.py`, `rt1/scatter.py`)
-/

namespace RT1.Rad

open Real Filter Topology

/-! ## C01: calc -/

/-- Specification: numpy addition, nan (`none`) propagates. -/
def addNan (a b : Option ℝ) : Option ℝ := a.bind fun x => b.map fun y => x + y

theorem npAdd_eq (a b : NpFloat) : npAdd a b = addNan a b := by
  cases a <;> cases b <;> rfl

theorem zipWith_map_map {α β γ δ : Type} (f : β → γ → δ) (g : α → β) (h : α → γ) (l : List α) :
    List.zipWith f (l.map g) (l.map h) = l.map fun x => f (g x) (h x) := by
  induction l with
  | nil => rfl
  | cons x xs ih => simp [ih]

theorem fixNan_length (taus : List ℝ) (I : List NpFloat) : (fixNan taus I).length = I.length := by
  unfold fixNan
  simp only
  split <;> simp

/-- C01 (`int_Q=True`): for scalar and array-valued tau, `calc` returns four arrays with one value per element; the
total is elementwise the sum of the three components, and the surface component is the surface contribution. -/
theorem C01_calc_int (tauScalar : Option ℝ) (elems : List Elem) (inter : Elem → Option ℝ) :
    ∃ I, (calcAll tauScalar true elems inter).inter = some I ∧
      (calcAll tauScalar true elems inter).surf = elems.map (fun o => some o.surface) ∧
      (calcAll tauScalar true elems inter).tot.length = elems.length ∧
      (calcAll tauScalar true elems inter).vol.length = elems.length ∧ I.length = elems.length ∧
      ∀ (i : ℕ) (t s v n : Option ℝ), (calcAll tauScalar true elems inter).tot[i]? = some t →
        (calcAll tauScalar true elems inter).surf[i]? = some s →
        (calcAll tauScalar true elems inter).vol[i]? = some v → I[i]? = some n →
        t = addNan (addNan s v) n := by
  have key : ∀ S V I : List NpFloat, ∀ (i : ℕ) (t s v n : Option ℝ), (npAddL (npAddL S V) I)[i]? = some t →
      S[i]? = some s → V[i]? = some v → I[i]? = some n → t = addNan (addNan s v) n := by
    intro S V I i t s v n ht hs hv hn
    simp only [npAddL, List.getElem?_zipWith, hs, hv, hn] at ht
    simp only [Option.some.injEq] at ht
    rw [← ht, npAdd_eq, npAdd_eq]
  unfold calcAll
  cases tauScalar with
  | none => exact ⟨_, rfl, rfl, by simp [npAddL, fixNan_length], by simp, by simp [fixNan_length], key _ _ _⟩
  | some t =>
    by_cases ht : t > 0
    · simp only [ht, if_true]
      exact ⟨_, rfl, by trivial, by simp [npAddL], by simp, by simp, key _ _ _⟩
    · simp only [ht, if_false]
      exact ⟨_, rfl, by trivial, by simp [npAddL], by simp, by simp, key _ _ _⟩

/-- C01 (`int_Q=False`): three arrays are returned and the total is the sum of surface and volume. -/
theorem C01_calc_noint (tauScalar : Option ℝ) (elems : List Elem) (inter : Elem → Option ℝ) :
    (calcAll tauScalar false elems inter).inter = none ∧
      (calcAll tauScalar false elems inter).surf = elems.map (fun o => some o.surface) ∧
      (calcAll tauScalar false elems inter).tot.length = elems.length ∧
      (calcAll tauScalar false elems inter).vol.length = elems.length ∧
      ∀ (i : ℕ) (t s v : Option ℝ), (calcAll tauScalar false elems inter).tot[i]? = some t →
        (calcAll tauScalar false elems inter).surf[i]? = some s →
        (calcAll tauScalar false elems inter).vol[i]? = some v → t = addNan s v := by
  have key : ∀ S V : List NpFloat, ∀ (i : ℕ) (t s v : Option ℝ), (npAddL S V)[i]? = some t →
      S[i]? = some s → V[i]? = some v → t = addNan s v := by
    intro S V i t s v ht hs hv
    simp only [npAddL, List.getElem?_zipWith, hs, hv] at ht
    simp only [Option.some.injEq] at ht
    rw [← ht, npAdd_eq]
  unfold calcAll
  cases tauScalar with
  | none => exact ⟨by trivial, by trivial, by simp [npAddL], by simp, key _ _⟩
  | some t =>
    by_cases ht : t > 0
    · simp only [ht, if_true]
      exact ⟨by trivial, by trivial, by simp [npAddL], by simp, key _ _⟩
    · simp only [ht, if_false]
      exact ⟨by trivial, by trivial, by simp [npAddL], by simp, key _ _⟩

/-- C01: if tau is a plain number `≤ 0`, volume and interaction are exactly 0 and the total is the surface
contribution. -/
theorem C01_calc_scalar_tau_nonpos (t : ℝ) (ht : t ≤ 0) (intQ : Bool) (elems : List Elem)
    (inter : Elem → Option ℝ) :
    (calcAll (some t) intQ elems inter).vol = elems.map (fun _ => some 0) ∧
    ((calcAll (some t) intQ elems inter).inter = if intQ then some (elems.map fun _ => some 0) else none) ∧
    (calcAll (some t) intQ elems inter).tot = elems.map (fun o => some o.surface) := by
  have h : ¬ t > 0 := not_lt.2 ht
  unfold calcAll
  cases intQ <;>
    simp only [h, if_false, if_true, npAddL, zipWith_map_map, npAdd, add_zero, Bool.false_eq_true, and_self]

/-- C01: in all other cases the volume component is the volume contribution of each element. -/
theorem C01_calc_volume (tauScalar : Option ℝ) (ht : ∀ t, tauScalar = some t → 0 < t) (intQ : Bool)
    (elems : List Elem) (inter : Elem → Option ℝ) :
    (calcAll tauScalar intQ elems inter).vol = elems.map (fun o => some o.volume) := by
  unfold calcAll
  cases tauScalar with
  | none => cases intQ <;> rfl
  | some t =>
    have := ht t rfl
    cases intQ <;> simp [this]

/-- C01: an interaction value that is a number is never changed by `calc` (tau > 0 or array-valued tau): only
nan values are replaced, and they are replaced by 0 exactly if they occur at the elements with tau = 0 and nowhere
else. -/
theorem C01_calc_interaction (elems : List Elem) (inter : Elem → Option ℝ) :
    ∃ I, (calcAll none true elems inter).inter = some I ∧
      ((∃ o ∈ elems, inter o = none) ∧ (∀ o ∈ elems, inter o = none ↔ o.tau = 0) →
        I = elems.map fun o => if o.tau = 0 then some 0 else inter o) ∧
      (¬ ((∃ o ∈ elems, inter o = none) ∧ ∀ o ∈ elems, inter o = none ↔ o.tau = 0) →
        I = elems.map inter) := by
  refine ⟨fixNan (elems.map Elem.tau) (elems.map inter), rfl, ?_⟩
  have hcond : (((elems.map inter).map Option.isNone).any id = true ∧
      (elems.map inter).map Option.isNone = (elems.map Elem.tau).map fun t => decide (t = 0)) ↔
      ((∃ o ∈ elems, inter o = none) ∧ ∀ o ∈ elems, inter o = none ↔ o.tau = 0) := by
    constructor
    · rintro ⟨h1, h2⟩
      refine ⟨by simpa using h1, ?_⟩
      intro o ho
      rw [List.map_map, List.map_map, List.map_inj_left] at h2
      have := h2 o ho
      simp only [Function.comp_apply] at this
      rw [← Option.isNone_iff_eq_none, this, decide_eq_true_eq]
    · rintro ⟨h1, h2⟩
      refine ⟨by simpa using h1, ?_⟩
      rw [List.map_map, List.map_map, List.map_inj_left]
      intro o ho
      simp only [Function.comp_apply]
      rw [Bool.eq_iff_iff, Option.isNone_iff_eq_none, decide_eq_true_eq]
      exact h2 o ho
  constructor
  · intro h
    unfold fixNan
    simp only
    rw [if_pos (hcond.2 h), List.map_map]
    apply List.map_congr_left
    intro o ho
    simp only [Function.comp_apply]
    by_cases ht : o.tau = 0
    · rw [if_pos ht, (h.2 o ho).2 ht]; rfl
    · rw [if_neg ht]
      cases hi : inter o with
      | none => exact absurd ((h.2 o ho).1 hi) ht
      | some v => rfl
  · intro h
    unfold fixNan
    simp only
    rw [if_neg (fun hh => h (hcond.1 hh))]

/-- C01: for a plain number `tau > 0` the interaction component is the interaction contribution of each element. -/
theorem C01_calc_interaction_scalar (t : ℝ) (ht : 0 < t) (elems : List Elem) (inter : Elem → Option ℝ) :
    (calcAll (some t) true elems inter).inter = some (elems.map inter) := by
  simp [calcAll, ht]

/-! A concrete element used in the examples: nadir-looking, isotropic functions. -/

/-- An example element (used to show that the hypotheses of the theorems are satisfiable). -/
noncomputable def exElem : Elem where
  I0 := 1
  tau := 1
  omega := 1 / 2
  NormBRDF := 1 / 3
  bsf := 1 / 4
  t0 := π / 3
  tex := π / 3
  p0 := 0
  pex := 0 + π
  env := fun _ => 2
  keys := ["x"]
  brdf := fun env _ _ _ _ => env "x"
  p := fun env _ _ _ _ => env "x" ^ 2
  brdfDiff := fun _ _ _ _ _ _ => 0
  pDiff := fun _ _ _ _ _ _ => 0
  dbrdf := fun key _ _ _ _ _ => if key = "x" then 1 else 0
  dp := fun key env _ _ _ _ => if key = "x" then 2 * env "x" else 0

example : (calcAll none true [exElem, { exElem with tau := 0 }]
    (fun o => if o.tau = 0 then none else some 5)).inter = some [some 5, some 0] := by
  simp [calcAll, fixNan, exElem]

/-! ## C02: bare-soil limits -/

/-- Specification: the intensity of the bare soil. -/
noncomputable def bareSoil (o : Elem) : ℝ := o.NormBRDF * (o.I0 * cos o.t0 * o.brdf o.env o.t0 o.tex o.p0 o.pex)

/-- Specification: two-way attenuation of the vegetation layer. -/
noncomputable def attenuation (o : Elem) : ℝ := exp (-(o.tau / cos o.t0) - o.tau / cos o.tex)

/-- C02: the surface contribution is the bsf-weighted mean of the bare-soil and the attenuated intensity. -/
theorem C02_surface_weighted_mean (o : Elem) :
    o.surface = o.bsf * bareSoil o + (1 - o.bsf) * (attenuation o * bareSoil o) := by
  simp only [Elem.surface, bareSoil, attenuation, Elem.mu0, Elem.muex, Elem.brdfVal]
  ring

/-- C02: with tau = 0 the surface contribution is the bare-soil intensity for every bsf and the volume
contribution is 0. -/
theorem C02_tau_zero (o : Elem) (h : o.tau = 0) : o.surface = bareSoil o ∧ o.volume = 0 := by
  constructor
  · simp only [Elem.surface, bareSoil, Elem.mu0, Elem.muex, Elem.brdfVal, h, zero_div, neg_zero, sub_zero, exp_zero]
    ring
  · simp [Elem.volume, h]

/-- C02: with bsf = 1 volume and interaction (for any values of F_int) are 0 and the surface contribution is the
bare-soil intensity for every tau. -/
theorem C02_bsf_one (o : Elem) (h : o.bsf = 1) :
    o.surface = bareSoil o ∧ o.volume = 0 ∧
    ∀ expi expn geometry fnAll I, o.interaction expi expn geometry fnAll = .ok I → I = 0 := by
  refine ⟨?_, by simp [Elem.volume, h], ?_⟩
  · simp only [Elem.surface, bareSoil, Elem.mu0, Elem.muex, Elem.brdfVal, h]
    ring
  · intro expi expn geometry fnAll I hI
    unfold Elem.interaction at hI
    split at hI
    · cases hI; simp [Elem.interactionOf, h]
    · cases hI
    · cases hI

example : ({ exElem with tau := 0 } : Elem).tau = 0 ∧ ({ exElem with bsf := 1 } : Elem).bsf = 1 := by simp

/-! ## C03: bounds and monotonicity -/

/-- Specification: admissible values. -/
structure Admissible (o : Elem) : Prop where
  I0 : 0 ≤ o.I0
  mu0 : 0 < cos o.t0
  muex : 0 < cos o.tex
  tau : 0 ≤ o.tau
  omega : 0 ≤ o.omega
  norm : 0 ≤ o.NormBRDF
  bsf0 : 0 ≤ o.bsf
  bsf1 : o.bsf ≤ 1
  brdf : 0 ≤ o.brdf o.env o.t0 o.tex o.p0 o.pex
  p : 0 ≤ o.p o.env o.t0 o.tex o.p0 o.pex

theorem att_mem {o : Elem} (h : Admissible o) : 0 < attenuation o ∧ attenuation o ≤ 1 := by
  refine ⟨exp_pos _, ?_⟩
  rw [attenuation, ← exp_zero, exp_le_exp]
  have h1 := div_nonneg h.tau h.mu0.le
  have h2 := div_nonneg h.tau h.muex.le
  linarith

theorem bareSoil_nonneg {o : Elem} (h : Admissible o) : 0 ≤ bareSoil o := by
  have := h.I0; have := h.mu0; have := h.norm; have := h.brdf
  unfold bareSoil; positivity

/-- The optically thick limit of the volume contribution. -/
noncomputable def thickVolume (o : Elem) : ℝ :=
  (1 - o.bsf) * (o.I0 * o.omega * cos o.t0 / (cos o.t0 + cos o.tex) * o.p o.env o.t0 o.tex o.p0 o.pex)

theorem volume_eq (o : Elem) : o.volume = (1 - attenuation o) * thickVolume o := by
  simp only [Elem.volume, thickVolume, attenuation, Elem.mu0, Elem.muex, Elem.pVal]; ring

theorem thick_nonneg {o : Elem} (h : Admissible o) : 0 ≤ thickVolume o := by
  have := h.I0; have := h.mu0; have := h.muex; have := h.omega; have := h.p
  have : 0 ≤ 1 - o.bsf := by linarith [h.bsf1]
  unfold thickVolume; positivity

/-- C03: non-negativity and bounds. -/
theorem C03_bounds (o : Elem) (h : Admissible o) :
    0 ≤ o.surface ∧ o.surface ≤ bareSoil o ∧ 0 ≤ o.volume ∧ o.volume ≤ thickVolume o := by
  obtain ⟨a0, a1⟩ := att_mem h
  have hb := bareSoil_nonneg h
  have ht := thick_nonneg h
  have hbsf0 := h.bsf0
  have hbsf : 0 ≤ 1 - o.bsf := by linarith [h.bsf1]
  refine ⟨?_, ?_, ?_, ?_⟩
  · rw [C02_surface_weighted_mean]; positivity
  · rw [C02_surface_weighted_mean]
    have : (1 - o.bsf) * (attenuation o * bareSoil o) ≤ (1 - o.bsf) * bareSoil o :=
      mul_le_mul_of_nonneg_left (mul_le_of_le_one_left hb a1) hbsf
    linarith
  · rw [volume_eq]; exact mul_nonneg (by linarith) ht
  · rw [volume_eq]
    exact mul_le_of_le_one_left ht (by linarith)

/-- C03: the surface contribution decreases and the volume contribution increases with tau. -/
theorem C03_monotone_tau (o : Elem) (h : Admissible o) (tau' : ℝ) (hle : o.tau ≤ tau') :
    ({ o with tau := tau' } : Elem).surface ≤ o.surface ∧
    o.volume ≤ ({ o with tau := tau' } : Elem).volume := by
  have h' : Admissible { o with tau := tau' } :=
    ⟨h.I0, h.mu0, h.muex, le_trans h.tau hle, h.omega, h.norm, h.bsf0, h.bsf1, h.brdf, h.p⟩
  have hatt : attenuation { o with tau := tau' } ≤ attenuation o := by
    simp only [attenuation]
    rw [exp_le_exp]
    have h1 := div_le_div_of_nonneg_right hle h.mu0.le
    have h2 := div_le_div_of_nonneg_right hle h.muex.le
    linarith
  have hbsf : 0 ≤ 1 - o.bsf := by linarith [h.bsf1]
  constructor
  · rw [C02_surface_weighted_mean, C02_surface_weighted_mean]
    have hb := bareSoil_nonneg h
    have e : bareSoil { o with tau := tau' } = bareSoil o := rfl
    rw [e]
    simp only
    have := mul_le_mul_of_nonneg_left (mul_le_mul_of_nonneg_right hatt hb) hbsf
    linarith
  · rw [volume_eq, volume_eq]
    have e : thickVolume { o with tau := tau' } = thickVolume o := rfl
    rw [e]
    exact mul_le_mul_of_nonneg_right (by linarith) (thick_nonneg h)

/-- C03: the volume contribution increases with omega. -/
theorem C03_monotone_omega (o : Elem) (h : Admissible o) (omega' : ℝ) (hle : o.omega ≤ omega') :
    o.volume ≤ ({ o with omega := omega' } : Elem).volume := by
  rw [volume_eq, volume_eq]
  have e : attenuation { o with omega := omega' } = attenuation o := rfl
  rw [e]
  apply mul_le_mul_of_nonneg_left _ (by linarith [(att_mem h).2])
  have := h.I0; have := h.mu0; have := h.muex; have := h.p
  have : 0 ≤ 1 - o.bsf := by linarith [h.bsf1]
  unfold thickVolume
  simp only
  gcongr

/-- C03: the volume contribution decreases with bsf. -/
theorem C03_antitone_bsf (o : Elem) (h : Admissible o) (bsf' : ℝ) (hle : o.bsf ≤ bsf') :
    ({ o with bsf := bsf' } : Elem).volume ≤ o.volume := by
  rw [volume_eq, volume_eq]
  have e : attenuation { o with bsf := bsf' } = attenuation o := rfl
  rw [e]
  apply mul_le_mul_of_nonneg_left _ (by linarith [(att_mem h).2])
  have := h.I0; have := h.mu0; have := h.muex; have := h.p; have := h.omega
  unfold thickVolume
  simp only
  gcongr

theorem exElem_admissible : Admissible exElem where
  I0 := by norm_num [exElem]
  mu0 := by norm_num [exElem]
  muex := by norm_num [exElem]
  tau := by norm_num [exElem]
  omega := by norm_num [exElem]
  norm := by norm_num [exElem]
  bsf0 := by norm_num [exElem]
  bsf1 := by norm_num [exElem]
  brdf := by norm_num [exElem]
  p := by norm_num [exElem]

example : Admissible exElem := exElem_admissible

/-! ## C04: monostatic geometry -/

open AngleObj in
/-- Specification: the value of an angle after a history, i.e. the last assignment selected by `sel` (scalars as
one-element arrays), or the initial value. -/
def lastAssigned (sel : Op → Option AngVal) (init : AngVal) (ops : List Op) : List ℝ :=
  (((ops.filterMap sel).getLast?).getD init).toArr

/-- assignments to `t_0` -/
def selT0 : AngleObj.Op → Option AngVal
  | .t0 v => some v
  | _ => none
/-- assignments to `t_ex` -/
def selTex : AngleObj.Op → Option AngVal
  | .tex v => some v
  | _ => none
/-- assignments to `p_0` -/
def selP0 : AngleObj.Op → Option AngVal
  | .p0 v => some v
  | _ => none
/-- assignments to `p_ex` -/
def selPex : AngleObj.Op → Option AngVal
  | .pex v => some v
  | _ => none

/-- C04 (mono): after every history, `t_0`/`p_0` are the last values assigned to them, `t_ex == t_0` and
`p_ex == p_0 + pi`; assignments to `t_ex`, `p_ex` have no effect. -/
theorem C04_mono (t0 tex p0 pex : AngVal) (ops : List AngleObj.Op) (o : AngleObj)
    (h : AngleObj.init "mono" t0 tex p0 pex = .ok o) :
    (ops.foldl AngleObj.step o).t0 = lastAssigned selT0 t0 ops ∧
    (ops.foldl AngleObj.step o).p0 = lastAssigned selP0 p0 ops ∧
    (ops.foldl AngleObj.step o).getTex = .ok (lastAssigned selT0 t0 ops) ∧
    (ops.foldl AngleObj.step o).getPex = .ok ((lastAssigned selP0 p0 ops).map (· + π)) := by
  have ho : o = ⟨"mono", t0.toArr, p0.toArr, none, none⟩ := by
    have : AngleObj.init "mono" t0 tex p0 pex = .ok ⟨"mono", t0.toArr, p0.toArr, none, none⟩ := by
      have hl : "mono".length = 4 := by decide
      simp [AngleObj.init, hl]
    rw [this] at h
    cases h; rfl
  have inv : (ops.foldl AngleObj.step o).geometry = "mono" ∧
      (ops.foldl AngleObj.step o).t0 = lastAssigned selT0 t0 ops ∧
      (ops.foldl AngleObj.step o).p0 = lastAssigned selP0 p0 ops := by
    induction ops using List.reverseRecOn with
    | nil => subst ho; exact ⟨rfl, rfl, rfl⟩
    | append_singleton ops op ih =>
      obtain ⟨h1, h2, h3⟩ := ih
      rw [List.foldl_append]
      simp only [List.foldl_cons, List.foldl_nil]
      cases op <;>
        simp [AngleObj.step, AngleObj.setT0, AngleObj.setP0, AngleObj.setTex, AngleObj.setPex, h1, h2, h3,
          lastAssigned, selT0, selP0]
  obtain ⟨h1, h2, h3⟩ := inv
  refine ⟨h2, h3, ?_, ?_⟩
  · rw [AngleObj.getTex, if_pos h1, h2]
  · rw [AngleObj.getPex, if_pos h1, h3]

/-- C04 (bistatic): for every other 4-character geometry the four angles are independent and each reads back the last
value assigned to it. -/
theorem C04_bistatic (g : String) (hg : g ≠ "mono") (t0 tex p0 pex : AngVal) (ops : List AngleObj.Op) (o : AngleObj)
    (h : AngleObj.init g t0 tex p0 pex = .ok o) :
    (ops.foldl AngleObj.step o).t0 = lastAssigned selT0 t0 ops ∧
    (ops.foldl AngleObj.step o).p0 = lastAssigned selP0 p0 ops ∧
    (ops.foldl AngleObj.step o).getTex = .ok (lastAssigned selTex tex ops) ∧
    (ops.foldl AngleObj.step o).getPex = .ok (lastAssigned selPex pex ops) := by
  have ho : o = ⟨g, t0.toArr, p0.toArr, some tex.toArr, some pex.toArr⟩ := by
    unfold AngleObj.init at h
    split at h
    · cases h
    · simp only [ne_eq, hg, not_false_eq_true, if_true] at h
      cases h
      simp [AngleObj.setTex, AngleObj.setPex, hg]
  have inv : (ops.foldl AngleObj.step o).geometry = g ∧
      (ops.foldl AngleObj.step o).t0 = lastAssigned selT0 t0 ops ∧
      (ops.foldl AngleObj.step o).p0 = lastAssigned selP0 p0 ops ∧
      (ops.foldl AngleObj.step o).tex = some (lastAssigned selTex tex ops) ∧
      (ops.foldl AngleObj.step o).pex = some (lastAssigned selPex pex ops) := by
    induction ops using List.reverseRecOn with
    | nil => subst ho; exact ⟨rfl, rfl, rfl, rfl, rfl⟩
    | append_singleton ops op ih =>
      obtain ⟨h1, h2, h3, h4, h5⟩ := ih
      rw [List.foldl_append]
      simp only [List.foldl_cons, List.foldl_nil]
      cases op <;>
        simp [AngleObj.step, AngleObj.setT0, AngleObj.setP0, AngleObj.setTex, AngleObj.setPex, h1, h2, h3, h4, h5,
          lastAssigned, selT0, selP0, selTex, selPex, hg]
  obtain ⟨h1, h2, h3, h4, h5⟩ := inv
  refine ⟨h2, h3, ?_, ?_⟩
  · rw [AngleObj.getTex, h1, if_neg hg, h4]
  · rw [AngleObj.getPex, h1, if_neg hg, h5]

/-- C04: objects can be created exactly with 4-character geometries. -/
theorem C04_init (g : String) (t0 tex p0 pex : AngVal) :
    (∃ o, AngleObj.init g t0 tex p0 pex = .ok o) ↔ g.length = 4 := by
  unfold AngleObj.init
  by_cases h : g.length = 4
  · simp only [h, ne_eq, not_true_eq_false, if_false, iff_true]
    split <;> exact ⟨_, rfl⟩
  · simp [h]

example : ∃ o, AngleObj.init "mono" (.scalar 1) (.scalar 2) (.array [3]) (.scalar 4) = .ok o :=
  (C04_init _ _ _ _ _).2 (by decide)
example : ∃ o, AngleObj.init "vvfv" (.scalar 1) (.scalar 2) (.array [3]) (.scalar 4) = .ok o :=
  (C04_init _ _ _ _ _).2 (by decide)

/-! ## C05: scattering angle -/

/-- Specification: unit vector with zenith angle `θ` and azimuth `φ`. -/
noncomputable def unitVec (θ φ : ℝ) : ℝ × ℝ × ℝ := (sin θ * cos φ, sin θ * sin φ, cos θ)

/-- Specification: scalar product. -/
def dot (u v : ℝ × ℝ × ℝ) : ℝ := u.1 * v.1 + u.2.1 * v.2.1 + u.2.2 * v.2.2

/-- C05: the symbolic and the numeric version agree. -/
theorem C05_numeric_eq_symbolic (a : ℝ × ℝ × ℝ) (t0 tex p0 pex : ℝ) :
    scatAngleNumeric a t0 tex p0 pex = scatAngle a t0 tex p0 pex := rfl

/-- C05: for weights `|a_i| ≤ 1` the value lies in `[-1, 1]`. -/
theorem C05_range (a : ℝ × ℝ × ℝ) (h1 : |a.1| ≤ 1) (h2 : |a.2.1| ≤ 1) (h3 : |a.2.2| ≤ 1) (t0 tex p0 pex : ℝ) :
    -1 ≤ scatAngle a t0 tex p0 pex ∧ scatAngle a t0 tex p0 pex ≤ 1 := by
  rw [← abs_le]
  have cs : ∀ x y : ℝ, |cos x * cos y| + |sin x * sin y| ≤ 1 := by
    intro x y
    have e1 := sin_sq_add_cos_sq x
    have e2 := sin_sq_add_cos_sq y
    rw [abs_mul, abs_mul]
    have a1 := two_mul_le_add_sq |cos x| |cos y|
    have a2 := two_mul_le_add_sq |sin x| |sin y|
    simp only [sq_abs] at a1 a2
    linarith
  have mulle : ∀ w x : ℝ, |w| ≤ 1 → |w * x| ≤ |x| := by
    intro w x hw
    rw [abs_mul]
    exact mul_le_of_le_one_left (abs_nonneg _) hw
  have e : scatAngle a t0 tex p0 pex = a.1 * (cos t0 * cos tex) +
      (sin t0 * sin tex) * (a.2.1 * (cos p0 * cos pex) + a.2.2 * (sin p0 * sin pex)) := by
    unfold scatAngle; ring
  rw [e]
  have b1 : |a.2.1 * (cos p0 * cos pex) + a.2.2 * (sin p0 * sin pex)| ≤ 1 := by
    refine le_trans (abs_add_le _ _) (le_trans (add_le_add (mulle _ _ h2) (mulle _ _ h3)) (cs p0 pex))
  refine le_trans (abs_add_le _ _) (le_trans (add_le_add (mulle _ _ h1) ?_) (cs t0 tex))
  rw [abs_mul]
  exact mul_le_of_le_one_right (abs_nonneg _) b1

/-- C05: symmetric under exchange of the two directions. -/
theorem C05_symmetric (a : ℝ × ℝ × ℝ) (t0 tex p0 pex : ℝ) :
    scatAngle a tex t0 pex p0 = scatAngle a t0 tex p0 pex := by
  unfold scatAngle; ring

/-- C05: `2 pi`-periodic in both azimuths. -/
theorem C05_periodic (a : ℝ × ℝ × ℝ) (t0 tex p0 pex : ℝ) (m n : ℤ) :
    scatAngle a t0 tex (p0 + m * (2 * π)) (pex + n * (2 * π)) = scatAngle a t0 tex p0 pex := by
  unfold scatAngle
  rw [cos_add_int_mul_two_pi, sin_add_int_mul_two_pi, cos_add_int_mul_two_pi, sin_add_int_mul_two_pi]

/-- C05: with the volume default it is the scalar product of the propagation direction of the incident radiation
(zenith angle `pi - t_0`) and the exit direction. -/
theorem C05_volume_dot (t0 tex p0 pex : ℝ) :
    scatAngle aVolume t0 tex p0 pex = dot (unitVec (π - t0) p0) (unitVec tex pex) := by
  simp only [scatAngle, aVolume, dot, unitVec, cos_pi_sub, sin_pi_sub]; ring

/-- C05: with the surface default it is the scalar product of the unit vectors of the zenith angles. -/
theorem C05_surface_dot (t0 tex p0 pex : ℝ) :
    scatAngle aSurface t0 tex p0 pex = dot (unitVec t0 p0) (unitVec tex pex) := by
  simp only [scatAngle, aSurface, dot, unitVec]; ring

/-- C05: exact backscatter (`-1`) in monostatic geometry for the volume default. -/
theorem C05_volume_mono (t0 p0 : ℝ) : scatAngle aVolume t0 t0 p0 (p0 + π) = -1 := by
  simp only [scatAngle, aVolume, cos_add_pi, sin_add_pi]
  have e1 := sin_sq_add_cos_sq t0
  have e2 := sin_sq_add_cos_sq p0
  calc -1 * cos t0 * cos t0 + 1 * sin t0 * sin t0 * cos p0 * -cos p0 + 1 * sin t0 * sin t0 * sin p0 * -sin p0
      = -(cos t0 ^ 2) - sin t0 ^ 2 * (sin p0 ^ 2 + cos p0 ^ 2) := by ring
    _ = -1 := by rw [e2]; linarith

/-- C05: `1` in the specular direction for the surface default. -/
theorem C05_surface_specular (t0 p0 : ℝ) : scatAngle aSurface t0 t0 p0 p0 = 1 := by
  simp only [scatAngle, aSurface]
  have e1 := sin_sq_add_cos_sq t0
  have e2 := sin_sq_add_cos_sq p0
  calc 1 * cos t0 * cos t0 + 1 * sin t0 * sin t0 * cos p0 * cos p0 + 1 * sin t0 * sin t0 * sin p0 * sin p0
      = cos t0 ^ 2 + sin t0 ^ 2 * (sin p0 ^ 2 + cos p0 ^ 2) := by ring
    _ = 1 := by rw [e2]; linarith

example : |((-1 / 2 : ℝ), (1 : ℝ), (0.3 : ℝ)).1| ≤ 1 := by norm_num [abs_le]

/-! ## C06: reciprocity -/

/-- Specification: incidence and exit direction exchanged. -/
def swapDir (o : Elem) : Elem := { o with t0 := o.tex, tex := o.t0, p0 := o.pex, pex := o.p0 }

/-- C06: if the phase functions are reciprocal, exchanging the directions multiplies surface and volume by
`cos(t_ex) / cos(t_0)`. -/
theorem C06_surface_volume (o : Elem) (h0 : 0 < cos o.t0)
    (hb : o.brdf o.env o.tex o.t0 o.pex o.p0 = o.brdf o.env o.t0 o.tex o.p0 o.pex)
    (hp : o.p o.env o.tex o.t0 o.pex o.p0 = o.p o.env o.t0 o.tex o.p0 o.pex) :
    (swapDir o).surface = cos o.tex / cos o.t0 * o.surface ∧
    (swapDir o).volume = cos o.tex / cos o.t0 * o.volume := by
  have e : exp (-(o.tau / cos o.tex) - o.tau / cos o.t0) = exp (-(o.tau / cos o.t0) - o.tau / cos o.tex) := by
    congr 1; ring
  have hn := h0.ne'
  constructor
  · simp only [Elem.surface, Elem.mu0, Elem.muex, Elem.brdfVal, swapDir, hb, e]
    field_simp
  · simp only [Elem.volume, Elem.mu0, Elem.muex, Elem.pVal, swapDir, hp, e]
    rw [add_comm (cos o.tex) (cos o.t0)]
    field_simp

/-- C06 (interaction): for the all-variable geometry `"vvvv"` exchanging the directions multiplies the
interaction contribution by the same factor.  (No reciprocity of the phase functions is necessary.) -/
theorem C06_interaction (o : Elem) (h0 : 0 < cos o.t0) (expi : ℝ → ℝ) (expn : ℕ → ℝ → ℝ)
    (fnAll : Angles → List ℝ) :
    ∃ I, o.interaction expi expn ['v', 'v', 'v', 'v'] fnAll = .ok I ∧
      (swapDir o).interaction expi expn ['v', 'v', 'v', 'v'] fnAll = .ok (cos o.tex / cos o.t0 * I) := by
  have hn := h0.ne'
  refine ⟨_, rfl, ?_⟩
  simp only [Elem.interaction, Elem.calcFint1, Elem.calcFint2, geomArgs, Elem.interactionOf, Elem.mu0, Elem.muex,
    swapDir, if_true]
  simp only [List.cons.injEq, Char.reduceEq, and_false, false_and, if_false]
  congr 1
  field_simp
  ring

example : 0 < cos exElem.t0 ∧
    exElem.brdf exElem.env exElem.tex exElem.t0 exElem.pex exElem.p0 =
    exElem.brdf exElem.env exElem.t0 exElem.tex exElem.p0 exElem.pex := ⟨exElem_admissible.mu0, rfl⟩

/-! ## C07, C08: slopes and curvatures -/

/-- Specification: a monostatic backscatter quantity `f` (as function of the incidence angle) in the requested unit:
`sigma0 = 4 pi cos(θ) f`, dB: `10 log10`. -/
noncomputable def inUnit (dB sig0 : Bool) (f : ℝ → ℝ) (θ : ℝ) : ℝ :=
  let lin := if sig0 then 4 * π * cos θ * f θ else f θ
  if dB then 10 * logb 10 lin else lin

theorem inUnit_hasDerivAt (o : Elem) (dB sig0 : Bool) (f : ℝ → ℝ) (f' θ : ℝ) (hc : 0 < cos θ)
    (hf : HasDerivAt f f' θ) (hpos : dB = true → 0 < f θ) :
    HasDerivAt (inUnit dB sig0 f) ((o.atTheta θ).unitSlope f' (f θ) dB sig0) θ := by
  have hlog : log 10 ≠ 0 := (log_pos (by norm_num)).ne'
  have h4 : HasDerivAt (fun θ => 4 * π * cos θ * f θ) (4 * π * (cos θ * f' - sin θ * f θ)) θ := by
    have := ((hasDerivAt_cos θ).const_mul (4 * π)).mul hf
    refine this.congr_deriv ?_
    ring
  cases dB <;> cases sig0
  · have e : inUnit false false f = f := by funext x; simp [inUnit]
    rw [e]
    exact hf.congr_deriv (by simp [Elem.unitSlope])
  · have e : inUnit false true f = fun θ => 4 * π * cos θ * f θ := by funext x; simp [inUnit]
    rw [e]
    exact h4.congr_deriv (by simp [Elem.unitSlope])
  · have hp := hpos rfl
    have := (hf.log hp.ne').div_const (log 10) |>.const_mul 10
    have h : HasDerivAt (inUnit true false f) (10 * (f' / f θ / log 10)) θ := by
      exact this.congr_of_eventuallyEq (Eventually.of_forall fun x => by simp [inUnit, logb])
    refine h.congr_deriv ?_
    simp [Elem.unitSlope]
    field_simp
  · have hp := hpos rfl
    have hpi := pi_pos
    have hne : 4 * π * cos θ * f θ ≠ 0 := by positivity
    have := (h4.log hne).div_const (log 10) |>.const_mul 10
    have h : HasDerivAt (inUnit true true f)
        (10 * (4 * π * (cos θ * f' - sin θ * f θ) / (4 * π * cos θ * f θ) / log 10)) θ := by
      exact this.congr_of_eventuallyEq (Eventually.of_forall fun x => by simp [inUnit, logb])
    refine h.congr_deriv ?_
    simp only [Elem.unitSlope, Elem.atTheta_t0, tan_eq_sin_div_cos]
    simp
    field_simp

theorem unitSlope_hasDerivAt (o : Elem) (dB sig0 : Bool) (f f1 : ℝ → ℝ) (f2 θ : ℝ) (hc : 0 < cos θ)
    (hf : HasDerivAt f (f1 θ) θ) (hf1 : HasDerivAt f1 f2 θ) (hpos : dB = true → 0 < f θ) :
    HasDerivAt (fun θ => (o.atTheta θ).unitSlope (f1 θ) (f θ) dB sig0)
      ((o.atTheta θ).unitCurv f2 (f1 θ) (f θ) dB sig0) θ := by
  have hlog : log 10 ≠ 0 := (log_pos (by norm_num)).ne'
  cases dB <;> cases sig0
  · simpa [Elem.unitSlope, Elem.unitCurv] using hf1
  · have h := (((hasDerivAt_cos θ).mul hf1).sub ((hasDerivAt_sin θ).mul hf)).const_mul (4 * π)
    have h' : HasDerivAt (fun θ => (o.atTheta θ).unitSlope (f1 θ) (f θ) false true)
        (4 * π * ((-sin θ * f1 θ + cos θ * f2) - (cos θ * f θ + sin θ * f1 θ))) θ := by
      simpa [Elem.unitSlope] using h
    refine h'.congr_deriv ?_
    simp [Elem.unitCurv]
    ring
  · have hp := hpos rfl
    have h := (hf1.div hf hp.ne').const_mul (10 / log 10)
    have h' : HasDerivAt (fun θ => (o.atTheta θ).unitSlope (f1 θ) (f θ) true false)
        (10 / log 10 * ((f2 * f θ - f1 θ * f1 θ) / f θ ^ 2)) θ := by
      refine h.congr_of_eventuallyEq (Eventually.of_forall fun x => ?_)
      simp [Elem.unitSlope]
      ring
    refine h'.congr_deriv ?_
    simp [Elem.unitCurv]
    field_simp
    simp
  · have hp := hpos rfl
    have h := ((hf1.div hf hp.ne').sub (Real.hasDerivAt_tan hc.ne')).const_mul (10 / log 10)
    have h' : HasDerivAt (fun θ => (o.atTheta θ).unitSlope (f1 θ) (f θ) true true)
        (10 / log 10 * ((f2 * f θ - f1 θ * f1 θ) / f θ ^ 2 - 1 / cos θ ^ 2)) θ := by
      refine h.congr_of_eventuallyEq (Eventually.of_forall fun x => ?_)
      simp [Elem.unitSlope]
    refine h'.congr_deriv ?_
    simp [Elem.unitCurv]
    field_simp
    simp

/-- Specification: the element is in monostatic geometry. -/
def IsMono (o : Elem) : Prop := o.tex = o.t0 ∧ o.pex = o.p0 + π

/-- Specification: `brdfDiff 1` is the derivative of the monostatic brdf near the incidence angle, and
`brdfDiff 2` the derivative of that (the assumption about `sympy.diff`). -/
def BrdfDiffCorrect (o : Elem) : Prop :=
  ∀ᶠ θ in 𝓝 o.t0,
    HasDerivAt (fun θ => o.brdf o.env θ θ o.p0 (o.p0 + π)) (o.brdfDiff 1 o.env θ θ o.p0 (o.p0 + π)) θ ∧
    HasDerivAt (fun θ => o.brdfDiff 1 o.env θ θ o.p0 (o.p0 + π)) (o.brdfDiff 2 o.env θ θ o.p0 (o.p0 + π)) θ

/-- Specification: the same for the volume phase function. -/
def PDiffCorrect (o : Elem) : Prop :=
  ∀ᶠ θ in 𝓝 o.t0,
    HasDerivAt (fun θ => o.p o.env θ θ o.p0 (o.p0 + π)) (o.pDiff 1 o.env θ θ o.p0 (o.p0 + π)) θ ∧
    HasDerivAt (fun θ => o.pDiff 1 o.env θ θ o.p0 (o.p0 + π)) (o.pDiff 2 o.env θ θ o.p0 (o.p0 + π)) θ

/-- Specification: monostatic surface backscatter as function of the incidence angle. -/
noncomputable def monoSurface (o : Elem) (θ : ℝ) : ℝ :=
  ({ o with t0 := θ, tex := θ, pex := o.p0 + π } : Elem).surface
/-- Specification: monostatic volume backscatter as function of the incidence angle. -/
noncomputable def monoVolume (o : Elem) (θ : ℝ) : ℝ :=
  ({ o with t0 := θ, tex := θ, pex := o.p0 + π } : Elem).volume

/-- C07: `surface_slope` is the derivative of the monostatic surface backscatter in all four units. -/
theorem C07_surface_slope (o : Elem) (dB sig0 : Bool) (hm : IsMono o) (hc : 0 < cos o.t0)
    (hd : BrdfDiffCorrect o) (hpos : dB = true → 0 < o.surface) :
    HasDerivAt (inUnit dB sig0 (monoSurface o)) (o.surfaceSlope dB sig0) o.t0 := by
  have hs := o.atTheta_self hm.1 hm.2
  have h := inUnit_hasDerivAt o dB sig0 (monoSurface o) _ o.t0 hc
    (o.surface_hasDerivAt o.t0 _ hc.ne' hd.self_of_nhds.1 rfl)
    (by intro h; have := hpos h; rw [← hs] at this; exact this)
  refine h.congr_deriv ?_
  show (o.atTheta o.t0).unitSlope (o.atTheta o.t0).surfaceSlopeLin (o.atTheta o.t0).surface dB sig0 = _
  rw [hs]; rfl

/-- C07: `volume_slope` is the derivative of the monostatic volume backscatter in all four units. -/
theorem C07_volume_slope (o : Elem) (dB sig0 : Bool) (hm : IsMono o) (hc : 0 < cos o.t0)
    (hd : PDiffCorrect o) (hpos : dB = true → 0 < o.volume) :
    HasDerivAt (inUnit dB sig0 (monoVolume o)) (o.volumeSlope dB sig0) o.t0 := by
  have hs := o.atTheta_self hm.1 hm.2
  have h := inUnit_hasDerivAt o dB sig0 (monoVolume o) _ o.t0 hc
    (o.volume_hasDerivAt o.t0 _ hc.ne' hd.self_of_nhds.1 rfl)
    (by intro h; have := hpos h; rw [← hs] at this; exact this)
  refine h.congr_deriv ?_
  show (o.atTheta o.t0).unitSlope (o.atTheta o.t0).volumeSlopeLin (o.atTheta o.t0).volume dB sig0 = _
  rw [hs]; rfl

/-- C07: `tot_slope` is the derivative of the monostatic total (surface + volume) backscatter in all four units. -/
theorem C07_tot_slope (o : Elem) (dB sig0 : Bool) (hm : IsMono o) (hc : 0 < cos o.t0)
    (hb : BrdfDiffCorrect o) (hp : PDiffCorrect o) (hpos : dB = true → 0 < o.surface + o.volume) :
    HasDerivAt (inUnit dB sig0 fun θ => monoSurface o θ + monoVolume o θ) (o.totSlope sig0 dB) o.t0 := by
  have hs := o.atTheta_self hm.1 hm.2
  have h := inUnit_hasDerivAt o dB sig0 (fun θ => monoSurface o θ + monoVolume o θ) _ o.t0 hc
    ((o.surface_hasDerivAt o.t0 _ hc.ne' hb.self_of_nhds.1 rfl).add
      (o.volume_hasDerivAt o.t0 _ hc.ne' hp.self_of_nhds.1 rfl))
    (by intro h; have := hpos h; rw [← hs] at this; exact this)
  refine h.congr_deriv ?_
  show (o.atTheta o.t0).unitSlope ((o.atTheta o.t0).surfaceSlopeLin + (o.atTheta o.t0).volumeSlopeLin)
    ((o.atTheta o.t0).surface + (o.atTheta o.t0).volume) dB sig0 = _
  rw [hs, Elem.totSlope, add_comm o.surface, add_comm o.surfaceSlopeLin]

/-- General form of the curvature theorems. -/
theorem curv_general (o : Elem) (dB sig0 : Bool) (f f1 : ℝ → ℝ) (f2 : ℝ) (hc : 0 < cos o.t0)
    (hf : ∀ᶠ θ in 𝓝 o.t0, HasDerivAt f (f1 θ) θ) (hf1 : HasDerivAt f1 f2 o.t0)
    (hpos : dB = true → 0 < f o.t0) :
    HasDerivAt (fun θ => deriv (inUnit dB sig0 f) θ)
      ((o.atTheta o.t0).unitCurv f2 (f1 o.t0) (f o.t0) dB sig0) o.t0 := by
  have h := unitSlope_hasDerivAt o dB sig0 f f1 f2 o.t0 hc hf.self_of_nhds hf1 hpos
  refine h.congr_of_eventuallyEq ?_
  have hcos : ∀ᶠ θ in 𝓝 o.t0, 0 < cos θ := continuous_cos.continuousAt.eventually_const_lt hc
  have hfpos : ∀ᶠ θ in 𝓝 o.t0, dB = true → 0 < f θ := by
    cases dB with
    | false => simp
    | true =>
      have := hf.self_of_nhds.continuousAt.eventually_const_lt (hpos rfl)
      filter_upwards [this] with θ hθ _ using hθ
  filter_upwards [hf, hcos, hfpos] with θ h1 h2 h3
  exact (inUnit_hasDerivAt o dB sig0 f (f1 θ) θ h2 h1 h3).deriv

/-- C08: `surface_curv` is the second derivative of the monostatic surface backscatter in all four units. -/
theorem C08_surface_curv (o : Elem) (dB sig0 : Bool) (hm : IsMono o) (hc : 0 < cos o.t0)
    (hd : BrdfDiffCorrect o) (hpos : dB = true → 0 < o.surface) :
    HasDerivAt (deriv (inUnit dB sig0 (monoSurface o))) (o.surfaceCurv dB sig0) o.t0 := by
  have hs := o.atTheta_self hm.1 hm.2
  have hcos : ∀ᶠ θ in 𝓝 o.t0, cos θ ≠ 0 := continuous_cos.continuousAt.eventually_ne hc.ne'
  have h := curv_general o dB sig0 (monoSurface o) (fun θ => (o.atTheta θ).surfaceSlopeLin) _ hc
    (by filter_upwards [hd, hcos] with θ h1 h2 using o.surface_hasDerivAt θ _ h2 h1.1 rfl)
    (o.surfaceSlope_hasDerivAt o.t0 _ hc.ne' hd.self_of_nhds.1 hd.self_of_nhds.2 rfl)
    (by intro h; have := hpos h; rw [← hs] at this; exact this)
  refine h.congr_deriv ?_
  show (o.atTheta o.t0).unitCurv (o.atTheta o.t0).surfaceCurvLin (o.atTheta o.t0).surfaceSlopeLin
    (o.atTheta o.t0).surface dB sig0 = _
  rw [hs]; rfl

/-- C08: `volume_curv` is the second derivative of the monostatic volume backscatter in all four units. -/
theorem C08_volume_curv (o : Elem) (dB sig0 : Bool) (hm : IsMono o) (hc : 0 < cos o.t0)
    (hd : PDiffCorrect o) (hpos : dB = true → 0 < o.volume) :
    HasDerivAt (deriv (inUnit dB sig0 (monoVolume o))) (o.volumeCurv dB sig0) o.t0 := by
  have hs := o.atTheta_self hm.1 hm.2
  have hcos : ∀ᶠ θ in 𝓝 o.t0, cos θ ≠ 0 := continuous_cos.continuousAt.eventually_ne hc.ne'
  have h := curv_general o dB sig0 (monoVolume o) (fun θ => (o.atTheta θ).volumeSlopeLin) _ hc
    (by filter_upwards [hd, hcos] with θ h1 h2 using o.volume_hasDerivAt θ _ h2 h1.1 rfl)
    (o.volumeSlope_hasDerivAt o.t0 _ hc.ne' hd.self_of_nhds.1 hd.self_of_nhds.2 rfl)
    (by intro h; have := hpos h; rw [← hs] at this; exact this)
  refine h.congr_deriv ?_
  show (o.atTheta o.t0).unitCurv (o.atTheta o.t0).volumeCurvLin (o.atTheta o.t0).volumeSlopeLin
    (o.atTheta o.t0).volume dB sig0 = _
  rw [hs]; rfl

/-- C08: `tot_curv` is the second derivative of the monostatic total backscatter in all four units. -/
theorem C08_tot_curv (o : Elem) (dB sig0 : Bool) (hm : IsMono o) (hc : 0 < cos o.t0)
    (hb : BrdfDiffCorrect o) (hp : PDiffCorrect o) (hpos : dB = true → 0 < o.surface + o.volume) :
    HasDerivAt (deriv (inUnit dB sig0 fun θ => monoSurface o θ + monoVolume o θ)) (o.totCurv sig0 dB) o.t0 := by
  have hs := o.atTheta_self hm.1 hm.2
  have hcos : ∀ᶠ θ in 𝓝 o.t0, cos θ ≠ 0 := continuous_cos.continuousAt.eventually_ne hc.ne'
  have h := curv_general o dB sig0 (fun θ => monoSurface o θ + monoVolume o θ)
    (fun θ => (o.atTheta θ).surfaceSlopeLin + (o.atTheta θ).volumeSlopeLin) _ hc
    (by filter_upwards [hb, hp, hcos] with θ h1 h1' h2 using
          (o.surface_hasDerivAt θ _ h2 h1.1 rfl).add (o.volume_hasDerivAt θ _ h2 h1'.1 rfl))
    ((o.surfaceSlope_hasDerivAt o.t0 _ hc.ne' hb.self_of_nhds.1 hb.self_of_nhds.2 rfl).add
      (o.volumeSlope_hasDerivAt o.t0 _ hc.ne' hp.self_of_nhds.1 hp.self_of_nhds.2 rfl))
    (by intro h; have := hpos h; rw [← hs] at this; exact this)
  refine h.congr_deriv ?_
  show (o.atTheta o.t0).unitCurv ((o.atTheta o.t0).surfaceCurvLin + (o.atTheta o.t0).volumeCurvLin)
    ((o.atTheta o.t0).surfaceSlopeLin + (o.atTheta o.t0).volumeSlopeLin)
    ((o.atTheta o.t0).surface + (o.atTheta o.t0).volume) dB sig0 = _
  rw [hs, Elem.totCurv, add_comm o.surface, add_comm o.surfaceSlopeLin, add_comm o.surfaceCurvLin]

example : IsMono exElem ∧ 0 < cos exElem.t0 ∧ BrdfDiffCorrect exElem ∧ PDiffCorrect exElem := by
  refine ⟨⟨rfl, rfl⟩, exElem_admissible.mu0, Eventually.of_forall fun θ => ?_, Eventually.of_forall fun θ => ?_⟩
  · exact ⟨hasDerivAt_const θ _, hasDerivAt_const θ _⟩
  · exact ⟨hasDerivAt_const θ _, hasDerivAt_const θ _⟩

/-! ## C09: jacobian entries -/

/-- Specification: the element with one parameter changed. -/
noncomputable def setParam (o : Elem) (key : String) (x : ℝ) : Elem :=
  if key = "omega" then { o with omega := x }
  else if key = "tau" then { o with tau := x }
  else if key = "NormBRDF" then { o with NormBRDF := x }
  else if key = "bsf" then { o with bsf := x }
  else { o with env := Function.update o.env key x }

/-- Specification: the current value of a parameter. -/
noncomputable def getParam (o : Elem) (key : String) : ℝ :=
  if key = "omega" then o.omega
  else if key = "tau" then o.tau
  else if key = "NormBRDF" then o.NormBRDF
  else if key = "bsf" then o.bsf
  else o.env key

/-- Specification: modelled backscatter (surface + volume) in the requested unit. -/
noncomputable def backscatter (dB sig0 : Bool) (o : Elem) : ℝ :=
  let lin := if sig0 then 4 * π * cos o.t0 * (o.surface + o.volume) else o.surface + o.volume
  if dB then 10 * logb 10 lin else lin

/-- Specification: the derivatives provided by sympy for a symbol are correct. -/
def DummyDiffCorrect (o : Elem) (key : String) : Prop :=
  HasDerivAt (fun x => o.brdf (Function.update o.env key x) o.t0 o.tex o.p0 o.pex)
      (o.dbrdf key o.env o.t0 o.tex o.p0 o.pex) (o.env key) ∧
  HasDerivAt (fun x => o.p (Function.update o.env key x) o.t0 o.tex o.p0 o.pex)
      (o.dp key o.env o.t0 o.tex o.p0 o.pex) (o.env key)

/-- chain rule for the unit conversion -/
theorem backscatter_hasDerivAt (o : Elem) (dB sig0 : Bool) (s : ℝ → Elem) (x v : ℝ)
    (hc : 0 < cos o.t0) (hs : s x = o) (ht : ∀ y, (s y).t0 = o.t0)
    (hpos : dB = true → 0 < o.surface + o.volume)
    (h : HasDerivAt (fun y => (s y).surface + (s y).volume) v x) :
    HasDerivAt (fun y => backscatter dB sig0 (s y)) (v * o.jacNorm dB sig0) x := by
  have hlog : log 10 ≠ 0 := (log_pos (by norm_num)).ne'
  have hpi := pi_pos
  have h4 := h.const_mul (4 * π * cos o.t0)
  cases dB <;> cases sig0
  · simpa [backscatter, Elem.jacNorm] using h
  · have : HasDerivAt (fun y => backscatter false true (s y)) (4 * π * cos o.t0 * v) x := by
      simpa [backscatter, ht] using h4
    refine this.congr_deriv ?_
    simp [Elem.jacNorm]; ring
  · have hp := hpos rfl
    have hp' : (s x).surface + (s x).volume ≠ 0 := by rw [hs]; exact hp.ne'
    have := ((h.log hp').div_const (log 10)).const_mul 10
    have h' : HasDerivAt (fun y => backscatter true false (s y))
        (10 * (v / (o.surface + o.volume) / log 10)) x := by
      rw [hs] at this
      simpa [backscatter, logb] using this
    refine h'.congr_deriv ?_
    simp [Elem.jacNorm]
    field_simp
  · have hp := hpos rfl
    have hp' : 4 * π * cos o.t0 * ((s x).surface + (s x).volume) ≠ 0 := by rw [hs]; positivity
    have := ((h4.log hp').div_const (log 10)).const_mul 10
    have h' : HasDerivAt (fun y => backscatter true true (s y))
        (10 * (4 * π * cos o.t0 * v / (4 * π * cos o.t0 * (o.surface + o.volume)) / log 10)) x := by
      rw [hs] at this
      simpa [backscatter, logb, ht] using this
    refine h'.congr_deriv ?_
    simp [Elem.jacNorm]
    field_simp

theorem setParam_getParam (o : Elem) (key : String) : setParam o key (getParam o key) = o := by
  unfold setParam getParam
  split_ifs <;> simp

theorem setParam_t0 (o : Elem) (key : String) (x : ℝ) : (setParam o key x).t0 = o.t0 := by
  unfold setParam; split_ifs <;> rfl

/-- The linear-intensity derivative used by the code for a key (without the unit factor). -/
theorem linear_hasDerivAt (o : Elem) (key : String) (hc0 : cos o.t0 ≠ 0)
    (hd : key ∈ o.keys → DummyDiffCorrect o key) (v : ℝ)
    (hk : key ≠ "tau" ∨ cos o.tex = 1)
    (hv : o.jacEntry false false key = .ok v) :
    HasDerivAt (fun y => (setParam o key y).surface + (setParam o key y).volume) v (getParam o key) := by
  unfold Elem.jacEntry at hv
  simp only [Elem.jacNorm] at hv
  simp only [Bool.false_eq_true, false_and, if_false, mul_one] at hv
  unfold setParam getParam
  have hatt : exp (-o.tau / cos o.t0 - o.tau / cos o.tex) = exp (-(o.tau / cos o.t0) - o.tau / cos o.tex) := by
    congr 1; ring
  by_cases k1 : key = "omega"
  · simp only [k1, if_true] at hv ⊢
    cases hv
    have h1 : HasDerivAt (fun y : ℝ => y * (((1 - o.bsf) * (o.I0 * o.mu0 / (o.mu0 + o.muex)
        * (1 - exp (-(o.tau / o.mu0) - (o.tau / o.muex))) * o.pVal)))) _ o.omega :=
      (hasDerivAt_id o.omega).mul_const _
    have h := h1.const_add o.surface
    refine (h.congr_of_eventuallyEq (Eventually.of_forall fun y => ?_)).congr_deriv ?_
    · simp only [Elem.surface, Elem.volume, Elem.mu0, Elem.muex, Elem.pVal, Elem.brdfVal]
      ring
    · simp [Elem.dsurfaceDomega, Elem.dvolumeDomega]
  by_cases k2 : key = "tau"
  · simp only [k2, if_true] at hv ⊢
    have hmu : cos o.tex = 1 := hk.resolve_left (fun h => h k2)
    cases hv
    simp only [String.reduceEq, if_false]
    have he : HasDerivAt (fun y : ℝ => exp (-(y / cos o.t0) - y / cos o.tex))
        (exp (-(o.tau / cos o.t0) - o.tau / cos o.tex) * (-(1 / cos o.t0) - 1 / cos o.tex)) o.tau := by
      have h1 := (hasDerivAt_id o.tau).div_const (cos o.t0)
      have h2 := (hasDerivAt_id o.tau).div_const (cos o.tex)
      exact (h1.neg.sub h2).exp
    have hsurf := (((he.mul_const (o.I0 * o.mu0 * o.brdfVal)).const_mul (1 - o.bsf)).add_const
      (o.bsf * (o.I0 * o.mu0 * o.brdfVal))).const_mul o.NormBRDF
    have hvol := (((he.const_sub 1).const_mul (o.I0 * o.omega * o.mu0 / (o.mu0 + o.muex))).mul_const
      o.pVal).const_mul (1 - o.bsf)
    refine (hsurf.add hvol).congr_deriv ?_
    simp only [Elem.dsurfaceDtau, Elem.dvolumeDtau, Elem.mu0, Elem.muex, hatt]
    rw [hmu]
    have : cos o.t0 + 1 ≠ 0 ∨ cos o.t0 + 1 = 0 := (em _).symm
    rcases this with h | h
    · field_simp
      ring
    · rw [h]; field_simp; ring
  by_cases k3 : key = "NormBRDF"
  · simp only [k3, if_true] at hv ⊢
    simp only [String.reduceEq, if_false] at hv ⊢
    cases hv
    have h := ((hasDerivAt_id o.NormBRDF).mul_const o.dsurfaceDR).add_const o.volume
    refine (h.congr_of_eventuallyEq (Eventually.of_forall fun y => ?_)).congr_deriv ?_
    · simp only [Elem.surface, Elem.volume, Elem.mu0, Elem.muex, Elem.pVal, Elem.brdfVal, Elem.dsurfaceDR, id]
    · simp [Elem.dvolumeDR]
  by_cases k4 : key = "bsf"
  · simp only [k4, if_true] at hv ⊢
    simp only [String.reduceEq, if_false] at hv ⊢
    cases hv
    have h := ((hasDerivAt_id o.bsf).mul_const (o.dsurfaceDbsf + o.dvolumeDbsf)).const_add
      (({ o with bsf := 0 } : Elem).surface + ({ o with bsf := 0 } : Elem).volume)
    refine (h.congr_of_eventuallyEq (Eventually.of_forall fun y => ?_)).congr_deriv ?_
    · simp only [Elem.surface, Elem.volume, Elem.mu0, Elem.muex, Elem.pVal, Elem.brdfVal, Elem.dsurfaceDbsf,
        Elem.dvolumeDbsf, id]
      ring
    · simp
  · simp only [k1, k2, k3, k4, if_false] at hv ⊢
    split at hv
    · rename_i hmem
      cases hv
      obtain ⟨h1, h2⟩ := hd hmem
      have hs := h1.const_mul (o.NormBRDF * ((1 - o.bsf) * exp (-(o.tau / o.mu0) - (o.tau / o.muex)) + o.bsf)
        * (o.I0 * o.mu0))
      have hvv := h2.const_mul ((1 - o.bsf) * (o.I0 * o.omega * o.mu0 / (o.mu0 + o.muex))
        * (1 - exp (-(o.tau / o.mu0) - (o.tau / o.muex))))
      refine ((hs.add hvv).congr_of_eventuallyEq (Eventually.of_forall fun y => ?_)).congr_deriv ?_
      · simp only [Elem.surface, Elem.volume, Elem.mu0, Elem.muex, Elem.pVal, Elem.brdfVal, Pi.add_apply]
        ring
      · simp only [Elem.dsurfaceDdummy, Elem.dvolumeDdummy]
        ring
    · cases hv

theorem jacEntry_unit (o : Elem) (dB sig0 : Bool) (key : String) (v : ℝ) (h : o.jacEntry dB sig0 key = .ok v) :
    ∃ v', o.jacEntry false false key = .ok v' ∧ v = v' * o.jacNorm dB sig0 := by
  have hn : o.jacNorm false false = 1 := by simp [Elem.jacNorm]
  unfold Elem.jacEntry at *
  simp only [hn, mul_one] at *
  split_ifs at * <;> (cases h; exact ⟨_, rfl, rfl⟩)

/-- C09: for every parameter except `tau` (and for `tau` if `cos(t_ex) = 1`) the entry returned by `jacobian` is the
partial derivative of the modelled backscatter in the requested unit.

Full claim: the same for *every* accepted name and all geometries.  This is false for `tau`, see
`C09_jacobian_tau_wrong`.  Missing here: `tau` with `cos(t_ex) ≠ 1`. -/
theorem C09_jacobian_partial (o : Elem) (dB sig0 : Bool) (key : String) (v : ℝ)
    (hc0 : 0 < cos o.t0) (hpos : dB = true → 0 < o.surface + o.volume)
    (hd : key ∈ o.keys → DummyDiffCorrect o key)
    (hk : key ≠ "tau" ∨ cos o.tex = 1)
    (hv : o.jacobian dB sig0 [key] = .ok [v]) :
    HasDerivAt (fun x => backscatter dB sig0 (setParam o key x)) v (getParam o key) := by
  have hv' : o.jacEntry dB sig0 key = .ok v := by
    unfold Elem.jacobian Elem.jacobianLoop at hv
    cases he : o.jacEntry dB sig0 key with
    | error e => rw [he] at hv; cases hv
    | ok w =>
      rw [he] at hv
      simp [Elem.jacobianLoop] at hv
      rw [hv]
  obtain ⟨v', h1, rfl⟩ := jacEntry_unit o dB sig0 key v hv'
  exact backscatter_hasDerivAt o dB sig0 (setParam o key) _ _ hc0 (setParam_getParam o key)
    (setParam_t0 o key) hpos (linear_hasDerivAt o key hc0.ne' hd v' hk h1)

/-- The true derivative with respect to tau. -/
theorem tau_true_deriv (o : Elem) :
    HasDerivAt (fun y => (setParam o "tau" y).surface + (setParam o "tau" y).volume)
      (o.dsurfaceDtau + (1 - o.bsf) * (o.I0 * o.omega * (cos o.t0 / (cos o.t0 + cos o.tex)) *
        ((1 / cos o.t0 + 1 / cos o.tex) * exp (-o.tau / cos o.t0 - o.tau / cos o.tex)) *
        o.p o.env o.t0 o.tex o.p0 o.pex)) o.tau := by
  have hatt : exp (-o.tau / cos o.t0 - o.tau / cos o.tex) = exp (-(o.tau / cos o.t0) - o.tau / cos o.tex) := by
    congr 1; ring
  have he : HasDerivAt (fun y : ℝ => exp (-(y / cos o.t0) - y / cos o.tex))
      (exp (-(o.tau / cos o.t0) - o.tau / cos o.tex) * (-(1 / cos o.t0) - 1 / cos o.tex)) o.tau := by
    have h1 := (hasDerivAt_id o.tau).div_const (cos o.t0)
    have h2 := (hasDerivAt_id o.tau).div_const (cos o.tex)
    exact (h1.neg.sub h2).exp
  have hsurf := (((he.mul_const (o.I0 * o.mu0 * o.brdfVal)).const_mul (1 - o.bsf)).add_const
    (o.bsf * (o.I0 * o.mu0 * o.brdfVal))).const_mul o.NormBRDF
  have hvol := (((he.const_sub 1).const_mul (o.I0 * o.omega * o.mu0 / (o.mu0 + o.muex))).mul_const
    o.pVal).const_mul (1 - o.bsf)
  have h := (hsurf.add hvol)
  refine (h.congr_of_eventuallyEq (Eventually.of_forall fun y => ?_)).congr_deriv ?_
  · simp only [setParam, String.reduceEq, if_false, if_true]
    rfl
  · simp only [Elem.dsurfaceDtau, Elem.mu0, Elem.muex, Elem.pVal, hatt]
    ring

/-- C09 (violation): whenever the volume contributes (`(1 - bsf) I0 omega p ≠ 0`) and `cos(t_ex)` is not 1, the entry
that `jacobian` returns for `tau` is **not** the derivative of the modelled backscatter, in any of the linear units
(the code evaluates `1.0 / mu_ex ** (-1)`, i.e. `mu_ex` instead of `1 / mu_ex`). -/
theorem C09_jacobian_tau_wrong (o : Elem) (sig0 : Bool) (hc0 : 0 < cos o.t0) (hcex : 0 < cos o.tex)
    (hne : cos o.tex ≠ 1)
    (hvol : (1 - o.bsf) * o.I0 * o.omega * o.p o.env o.t0 o.tex o.p0 o.pex ≠ 0) :
    ∃ v, o.jacobian false sig0 ["tau"] = .ok [v] ∧
      ¬ HasDerivAt (fun x => backscatter false sig0 (setParam o "tau" x)) v o.tau := by
  refine ⟨(o.dsurfaceDtau + o.dvolumeDtau) * o.jacNorm false sig0, ?_, ?_⟩
  · simp [Elem.jacobian, Elem.jacobianLoop, Elem.jacEntry]
  · intro h
    have ht := backscatter_hasDerivAt o false sig0 (setParam o "tau") o.tau _ hc0
      (setParam_getParam o "tau") (setParam_t0 o "tau") (by simp) (tau_true_deriv o)
    have hn : o.jacNorm false sig0 ≠ 0 := by
      have := pi_pos
      cases sig0
      · simp [Elem.jacNorm]
      · simp [Elem.jacNorm, hc0.ne']
    have e := mul_right_cancel₀ hn (h.unique ht)
    have e' := add_left_cancel e
    simp only [Elem.dvolumeDtau, Elem.mu0, Elem.muex, Elem.pVal] at e'
    have hexp : exp (-o.tau / cos o.t0 - o.tau / cos o.tex) ≠ 0 := (exp_pos _).ne'
    have hsum : cos o.t0 + cos o.tex ≠ 0 := by positivity
    have hk : (1 - o.bsf) * o.I0 * o.omega * o.p o.env o.t0 o.tex o.p0 o.pex *
        (cos o.t0 / (cos o.t0 + cos o.tex) * exp (-o.tau / cos o.t0 - o.tau / cos o.tex)) ≠ 0 :=
      mul_ne_zero hvol (mul_ne_zero (div_ne_zero hc0.ne' hsum) hexp)
    have e2 : (1 / cos o.t0 + 1 / (cos o.tex)⁻¹) = (1 / cos o.t0 + 1 / cos o.tex) := by
      apply mul_left_cancel₀ hk
      linear_combination e'
    have e3 : cos o.tex = 1 / cos o.tex := by
      have := add_left_cancel e2
      simpa using this
    have e4 : cos o.tex * cos o.tex = 1 := by
      rw [eq_div_iff hcex.ne'] at e3; exact e3
    exact hne (by nlinarith)

example : 0 < cos exElem.t0 ∧ cos exElem.tex ≠ 1 ∧
    (1 - exElem.bsf) * exElem.I0 * exElem.omega *
      exElem.p exElem.env exElem.t0 exElem.tex exElem.p0 exElem.pex ≠ 0 := by
  refine ⟨exElem_admissible.mu0, ?_, ?_⟩ <;> norm_num [exElem]

/-- The hypotheses of `C09_jacobian_partial` hold for the symbol `x` of the example element. -/
example : "x" ∈ exElem.keys ∧ DummyDiffCorrect exElem "x" ∧ ∃ v, exElem.jacobian false true ["x"] = .ok [v] := by
  refine ⟨by simp [exElem], ⟨?_, ?_⟩, ?_⟩
  · have := hasDerivAt_id (2 : ℝ)
    simp [exElem]
    exact this
  · have := hasDerivAt_pow 2 (2 : ℝ)
    simpa [exElem] using this
  · simp [Elem.jacobian, Elem.jacobianLoop, Elem.jacEntry, exElem]

/-! ## C10: structure of the jacobian -/

/-- Specification: the accepted names. -/
def knownName (o : Elem) (k : String) : Prop :=
  k = "omega" ∨ k = "tau" ∨ k = "NormBRDF" ∨ k = "bsf" ∨ k ∈ o.keys

theorem jacobianLoop_eq (o : Elem) (dB sig0 : Bool) (ks : List String) (acc : List ℝ) :
    o.jacobianLoop dB sig0 ks acc = match ks.mapM (o.jacEntry dB sig0) with
      | .ok r => .ok (acc ++ r)
      | .error e => .error e := by
  induction ks generalizing acc with
  | nil => simp [Elem.jacobianLoop, pure, Except.pure]
  | cons k ks ih =>
    rw [Elem.jacobianLoop, List.mapM_cons]
    cases h : o.jacEntry dB sig0 k with
    | error e => rfl
    | ok v =>
      simp only [ih]
      cases ks.mapM (o.jacEntry dB sig0) with
      | error e => rfl
      | ok r =>
        show Except.ok (acc ++ [v] ++ r) = Except.ok (acc ++ v :: r)
        simp

theorem jacobian_eq_mapM (o : Elem) (dB sig0 : Bool) (ks : List String) :
    o.jacobian dB sig0 ks = ks.mapM (o.jacEntry dB sig0) := by
  rw [Elem.jacobian, jacobianLoop_eq]
  cases ks.mapM (o.jacEntry dB sig0) <;> simp

/-- C10: one entry per requested name, in the requested order, each entry being the answer to the single request
`[name]`. -/
theorem C10_entries (o : Elem) (dB sig0 : Bool) (ks : List String) (vs : List ℝ) :
    o.jacobian dB sig0 ks = .ok vs ↔
      vs.length = ks.length ∧
      ∀ (i : ℕ) (k : String) (v : ℝ), ks[i]? = some k → vs[i]? = some v → o.jacobian dB sig0 [k] = .ok [v] := by
  have hsingle : ∀ k v, o.jacobian dB sig0 [k] = .ok [v] ↔ o.jacEntry dB sig0 k = .ok v := by
    intro k v
    rw [jacobian_eq_mapM, General.mapM_ok_iff]
    simp
  rw [jacobian_eq_mapM, General.mapM_ok_iff, List.forall₂_iff_get]
  constructor
  · rintro ⟨h1, h2⟩
    refine ⟨h1.symm, ?_⟩
    intro i k v hk hv
    rw [List.getElem?_eq_some_iff] at hk hv
    obtain ⟨a, rfl⟩ := hk
    obtain ⟨b, rfl⟩ := hv
    rw [hsingle]
    exact h2 i a b
  · rintro ⟨h1, h2⟩
    refine ⟨h1.symm, ?_⟩
    intro i h h'
    rw [← hsingle]
    exact h2 i _ _ (List.getElem?_eq_getElem h) (List.getElem?_eq_getElem h')

/-- C10: the call succeeds iff every requested name is known. -/
theorem C10_succeeds_iff (o : Elem) (dB sig0 : Bool) (ks : List String) :
    (∃ vs, o.jacobian dB sig0 ks = .ok vs) ↔ ∀ k ∈ ks, knownName o k := by
  rw [jacobian_eq_mapM, General.mapM_isOk_iff]
  refine forall₂_congr fun k _ => ?_
  unfold Elem.jacEntry knownName
  simp only
  split_ifs <;> simp_all

/-- C10: splitting the request splits the answer. -/
theorem C10_append (o : Elem) (dB sig0 : Bool) (ks ks' : List String) (vs vs' : List ℝ)
    (h : o.jacobian dB sig0 ks = .ok vs) (h' : o.jacobian dB sig0 ks' = .ok vs') :
    o.jacobian dB sig0 (ks ++ ks') = .ok (vs ++ vs') := by
  rw [jacobian_eq_mapM, General.mapM_ok_iff] at *
  exact List.rel_append h h'

example : ∀ k ∈ ["tau", "x", "tau", "bsf"], knownName exElem k := by
  simp [knownName, exElem]

/-! ## C70: the interaction contribution does not depend on the chosen geometry string -/

/-- Specification: the interaction contribution; the second F_int is the first one with the directions exchanged.
`fnAll` are the coefficients as function of the four angles. -/
noncomputable def interactionSpec (o : Elem) (expi : ℝ → ℝ) (expn : ℕ → ℝ → ℝ) (fnAll : Angles → List ℝ) : ℝ :=
  o.NormBRDF * (1 - o.bsf) * (o.I0 * cos o.t0 * o.omega *
    (exp (-o.tau / cos o.tex) * Fint expi expn (cos o.t0) o.tau (fnAll ⟨o.t0, o.p0, o.tex, o.pex⟩)
     + exp (-o.tau / cos o.t0) * Fint expi expn (cos o.tex) o.tau (fnAll ⟨o.tex, o.pex, o.t0, o.p0⟩)))

/-- Specification: zenith angles. -/
def ZenithAngles (o : Elem) : Prop := 0 ≤ o.t0 ∧ o.t0 ≤ π ∧ 0 ≤ o.tex ∧ o.tex ≤ π

/-- C70: geometry `"vvvv"` gives the interaction contribution. -/
theorem C70_variable_geometry (o : Elem) (h : ZenithAngles o) (expi : ℝ → ℝ) (expn : ℕ → ℝ → ℝ)
    (fnAll : Angles → List ℝ) :
    o.interaction expi expn ['v', 'v', 'v', 'v'] fnAll = .ok (interactionSpec o expi expn fnAll) := by
  obtain ⟨h1, h2, h3, h4⟩ := h
  simp [Elem.interaction, Elem.calcFint1, Elem.calcFint2, geomArgs, Elem.interactionOf, Elem.mu0, Elem.muex,
    interactionSpec, arccos_cos h1 h2, arccos_cos h3 h4]

/-- C70: geometry `"mono"` gives the interaction contribution for monostatic elements if the coefficients are
invariant under a simultaneous exchange of the two azimuths `p_0`, `p_0 + pi` (true for every coefficient that depends
on azimuth differences). -/
theorem C70_mono_partial (o : Elem) (h : ZenithAngles o) (hm : IsMono o) (expi : ℝ → ℝ) (expn : ℕ → ℝ → ℝ)
    (fnAll : Angles → List ℝ)
    (hinv : fnAll ⟨o.t0, o.p0 + π, o.t0, o.p0⟩ = fnAll ⟨o.t0, o.p0, o.t0, o.p0 + π⟩) :
    o.interaction expi expn ['m', 'o', 'n', 'o'] fnAll = .ok (interactionSpec o expi expn fnAll) := by
  obtain ⟨h1, h2, h3, h4⟩ := h
  obtain ⟨m1, m2⟩ := hm
  simp [Elem.interaction, Elem.calcFint1, Elem.calcFint2, geomArgs, Elem.interactionOf, Elem.mu0, Elem.muex,
    interactionSpec, m1, m2, arccos_cos h1 h2, Elem.angles, hinv]

/-- C70: with fixed angles the result is the interaction contribution if the second set of coefficients happens not to
depend on the fixed angles (stated for an arbitrary geometry string of `v` and `f`).

Full claim: `interaction` returns the same value for every admissible geometry string.  This is false, see
`C70_fixed_geometry_wrong`. -/
theorem C70_fixed_partial (o : Elem) (h : ZenithAngles o) (expi : ℝ → ℝ) (expn : ℕ → ℝ → ℝ)
    (fnAll : Angles → List ℝ) (c0 c1 c2 c3 : Char)
    (h0 : c0 = 'v' ∨ c0 = 'f') (h1 : c1 = 'v' ∨ c1 = 'f') (h2 : c2 = 'v' ∨ c2 = 'f') (h3 : c3 = 'v' ∨ c3 = 'f')
    (hinv : fnAll ⟨if c0 = 'f' then o.t0 else o.tex, if c2 = 'f' then o.p0 else o.pex,
        if c1 = 'f' then o.tex else o.t0, if c3 = 'f' then o.pex else o.p0⟩ =
      fnAll ⟨o.tex, o.pex, o.t0, o.p0⟩) :
    o.interaction expi expn [c0, c1, c2, c3] fnAll = .ok (interactionSpec o expi expn fnAll) := by
  obtain ⟨a1, a2, a3, a4⟩ := h
  rcases h0 with rfl | rfl <;> rcases h1 with rfl | rfl <;> rcases h2 with rfl | rfl <;> rcases h3 with rfl | rfl <;>
  simp at hinv <;>
  simp [Elem.interaction, Elem.calcFint1, Elem.calcFint2, geomArgs, Elem.interactionOf, Elem.mu0, Elem.muex,
    interactionSpec, arccos_cos a1 a2, arccos_cos a3 a4, Elem.angles, hinv]

/-- C70 (violation): with a fixed incidence angle (geometry `"fvvv"`) the coefficients of the exchanged direction are
evaluated at `theta_0 = t_0` instead of `theta_0 = t_ex`.  For the coefficient `cos(theta_0)` the result is wrong for
*every* bistatic element with non-vanishing interaction. -/
theorem C70_fixed_geometry_wrong (o : Elem) (h : ZenithAngles o) (hne : o.t0 ≠ o.tex) (expi : ℝ → ℝ)
    (expn : ℕ → ℝ → ℝ) (hc : o.NormBRDF * (1 - o.bsf) * o.I0 * cos o.t0 * o.omega ≠ 0)
    (hF : Fint expi expn (cos o.tex) o.tau [1] ≠ 0) :
    o.interaction expi expn ['f', 'v', 'v', 'v'] (fun a => [cos a.theta0]) ≠
      .ok (interactionSpec o expi expn (fun a => [cos a.theta0])) := by
  obtain ⟨a1, a2, a3, a4⟩ := h
  have hlin : ∀ mu c : ℝ, Fint expi expn mu o.tau [c] = c * Fint expi expn mu o.tau [1] := by
    intro mu c; simp [Fint, muX, S2mu, List.range_succ]
  simp only [Elem.interaction, Elem.calcFint1, Elem.calcFint2, geomArgs, Elem.interactionOf, Elem.mu0, Elem.muex,
    interactionSpec, arccos_cos a1 a2, arccos_cos a3 a4, Elem.angles]
  simp only [List.cons.injEq, Char.reduceEq, false_and, if_false, if_true]
  intro e
  have e := Except.ok.inj e
  rw [hlin (cos o.t0), hlin (cos o.tex) (cos o.t0), hlin (cos o.tex) (cos o.tex)] at e
  have hexp := (exp_pos (-o.tau / cos o.t0)).ne'
  have hk : o.NormBRDF * (1 - o.bsf) * o.I0 * cos o.t0 * o.omega *
      (exp (-o.tau / cos o.t0) * Fint expi expn (cos o.tex) o.tau [1]) ≠ 0 := mul_ne_zero hc (mul_ne_zero hexp hF)
  have : cos o.t0 = cos o.tex := by
    apply mul_left_cancel₀ hk
    linear_combination e
  exact hne (injOn_cos ⟨a1, a2⟩ ⟨a3, a4⟩ this)

example : ZenithAngles exElem ∧ IsMono exElem :=
  ⟨⟨by simp [exElem]; positivity, by simp [exElem]; linarith [pi_pos], by simp [exElem]; positivity,
    by simp [exElem]; linarith [pi_pos]⟩, rfl, rfl⟩

end RT1.Rad
