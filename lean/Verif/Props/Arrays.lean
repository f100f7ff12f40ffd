import Verif.Lemmas.Arrays

/-!
# C107 Evaluation with arrays

Specification: the model is evaluated for each element of the broadcast arrays: each entry of the results is the value for the entries of
the arguments at this position (`RObj.elem`, evaluated by the functions of `Model/RT1`), and the result has the common shape
(`Bc`) of the arguments.
-/

namespace RT1.Arrays
open General

/-! ### specification -/

/-- The array of a symbol (0 for undefined symbols). -/
noncomputable def Args.arrOf (a : Args) : Var → Arr
  | .theta0 => a.t0
  | .thetaex => a.tex
  | .phi0 => a.p0
  | .phiex => a.pex
  | .param k => match (a.params.find? fun kv => decide (kv.1 = k)) with
    | some kv => kv.2
    | none => ⟨[], fun _ => 0⟩

/-- All symbols of the expression are defined. -/
def Closed (e : Ex) (a : Args) : Prop := ∀ k, Var.param k ∈ e.vars → k ∈ a.params.map Prod.fst

/-- The shapes of the arguments that occur in the function, if `theta_0` occurs, otherwise of all arguments. -/
noncomputable def usedShapes (e : Ex) (a : Args) : List Shape :=
  if Var.theta0 ∈ e.vars then e.vars.map fun v => (a.arrOf v).shape else a.all.map Arr.shape

/-- The values of the symbols. -/
def symbols (t0 tex p0 pex : ℝ) (env : Rad.Env) : Var → ℝ
  | .theta0 => t0
  | .thetaex => tex
  | .phi0 => p0
  | .phiex => pex
  | .param k => env k

/-- The object for one element of the arrays. -/
noncomputable def RObj.elem (o : RObj) (i : Idx) : Rad.Elem where
  I0 := o.I0.at i
  tau := o.tau.at i
  omega := o.omega.at i
  NormBRDF := o.N.at i
  bsf := o.bsf.at i
  t0 := o.t0.at i
  tex := o.tex.at i
  p0 := o.p0.at i
  pex := o.pex.at i
  env := fun k => (o.toArgs.arrOf (.param k)).at i
  keys := o.params.map Prod.fst
  brdf := fun env t0 tex p0 pex => o.brdf.eval (symbols t0 tex p0 pex env)
  p := fun env t0 tex p0 pex => o.p.eval (symbols t0 tex p0 pex env)
  brdfDiff := fun _ _ _ _ _ _ => 0
  pDiff := fun _ _ _ _ _ _ => 0
  dbrdf := fun _ _ _ _ _ _ => 0
  dp := fun _ _ _ _ _ _ => 0

/-- The fn-coefficients of one element for given angles. -/
noncomputable def RObj.fnAt (o : RObj) (i : Idx) (t1 p1 t2 p2 : ℝ) : List ℝ :=
  o.fn.map fun e => e.eval (symbols t1 t2 p1 p2 fun k => (o.toArgs.arrOf (.param k)).at i)

/-- The interaction-term of one element. -/
noncomputable def RObj.interactionAt (o : RObj) (expi : ℝ → ℝ) (expn : Nat → ℝ → ℝ) (i : Idx) : ℝ :=
  let e := o.elem i
  e.interactionOf
    (Rad.Fint expi expn e.mu0 e.tau (o.fnAt i (Real.arccos e.mu0) e.p0 (Real.arccos e.muex) e.pex))
    (Rad.Fint expi expn e.muex e.tau (o.fnAt i (Real.arccos e.muex) e.pex (Real.arccos e.mu0) e.p0))

/-- The shapes of all arrays. -/
noncomputable def RObj.shapes (o : RObj) : List Shape :=
  [o.I0.shape, o.tau.shape, o.omega.shape, o.N.shape, o.bsf.shape] ++ o.toArgs.all.map Arr.shape

/-! ### functions -/

theorem bshapes_spec {ss : List Shape} (hc : Compatible ss) : ∃ S, bshapes ss = .ok S ∧ Bc ss S := by
  induction ss with
  | nil => exact ⟨[], rfl, bc_nil⟩
  | cons s l ih =>
    obtain ⟨T, h1, h2⟩ := ih (hc.sub fun s h => by simp [h])
    obtain ⟨U, h3, h4⟩ := bshape_bc (bc_single s) h2 hc
    exact ⟨U, by unfold bshapes; rw [h1]; exact h3, h4⟩

theorem evalV_den (e : Ex) (ρ : Var → NpV) (A : Var → Arr) (h : ∀ v ∈ e.vars, ρ v = .ok (A v))
    (hc : Compatible (e.vars.map fun v => (A v).shape)) :
    Den (e.evalV ρ) (e.vars.map fun v => (A v).shape) fun i => e.eval fun v => (A v).at i := by
  induction e with
  | const c => exact den_lit c
  | var v =>
    have := h v (by simp [Ex.vars])
    show Den (ρ v) _ _
    rw [this]
    exact den_arr (A v)
  | un f e ih => exact den_map f (ih h hc)
  | bin f e e' ih ih' =>
    simp only [Ex.vars, List.map_append] at hc ⊢
    exact den_zip f (ih (fun v hv => h v (by simp [Ex.vars, hv])) (hc.sub fun s hs => by simp only [List.mem_append]; exact Or.inl hs))
      (ih' (fun v hv => h v (by simp [Ex.vars, hv])) (hc.sub fun s hs => by simp only [List.mem_append]; exact Or.inr hs)) hc

theorem find_key {ps : List (String × Arr)} {k : String} (h : k ∈ ps.map Prod.fst) :
    ∃ kv ∈ ps, (ps.find? fun kv => decide (kv.1 = k)) = some kv := by
  obtain ⟨kv, hkv, rfl⟩ := List.mem_map.1 h
  cases hf : ps.find? fun x => decide (x.1 = kv.1) with
  | none =>
    rw [List.find?_eq_none] at hf
    exact absurd (by simp) (hf kv hkv)
  | some x => exact ⟨x, List.mem_of_find?_eq_some hf, rfl⟩

theorem Args.val_eq {a : Args} {e : Ex} (hcl : Closed e a) : ∀ v ∈ e.vars, a.val v = .ok (a.arrOf v) := by
  intro v hv
  cases v with
  | param k =>
    obtain ⟨kv, -, hf⟩ := find_key (hcl k hv)
    simp only [Args.val, Args.arrOf, hf]
  | _ => rfl

theorem Args.arrOf_mem {a : Args} {e : Ex} (hcl : Closed e a) : ∀ v ∈ e.vars, a.arrOf v ∈ a.all := by
  intro v hv
  cases v with
  | param k =>
    obtain ⟨kv, hm, hf⟩ := find_key (hcl k hv)
    simp only [Args.arrOf, hf, Args.all]
    exact List.mem_append_right _ (List.mem_map.2 ⟨kv, hm, rfl⟩)
  | _ => simp [Args.arrOf, Args.all]

theorem used_mem {e : Ex} {a : Args} (hcl : Closed e a) : ∀ s ∈ usedShapes e a, s ∈ a.all.map Arr.shape := by
  intro s hs
  unfold usedShapes at hs
  split at hs
  · obtain ⟨v, hv, rfl⟩ := List.mem_map.1 hs
    exact List.mem_map.2 ⟨_, Args.arrOf_mem hcl v hv, rfl⟩
  · exact hs

theorem Args.at_eq (a : Args) (i : Idx) : a.at i = fun v => (a.arrOf v).at i := by
  funext v
  cases v with
  | param k =>
    simp only [Args.at, Args.arrOf]
    cases a.params.find? fun kv => decide (kv.1 = k) with
    | none => rfl
    | some kv => rfl
  | _ => rfl

theorem mem_of_bc_zero {ss : List Shape} {S : Shape} (h : Bc ss S) (h0 : 0 ∈ S) : ∃ s ∈ ss, 0 ∈ s := by
  obtain ⟨a, ha⟩ := List.mem_iff_getElem?.1 h0
  have hg : S.getD a 1 = 0 := by rw [List.getD_eq_getElem?_getD, ha]; rfl
  obtain ⟨s, hs, e⟩ := h.attained a (by rw [hg]; omega)
  rw [hg, List.getD_eq_getElem?_getD] at e
  refine ⟨s, hs, ?_⟩
  cases hsa : s[a]? with
  | none => rw [hsa] at e; cases e
  | some x =>
    rw [hsa] at e
    cases e
    exact List.mem_of_getElem? hsa

theorem arrOf_le {a : Args} {S : Shape} (h : Bc (a.all.map Arr.shape) S) (v : Var) : Le (a.arrOf v).shape S := by
  have hm : ∀ A ∈ a.all, Le A.shape S := fun A hA => h.le _ (List.mem_map.2 ⟨A, hA, rfl⟩)
  cases v with
  | param k =>
    simp only [Args.arrOf]
    cases hf : a.params.find? fun kv => decide (kv.1 = k) with
    | none => exact ⟨by simp, fun a => Or.inl (by simp)⟩
    | some kv => exact hm _ (List.mem_append_right _ (List.mem_map.2 ⟨kv, List.mem_of_find?_eq_some hf, rfl⟩))
  | _ => exact hm _ (by simp [Args.arrOf, Args.all])

theorem probe_shape (keys : List String) (v : Var) : ((probe keys).arrOf v).shape = if v = .theta0 then [3] else [] := by
  cases v with
  | param k =>
    simp only [Args.arrOf, probe]
    cases hf : (keys.map fun k => (k, (⟨[], fun _ => 0.12⟩ : Arr))).find? fun kv => decide (kv.1 = k) with
    | none => rfl
    | some kv =>
      obtain ⟨k', -, rfl⟩ := List.mem_map.1 (List.mem_of_find?_eq_some hf)
      rfl
  | _ => rfl

/-- C107: the functions `p` and `brdf` are evaluated for each element of the arguments. -/
theorem C107_function {e : Ex} {a : Args} (hcl : Closed e a) (hc : Compatible (a.all.map Arr.shape))
    (hne : Var.theta0 ∉ e.vars → ∀ A ∈ a.all, 0 ∉ A.shape) :
    ∃ A, callFn e a = .ok A ∧ Bc (usedShapes e a) A.shape ∧ ∀ i, A.at i = e.eval fun v => (a.arrOf v).at i := by
  have hpc : Closed e (probe (a.params.map Prod.fst)) := by
    intro k hk
    simpa [probe] using hcl k hk
  obtain ⟨r, hr, hbc, -⟩ := evalV_den e _ _ (Args.val_eq hpc) ⟨[3], fun s hs => by
    obtain ⟨v, -, rfl⟩ := List.mem_map.1 hs
    rw [probe_shape]
    split
    · exact Le.refl _
    · exact ⟨by simp, fun a => Or.inl (by simp)⟩⟩
  unfold callFn
  rw [hr]
  unfold callWith
  dsimp only
  by_cases h0 : Var.theta0 ∈ e.vars
  · have hne' : r.shape ≠ [] := by
      intro h
      have := (hbc.le [3] (List.mem_map.2 ⟨_, h0, by rw [probe_shape, if_pos rfl]⟩)).1
      rw [h] at this
      simp at this
    rw [if_neg hne']
    unfold usedShapes
    rw [if_pos h0]
    exact evalV_den e _ _ (Args.val_eq hcl) (hc.sub fun s hs => by
      obtain ⟨v, hv, rfl⟩ := List.mem_map.1 hs
      exact List.mem_map.2 ⟨_, Args.arrOf_mem hcl v hv, rfl⟩)
  · have he : r.shape = [] := by
      have := hbc.rank 0 fun s hs => by
        obtain ⟨v, hv, rfl⟩ := List.mem_map.1 hs
        rw [probe_shape, if_neg (by rintro rfl; exact h0 hv)]
        simp
      exact List.length_eq_zero_iff.1 (by omega)
    rw [if_pos he]
    unfold usedShapes vectorize
    rw [if_neg h0]
    obtain ⟨S, hS, hbcS⟩ := bshapes_spec hc
    have h0S : 0 ∉ S := by
      intro h
      obtain ⟨s, hs, hs0⟩ := mem_of_bc_zero hbcS h
      obtain ⟨A, hA, rfl⟩ := List.mem_map.1 hs
      exact hne h0 A hA hs0
    rw [hS]
    dsimp only
    rw [if_neg h0S]
    refine ⟨_, rfl, hbcS, fun i => ?_⟩
    show e.eval (a.at (mask S i)) = _
    rw [Args.at_eq]
    congr 1
    funext v
    exact Arr.at_mask _ (arrOf_le hbcS v) i

/-! ### surface and volume -/

/-- `Den` with shapes out of a list of compatible shapes. -/
def DenIn (M : List Shape) (x : NpV) (ss : List Shape) (f : Idx → ℝ) : Prop := Den x ss f ∧ ∀ s ∈ ss, s ∈ M

section
variable {M : List Shape} (hM : Compatible M) {x y : NpV} {ss tt : List Shape} {f g : Idx → ℝ}
include hM

theorem dzip (op : ℝ → ℝ → ℝ) (hx : DenIn M x ss f) (hy : DenIn M y tt g) :
    DenIn M (zipV op x y) (ss ++ tt) fun i => op (f i) (g i) := by
  have h : ∀ s ∈ ss ++ tt, s ∈ M := fun s hs => (List.mem_append.1 hs).elim (hx.2 s) (hy.2 s)
  exact ⟨den_zip op hx.1 hy.1 (hM.sub h), h⟩
theorem dadd (hx : DenIn M x ss f) (hy : DenIn M y tt g) : DenIn M (x + y) (ss ++ tt) fun i => f i + g i := dzip hM _ hx hy
theorem dsub (hx : DenIn M x ss f) (hy : DenIn M y tt g) : DenIn M (x - y) (ss ++ tt) fun i => f i - g i := dzip hM _ hx hy
theorem dmul (hx : DenIn M x ss f) (hy : DenIn M y tt g) : DenIn M (x * y) (ss ++ tt) fun i => f i * g i := dzip hM _ hx hy
theorem ddiv (hx : DenIn M x ss f) (hy : DenIn M y tt g) : DenIn M (x / y) (ss ++ tt) fun i => f i / g i := dzip hM _ hx hy
omit hM
theorem dmap (op : ℝ → ℝ) (hx : DenIn M x ss f) : DenIn M (mapV op x) ss fun i => op (f i) := ⟨den_map op hx.1, hx.2⟩
theorem dneg (hx : DenIn M x ss f) : DenIn M (-x) ss fun i => -f i := ⟨den_neg hx.1, hx.2⟩
theorem dlit (c : ℝ) : DenIn M (lit c) [] fun _ => c := ⟨den_lit c, by simp⟩
theorem darr (A : Arr) (h : A.shape ∈ M) : DenIn M (arr A) [A.shape] A.at := ⟨den_arr A, by simpa using h⟩
end

theorem elem_eval (o : RObj) (e : Ex) (i : Idx) :
    (e.eval fun v => (o.toArgs.arrOf v).at i) =
      e.eval (symbols (o.t0.at i) (o.tex.at i) (o.p0.at i) (o.pex.at i) fun k => (o.toArgs.arrOf (.param k)).at i) := by
  congr 1
  funext v
  cases v <;> rfl

section
variable {o : RObj} (hc : Compatible o.shapes)

theorem mem_shapes : o.I0.shape ∈ o.shapes ∧ o.tau.shape ∈ o.shapes ∧ o.omega.shape ∈ o.shapes ∧ o.N.shape ∈ o.shapes ∧
    o.bsf.shape ∈ o.shapes ∧ o.t0.shape ∈ o.shapes ∧ o.tex.shape ∈ o.shapes ∧ o.p0.shape ∈ o.shapes ∧ o.pex.shape ∈ o.shapes := by
  simp [RObj.shapes, Args.all]

theorem all_mem_shapes : ∀ s ∈ o.toArgs.all.map Arr.shape, s ∈ o.shapes := fun s hs => List.mem_append_right _ hs

include hc

theorem fn_den {e : Ex} (hcl : Closed e o.toArgs) (hne : Var.theta0 ∉ e.vars → ∀ A ∈ o.toArgs.all, 0 ∉ A.shape) :
    DenIn o.shapes (callFn e o.toArgs) (usedShapes e o.toArgs) fun i => e.eval fun v => (o.toArgs.arrOf v).at i :=
  ⟨C107_function hcl (hc.sub all_mem_shapes) hne, fun s hs => all_mem_shapes s (used_mem hcl s hs)⟩

theorem surface_den (hcl : Closed o.brdf o.toArgs) (hne : Var.theta0 ∉ o.brdf.vars → ∀ A ∈ o.toArgs.all, 0 ∉ A.shape) :
    DenIn o.shapes o.surface ([o.I0.shape, o.tau.shape, o.N.shape, o.bsf.shape, o.t0.shape, o.tex.shape] ++ usedShapes o.brdf o.toArgs)
      fun i => (o.elem i).surface := by
  obtain ⟨mI, mt, mo, mN, mb, m0, mx, -, -⟩ := mem_shapes (o := o)
  have hf := fn_den hc hcl hne
  have h0 := dmap Real.cos (darr o.t0 m0)
  have hx := dmap Real.cos (darr o.tex mx)
  have hbs := dmul hc (dmul hc (darr o.I0 mI) h0) hf
  have hs := dmul hc (dmap Real.exp (dsub hc (dneg (ddiv hc (darr o.tau mt) h0)) (ddiv hc (darr o.tau mt) hx))) hbs
  have h := dmul hc (darr o.N mN) (dadd hc (dmul hc (dsub hc (dlit 1) (darr o.bsf mb)) hs) (dmul hc (darr o.bsf mb) hbs))
  refine ⟨⟨h.1.choose, h.1.choose_spec.1, h.1.choose_spec.2.1.congr fun s => ?_, fun i => ?_⟩, ?_⟩
  · simp only [List.mem_append, List.mem_cons, List.not_mem_nil, or_false]
    tauto
  · rw [h.1.choose_spec.2.2 i]
    beta_reduce
    rw [elem_eval]
    rfl
  · intro s hs
    apply h.2
    simp only [List.mem_append, List.mem_cons, List.not_mem_nil, or_false] at hs ⊢
    tauto

theorem volume_den (hcl : Closed o.p o.toArgs) (hne : Var.theta0 ∉ o.p.vars → ∀ A ∈ o.toArgs.all, 0 ∉ A.shape) :
    DenIn o.shapes o.volume ([o.I0.shape, o.tau.shape, o.omega.shape, o.bsf.shape, o.t0.shape, o.tex.shape] ++ usedShapes o.p o.toArgs)
      fun i => (o.elem i).volume := by
  obtain ⟨mI, mt, mo, mN, mb, m0, mx, -, -⟩ := mem_shapes (o := o)
  have hf := fn_den hc hcl hne
  have h0 := dmap Real.cos (darr o.t0 m0)
  have hx := dmap Real.cos (darr o.tex mx)
  have hs := dsub hc (dlit 1) (dmap Real.exp (dsub hc (dneg (ddiv hc (darr o.tau mt) h0)) (ddiv hc (darr o.tau mt) hx)))
  have hv := dmul hc (dmul hc (ddiv hc (dmul hc (dmul hc (darr o.I0 mI) (darr o.omega mo)) h0) (dadd hc h0 hx)) hs) hf
  have h := dmul hc (dsub hc (dlit 1) (darr o.bsf mb)) hv
  refine ⟨⟨h.1.choose, h.1.choose_spec.1, h.1.choose_spec.2.1.congr fun s => ?_, fun i => ?_⟩, ?_⟩
  · simp only [List.mem_append, List.mem_cons, List.not_mem_nil, or_false]
    tauto
  · rw [h.1.choose_spec.2.2 i]
    beta_reduce
    rw [elem_eval]
    rfl
  · intro s hs
    apply h.2
    simp only [List.mem_append, List.mem_cons, List.not_mem_nil, or_false] at hs ⊢
    tauto

end

/-- C107: the surface-contribution of arrays is the surface-contribution of each element. -/
theorem C107_surface {o : RObj} (hc : Compatible o.shapes) (hcl : Closed o.brdf o.toArgs)
    (hne : Var.theta0 ∉ o.brdf.vars → ∀ A ∈ o.toArgs.all, 0 ∉ A.shape) :
    ∃ A, o.surface = .ok A ∧
      Bc ([o.I0.shape, o.tau.shape, o.N.shape, o.bsf.shape, o.t0.shape, o.tex.shape] ++ usedShapes o.brdf o.toArgs) A.shape ∧
      ∀ i, A.at i = (o.elem i).surface :=
  (surface_den hc hcl hne).1

/-- C107: the volume-contribution of arrays is the volume-contribution of each element. -/
theorem C107_volume {o : RObj} (hc : Compatible o.shapes) (hcl : Closed o.p o.toArgs)
    (hne : Var.theta0 ∉ o.p.vars → ∀ A ∈ o.toArgs.all, 0 ∉ A.shape) :
    ∃ A, o.volume = .ok A ∧
      Bc ([o.I0.shape, o.tau.shape, o.omega.shape, o.bsf.shape, o.t0.shape, o.tex.shape] ++ usedShapes o.p o.toArgs) A.shape ∧
      ∀ i, A.at i = (o.elem i).volume :=
  (volume_den hc hcl hne).1

/-! ### fn-coefficients -/

theorem broadcast_arrOf_at (a : Args) {T : Shape} (hT : Bc (a.all.map Arr.shape) T) (v : Var) (i : Idx) :
    ((a.broadcast T).arrOf v).at i = (a.arrOf v).at i := by
  cases v with
  | param k =>
    have h := arrOf_le hT (.param k)
    simp only [Args.arrOf] at h ⊢
    have e : ((a.broadcast T).params.find? fun kv => decide (kv.1 = k)) =
        (a.params.find? fun kv => decide (kv.1 = k)).map fun kv => (kv.1, ⟨T, kv.2.at⟩) := by
      show (a.params.map _).find? _ = _
      rw [List.find?_map]
      rfl
    rw [e]
    cases hf : a.params.find? fun kv => decide (kv.1 = k) with
    | none => rfl
    | some kv =>
      rw [hf] at h
      exact Arr.at_mask _ h i
  | theta0 => exact Arr.at_mask _ (arrOf_le hT .theta0) i
  | thetaex => exact Arr.at_mask _ (arrOf_le hT .thetaex) i
  | phi0 => exact Arr.at_mask _ (arrOf_le hT .phi0) i
  | phiex => exact Arr.at_mask _ (arrOf_le hT .phiex) i

theorem broadcast_closed {e : Ex} {a : Args} (T : Shape) (h : Closed e a) : Closed e (a.broadcast T) := by
  intro k hk
  have := h k hk
  simpa [Args.broadcast] using this

theorem broadcast_shape {e : Ex} {a : Args} (T : Shape) (h : Closed e a) :
    ∀ v ∈ e.vars, ((a.broadcast T).arrOf v).shape = T := by
  intro v hv
  have hm := Args.arrOf_mem (broadcast_closed T h) v hv
  simp only [Args.all, Args.broadcast, List.map_map] at hm
  rcases List.mem_append.1 hm with h1 | h1
  · simp only [List.mem_cons, List.not_mem_nil, or_false] at h1
    rcases h1 with h1 | h1 | h1 | h1 <;> · show (Args.arrOf (Args.broadcast a T) v).shape = T; unfold Args.broadcast; rw [h1]
  · obtain ⟨kv, -, h1⟩ := List.mem_map.1 h1
    show (Args.arrOf (Args.broadcast a T) v).shape = T
    unfold Args.broadcast
    rw [← h1]
    rfl

/-- The fn-coefficients are evaluated for each element: they are arrays of the common shape of the arguments, or numbers. -/
theorem fnvals_spec {o : RObj} {a : Args} {T : Shape} (hT : Bc (a.all.map Arr.shape) T) (hcl : ∀ e ∈ o.fn, Closed e a)
    (T' : Shape) (hT' : (o.backend = .symengine ∨ ∃ e ∈ o.fn, e.vars ≠ []) ∧ T' = T ∨
      (o.backend = .sympy ∧ ∀ e ∈ o.fn, e.vars = []) ∧ T' = []) :
    ∃ vals : List Arr, o.fnvals a = .ok vals ∧ vals.length = o.fn.length ∧ (∀ A ∈ vals, A.shape = T') ∧
      ∀ (k : Nat) (i : Idx), ((vals[k]?).map fun A : Arr => A.at i).getD 0 = ((o.fn[k]?).map fun e : Ex => e.eval fun v => (a.arrOf v).at i).getD 0 := by
  have hev : ∀ e ∈ o.fn, ∃ A : Arr, e.evalV (a.broadcast T).val = .ok A ∧ (e.vars = [] → A.shape = []) ∧ (e.vars ≠ [] → A.shape = T) ∧
      ∀ i, A.at i = e.eval fun v => (a.arrOf v).at i := by
    intro e he
    have hsh := broadcast_shape T (hcl e he)
    obtain ⟨A, h1, h2, h3⟩ := evalV_den e _ _ (Args.val_eq (broadcast_closed T (hcl e he))) ⟨T, fun s hs => by
      obtain ⟨v, hv, rfl⟩ := List.mem_map.1 hs
      rw [hsh v hv]
      exact Le.refl T⟩
    refine ⟨A, h1, fun hv => ?_, fun hv => ?_, fun i => ?_⟩
    · rw [hv] at h2
      exact h2.ext bc_nil
    · refine (h2.congr (tt := [T]) fun s => ?_).ext (bc_single T)
      obtain ⟨v, hv⟩ := List.exists_mem_of_ne_nil _ hv
      constructor
      · intro hs
        obtain ⟨v, hv, rfl⟩ := List.mem_map.1 hs
        rw [hsh v hv]
        simp
      · intro hs
        rw [List.mem_singleton.1 hs]
        exact List.mem_map.2 ⟨v, hv, hsh v hv⟩
    · rw [h3 i]
      beta_reduce
      congr 1
      funext v
      exact broadcast_arrOf_at a hT v i
  haveI : Nonempty Arr := ⟨⟨[], fun _ => 0⟩⟩
  choose! g hg using hev
  have hseq : seqV (o.fn.map fun e => e.evalV (a.broadcast T).val) = .ok (o.fn.map g) := by
    apply seqV_ok
    rw [List.map_map]
    exact List.map_congr_left fun e he => (hg e he).1
  obtain ⟨S, hS, hS'⟩ := bshapes_spec ⟨T, hT.le⟩
  rw [hS'.ext hT] at hS
  have hle : ∀ e ∈ o.fn, Le (g e).shape T' := by
    intro e he
    by_cases hv : e.vars = []
    · rw [(hg e he).2.1 hv]
      exact ⟨by simp, fun a => Or.inl (by simp)⟩
    · rw [(hg e he).2.2.1 hv]
      rcases hT' with ⟨-, rfl⟩ | ⟨⟨-, h⟩, -⟩
      · exact Le.refl _
      · exact absurd (h e he) hv
  have hval : ∀ (k : Nat) (i : Idx), (((o.fn.map g).map fun A => (⟨T', A.at⟩ : Arr))[k]?.map fun A => A.at i).getD 0 =
      ((o.fn[k]?).map fun e => e.eval fun v => (a.arrOf v).at i).getD 0 := by
    intro k i
    rw [List.map_map, List.getElem?_map]
    cases hk : o.fn[k]? with
    | none => rfl
    | some e =>
      have he := List.mem_of_getElem? hk
      show (g e).at (mask T' i) = e.eval _
      rw [Arr.at_mask _ (hle e he), (hg e he).2.2.2]
  refine ⟨(o.fn.map g).map fun A => ⟨T', A.at⟩, ?_, by simp, ?_, hval⟩
  · unfold RObj.fnvals
    rw [hS]
    dsimp only
    rw [hseq]
    dsimp only
    cases hb : o.backend with
    | symengine =>
      rcases hT' with ⟨-, rfl⟩ | ⟨⟨h, -⟩, -⟩
      · rfl
      · rw [hb] at h; cases h
    | sympy =>
      dsimp only
      have hbc : Bc ((o.fn.map g).map Arr.shape) T' := by
        rcases hT' with ⟨h, rfl⟩ | ⟨⟨-, h⟩, rfl⟩
        · rw [hb] at h
          obtain ⟨e, he, hv⟩ := h.resolve_left (by simp)
          have hm : T' ∈ (o.fn.map g).map Arr.shape := by
            rw [List.map_map]
            exact List.mem_map.2 ⟨e, he, (hg e he).2.2.1 hv⟩
          refine ⟨fun s hs => ?_, fun r hr => hr _ hm, fun a _ => ⟨T', hm, rfl⟩⟩
          rw [List.map_map] at hs
          obtain ⟨e, he, rfl⟩ := List.mem_map.1 hs
          exact hle e he
        · refine ⟨fun s hs => ?_, fun r _ => by simp, fun a ha => by simp at ha⟩
          rw [List.map_map] at hs
          obtain ⟨e, he, rfl⟩ := List.mem_map.1 hs
          exact hle e he
      obtain ⟨U, hU, hU'⟩ := bshapes_spec ⟨T', hbc.le⟩
      rw [hU'.ext hbc] at hU
      unfold broadcastArrays
      rw [hU]
  · intro A hA
    obtain ⟨B, -, rfl⟩ := List.mem_map.1 hA
    rfl

/-! ### interaction -/

theorem dfold {M : List Shape} (hM : Compatible M) {tt : List Shape} {x : Nat → NpV} {g : Nat → Idx → ℝ}
    (hx : ∀ k, DenIn M (x k) tt (g k)) (l : List Nat) :
    ∀ {acc : NpV} {ss : List Shape} {f : Idx → ℝ}, DenIn M acc ss f →
      DenIn M (l.foldl (fun acc k => acc + x k) acc) (ss ++ l.flatMap fun _ => tt) fun i => f i + (l.map fun k => g k i).sum := by
  induction l with
  | nil => intro acc ss f h; simpa using h
  | cons k l ih =>
    intro acc ss f h
    have := ih (dadd hM h (hx k))
    simpa [add_assoc] using this

theorem dcongr {M : List Shape} {x : NpV} {ss tt : List Shape} {f : Idx → ℝ} (h : DenIn M x ss f) (he : ∀ s, s ∈ ss ↔ s ∈ tt) :
    DenIn M x tt f := ⟨h.1.congr he, fun s hs => h.2 s ((he s).2 hs)⟩

theorem bc_length {R : Nat} {ss : List Shape} {S : Shape} (h : Bc ss S) (hle : ∀ s ∈ ss, s.length ≤ R) (he : ∃ s ∈ ss, s.length = R) :
    S.length = R := by
  obtain ⟨s, hs, rfl⟩ := he
  exact le_antisymm (h.rank _ hle) (h.le s hs).1

theorem multip_denS {M : List Shape} (hM : Compatible M) (expi : ℝ → ℝ) (expn : Nat → ℝ → ℝ) {t1 tau : Arr} (h1 : t1.shape ∈ M)
    (ht : tau.shape ∈ M) (hR : tau.shape.length ≤ t1.shape.length) {n : Nat} (hn : n ≠ 0) :
    DenS t1.shape.length n
      (RObj.muX (mapV Real.cos (arr t1)) n * RObj.S2mu expi expn (mapV Real.cos (arr t1)) (arr tau) n) [t1.shape, tau.shape]
      fun k i => Real.cos (t1.at i) ^ (k + 1) *
        (((List.range' 1 (k + 1)).map (Rad.S2inner expn (Real.cos (t1.at i)) (tau.at i))).sum +
          Rad.hlp1 expi (Real.cos (t1.at i)) (tau.at i)) := by
  have hmu := dmap Real.cos (darr t1 h1)
  have hta := darr tau ht
  have he := dmap Real.exp (ddiv hM (dneg hta) hmu)
  have hin : ∀ k, DenIn M (RObj.inner expn (mapV Real.cos (arr t1)) (arr tau) k) [t1.shape, tau.shape] fun i =>
      Rad.S2inner expn (Real.cos (t1.at i)) (tau.at i) k := fun k =>
    dcongr (dmul hM (dmap (fun x => (x ^ k)⁻¹) hmu) (dsub hM (dmap (expn (k + 1)) hta) (ddiv hM he (dlit (k : ℝ))))) fun s => by
      simp only [List.mem_append, List.mem_cons, List.not_mem_nil, or_false]; tauto
  have hh : DenIn M (RObj.hlp1 expi (mapV Real.cos (arr t1)) (arr tau)) [t1.shape, tau.shape] fun i =>
      Rad.hlp1 expi (Real.cos (t1.at i)) (tau.at i) :=
    dcongr (dadd hM (dsub hM (dmul hM he (dmap Real.log (ddiv hM hmu (dsub hM (dlit 1) hmu)))) (dmap expi (dneg hta)))
      (dmul hM he (dmap expi (dsub hM (ddiv hM hta hmu) hta)))) fun s => by
      simp only [List.mem_append, List.mem_cons, List.not_mem_nil, or_false]; tauto
  have hfold : ∀ k, DenIn M ((List.range' 1 (k + 1)).foldl
      (fun acc k => acc + RObj.inner expn (mapV Real.cos (arr t1)) (arr tau) k) (lit 0)) [t1.shape, tau.shape]
      fun i => ((List.range' 1 (k + 1)).map (Rad.S2inner expn (Real.cos (t1.at i)) (tau.at i))).sum := by
    intro k
    have := dfold hM hin (List.range' 1 (k + 1)) (dlit (M := M) 0)
    simp only [zero_add] at this
    refine dcongr this fun s => ?_
    simp only [List.nil_append, List.mem_flatMap]
    constructor
    · rintro ⟨_, -, h⟩; exact h
    · intro h; exact ⟨1, by simp, h⟩
  have hsub : ∀ s ∈ [t1.shape, tau.shape], s ∈ M := by
    intro s hs
    simp only [List.mem_cons, List.not_mem_nil, or_false] at hs
    rcases hs with rfl | rfl <;> assumption
  have hle : ∀ s ∈ [t1.shape, tau.shape], s.length ≤ t1.shape.length := by
    intro s hs
    simp only [List.mem_cons, List.not_mem_nil, or_false] at hs
    rcases hs with rfl | rfl
    · exact le_refl _
    · exact hR
  have hne : ∀ f : Nat → NpV, (List.range n).map f ≠ [] := fun f h => hn (by simpa using congrArg List.length h)
  have hX : DenS t1.shape.length n (RObj.muX (mapV Real.cos (arr t1)) n) [t1.shape] fun k i => Real.cos (t1.at i) ^ (k + 1) := by
    have := stackV_denS (R := t1.shape.length) (l := (List.range n).map fun n => mapV (· ^ (n + 1)) (mapV Real.cos (arr t1)))
      (ss := [t1.shape]) (f := fun k i => Real.cos (t1.at i) ^ (k + 1)) (hne _)
      (fun S hS => bc_length hS (by simp) ⟨_, by simp, rfl⟩) fun k x hk => by
        rw [List.getElem?_map] at hk
        cases hr : (List.range n)[k]? with
        | none => rw [hr] at hk; cases hk
        | some m =>
          rw [hr] at hk
          cases hk
          rw [List.getElem?_eq_some_iff] at hr
          obtain ⟨hl, hr⟩ := hr
          rw [List.getElem_range] at hr
          subst hr
          exact (dmap (M := M) (· ^ (k + 1)) hmu).1
    unfold RObj.muX
    simpa using this
  have hS : DenS t1.shape.length n (stackV ((List.range n).map fun n => (List.range' 1 (n + 1)).foldl
      (fun acc k => acc + RObj.inner expn (mapV Real.cos (arr t1)) (arr tau) k) (lit 0))) [t1.shape, tau.shape]
      fun k i => ((List.range' 1 (k + 1)).map (Rad.S2inner expn (Real.cos (t1.at i)) (tau.at i))).sum := by
    have := stackV_denS (R := t1.shape.length) (l := (List.range n).map fun n => (List.range' 1 (n + 1)).foldl
      (fun acc k => acc + RObj.inner expn (mapV Real.cos (arr t1)) (arr tau) k) (lit 0)) (ss := [t1.shape, tau.shape])
      (f := fun k i => ((List.range' 1 (k + 1)).map (Rad.S2inner expn (Real.cos (t1.at i)) (tau.at i))).sum) (hne _)
      (fun S hS => bc_length hS hle ⟨t1.shape, by simp, rfl⟩) fun k x hk => by
        rw [List.getElem?_map] at hk
        cases hr : (List.range n)[k]? with
        | none => rw [hr] at hk; cases hk
        | some m =>
          rw [hr] at hk
          cases hk
          rw [List.getElem?_eq_some_iff] at hr
          obtain ⟨hl, hr⟩ := hr
          rw [List.getElem_range] at hr
          subst hr
          exact (hfold k).1
    simpa using this
  have hS2 := denS_zip_right (· + ·) hS hh.1 hle (hM.sub fun s hs => (List.mem_append.1 hs).elim (hsub s) (hsub s))
  have := denS_zip (· * ·) hX hS2 (hM.sub fun s hs => by
    apply hsub
    simp only [List.mem_append, List.mem_cons, List.not_mem_nil, or_false] at hs ⊢
    tauto)
  refine this.congr fun s => ?_
  simp only [List.mem_append, List.mem_cons, List.not_mem_nil, or_false]
  tauto

/-- The sum over the coefficients. -/
theorem fint_sum (expi : ℝ → ℝ) (expn : Nat → ℝ → ℝ) (mu tau : ℝ) (fn : List ℝ) :
    ((List.range fn.length).map fun k => (fn[k]?).getD 0 * (mu ^ (k + 1) *
      (((List.range' 1 (k + 1)).map (Rad.S2inner expn mu tau)).sum + Rad.hlp1 expi mu tau))).sum = Rad.Fint expi expn mu tau fn := by
  unfold Rad.Fint Rad.muX Rad.S2mu
  congr 1
  apply List.ext_getElem
  · simp
  · intro k h1 h2
    have hk : k < fn.length := by simpa using h1
    simp [hk]

theorem bc_drop {ss : List Shape} {S : Shape} (h : Bc (ss ++ [[1]]) S) (hs : ∃ s ∈ ss, 1 ≤ s.length) : Bc ss S := by
  refine ⟨fun s hs => h.le s (by simp [hs]), fun r hr => h.rank r fun s hs' => ?_, fun a ha => ?_⟩
  · rcases List.mem_append.1 hs' with h1 | h1
    · exact hr s h1
    · rw [List.mem_singleton.1 h1]
      obtain ⟨t, ht, hl⟩ := hs
      exact hl.trans (hr t ht)
  · obtain ⟨s, hs', e⟩ := h.attained a ha
    rcases List.mem_append.1 hs' with h1 | h1
    · exact ⟨s, h1, e⟩
    · rw [List.mem_singleton.1 h1] at e
      exfalso
      apply ha
      rw [← e]
      cases a <;> simp

/-- The fn-coefficients depend on at least one of the angles and parameters, or functions of symengine are used. -/
def RObj.Varying (o : RObj) : Prop := o.backend = .symengine ∨ ∃ e ∈ o.fn, e.vars ≠ []

/-- The shapes that enter the interaction-term via the fn-coefficients. -/
noncomputable def RObj.fnShapes (o : RObj) : List Shape := open Classical in if o.Varying then o.toArgs.all.map Arr.shape else []

theorem fint_den {o : RObj} (hc : Compatible o.shapes) (expi : ℝ → ℝ) (expn : Nat → ℝ → ℝ) {t1 p1 t2 p2 : Arr}
    (hperm : ∀ s, s ∈ [t1.shape, t2.shape, p1.shape, p2.shape] ↔ s ∈ [o.t0.shape, o.tex.shape, o.p0.shape, o.pex.shape])
    (hR : ∀ A ∈ o.tau :: o.toArgs.all, A.shape.length ≤ t1.shape.length) (hcl : ∀ e ∈ o.fn, Closed e o.toArgs) (hne : o.fn ≠ [])
    (hv : o.Varying ∨ o.fn.length = 1 ∧ 1 ≤ t1.shape.length) :
    DenIn o.shapes (o.Fint expi expn t1 p1 t2 p2) (o.fnShapes ++ [t1.shape, o.tau.shape]) fun i =>
      Rad.Fint expi expn (Real.cos (t1.at i)) (o.tau.at i)
        (o.fnAt i (Real.arccos (Real.cos (t1.at i))) (p1.at i) (Real.arccos (Real.cos (t2.at i))) (p2.at i)) := by
  have hall : ∀ s, s ∈ (t1.shape :: t2.shape :: p1.shape :: p2.shape :: o.params.map fun kv => kv.2.shape) ↔
      s ∈ o.toArgs.all.map Arr.shape := by
    intro s
    have := hperm s
    simp only [Args.all, List.map_append, List.map_cons, List.map_nil, List.map_map, List.mem_append, List.mem_cons,
      List.not_mem_nil, or_false, Function.comp_def] at this ⊢
    tauto
  have m1 : t1.shape ∈ o.shapes := all_mem_shapes _ ((hall _).1 (by simp))
  have mt : o.tau.shape ∈ o.shapes := mem_shapes.2.1
  obtain ⟨th1, e1, b1, v1⟩ := den_map Real.arccos (den_map Real.cos (den_arr t1))
  obtain ⟨th2, e2, b2, v2⟩ := den_map Real.arccos (den_map Real.cos (den_arr t2))
  have s1 : th1.shape = t1.shape := b1.ext (bc_single _)
  have s2 : th2.shape = t2.shape := b2.ext (bc_single _)
  have hmem : ∀ s, s ∈ ((⟨th1, th2, p1, p2, o.params⟩ : Args).all.map Arr.shape) ↔ s ∈ o.toArgs.all.map Arr.shape := by
    intro s
    rw [← hall s]
    simp only [Args.all, List.map_append, List.map_cons, List.map_nil, List.map_map, List.mem_append, List.mem_cons,
      List.not_mem_nil, or_false, Function.comp_def, s1, s2]
    tauto
  obtain ⟨T, -, hT⟩ := bshapes_spec (hc.sub fun s hs => all_mem_shapes s ((hmem s).1 hs))
  have hn : o.fn.length ≠ 0 := fun h => hne (List.length_eq_zero_iff.1 h)
  have hmul := multip_denS hc expi expn m1 mt (hR _ (by simp)) hn
  have hTR : T.length = t1.shape.length := by
    refine bc_length (hT.congr hmem) (fun s hs => ?_) ⟨_, (hall _).1 (by simp), rfl⟩
    obtain ⟨A, hA, rfl⟩ := List.mem_map.1 hs
    exact hR A (List.mem_cons_of_mem _ hA)
  have hval : ∀ (i : Idx) (k : Nat), ((o.fn[k]?).map fun e : Ex => e.eval fun v => ((⟨th1, th2, p1, p2, o.params⟩ : Args).arrOf v).at i).getD 0 =
      ((o.fnAt i (Real.arccos (Real.cos (t1.at i))) (p1.at i) (Real.arccos (Real.cos (t2.at i))) (p2.at i))[k]?).getD 0 := by
    intro i k
    unfold RObj.fnAt
    rw [List.getElem?_map]
    congr 2
    funext e
    congr 1
    funext v
    cases v with
    | theta0 => exact v1 i
    | thetaex => exact v2 i
    | _ => rfl
  have hlen : ∀ i, (o.fnAt i (Real.arccos (Real.cos (t1.at i))) (p1.at i) (Real.arccos (Real.cos (t2.at i))) (p2.at i)).length =
      o.fn.length := fun i => by simp [RObj.fnAt]
  have hF : o.Fint expi expn t1 p1 t2 p2 =
      RObj.sumFn (RObj.muX (mapV Real.cos (arr t1)) o.fn.length * RObj.S2mu expi expn (mapV Real.cos (arr t1)) (arr o.tau) o.fn.length)
        (o.fnvals ⟨th1, th2, p1, p2, o.params⟩) := by
    unfold RObj.Fint
    rw [e1, e2]
  have hsub : ∀ s ∈ o.fnShapes ++ [t1.shape, o.tau.shape], s ∈ o.shapes := by
    intro s hs
    rcases List.mem_append.1 hs with h | h
    · unfold RObj.fnShapes at h
      split at h
      · exact all_mem_shapes s h
      · cases h
    · simp only [List.mem_cons, List.not_mem_nil, or_false] at h
      rcases h with rfl | rfl <;> assumption
  refine ⟨?_, hsub⟩
  by_cases hV : o.Varying
  · obtain ⟨vals, hvals, hvl, hvs, hvv⟩ := fnvals_spec hT hcl T (Or.inl ⟨hV, rfl⟩)
    have hst := stackOf_denS (as := vals) (by intro h; rw [h] at hvl; exact hn hvl.symm) (hT.congr hmem) hTR hvs
    rw [hvl] at hst
    have e : o.fnShapes = o.toArgs.all.map Arr.shape := by unfold RObj.fnShapes; rw [if_pos hV]
    rw [e] at hsub ⊢
    have hz := denS_sum (denS_zip (· * ·) hst hmul (hc.sub hsub))
    rw [hF, hvals]
    refine ⟨hz.choose, hz.choose_spec.1, hz.choose_spec.2.1, fun i => ?_⟩
    rw [hz.choose_spec.2.2 i]
    beta_reduce
    rw [← fint_sum, hlen]
    congr 1
    refine List.map_congr_left fun k _ => ?_
    rw [hvv, hval]
  · obtain ⟨h1, h1R⟩ := hv.resolve_left hV
    have hV' : o.backend = .sympy ∧ ∀ e ∈ o.fn, e.vars = [] := by
      unfold RObj.Varying at hV
      push Not at hV
      refine ⟨?_, hV.2⟩
      cases hb : o.backend with
      | sympy => rfl
      | symengine => exact absurd hb hV.1
    obtain ⟨vals, hvals, hvl, hvs, hvv⟩ := fnvals_spec hT hcl [] (Or.inr ⟨hV', rfl⟩)
    obtain ⟨X, S, hX, hXs, hS, -, hXv⟩ := stackOf_denS (as := vals) (by intro h; rw [h] at hvl; exact hn hvl.symm) bc_nil rfl hvs
    have hS0 : S = [] := List.length_eq_zero_iff.1 hS
    rw [hvl, h1, hS0] at hXs
    have hXa : ∀ i, X.at i = ((vals[0]?).map fun A => A.at i).getD 0 := by
      intro i
      refine Eq.trans ?_ (hXv i 0 (by omega))
      show X.get (mask X.shape i) = X.get (mask X.shape _)
      congr 1
      funext a
      unfold mask
      rw [hXs]
      cases a <;> simp
    have e : o.fnShapes = [] := by unfold RObj.fnShapes; rw [if_neg hV]
    rw [e] at hsub ⊢
    have hcc : Compatible ([t1.shape, o.tau.shape] ++ [X.shape]) := by
      obtain ⟨W, hW⟩ := hc.sub hsub
      refine ⟨W, fun s hs => ?_⟩
      rcases List.mem_append.1 hs with h | h
      · exact hW s (by simpa using h)
      · rw [List.mem_singleton.1 h, hXs]
        refine ⟨?_, fun a => Or.inl (by cases a <;> simp)⟩
        exact h1R.trans (hW _ (by simp)).1
    have hz := denS_sum (denS_zip_left (· * ·) hmul (⟨X, rfl, bc_single _, fun _ => rfl⟩ : Den (.ok X) [X.shape] X.at)
      (by simpa [hXs] using h1R) hcc)
    rw [hF, hvals]
    unfold RObj.sumFn
    dsimp only
    rw [hX]
    obtain ⟨Z, z1, z2, z3⟩ := hz
    refine ⟨Z, z1, ?_, fun i => ?_⟩
    · rw [hXs] at z2
      exact bc_drop z2 ⟨_, by simp, h1R⟩
    · rw [z3 i]
      beta_reduce
      rw [← fint_sum, hlen]
      congr 1
      refine List.map_congr_left fun k hk => ?_
      have hk0 : k = 0 := by rw [List.mem_range] at hk; omega
      subst hk0
      rw [hXa, hvv, hval]

/-- C107: the interaction-contribution of arrays is the interaction-contribution of each element if no array has more axes than the
incidence-angles, and the fn-coefficients are not all constant (or there is only one). -/
theorem C107_interaction_partial {o : RObj} (hc : Compatible o.shapes) (expi : ℝ → ℝ) (expn : Nat → ℝ → ℝ)
    (hrank : o.tex.shape.length = o.t0.shape.length) (hR : ∀ A ∈ o.tau :: o.toArgs.all, A.shape.length ≤ o.t0.shape.length)
    (hcl : ∀ e ∈ o.fn, Closed e o.toArgs) (hne : o.fn ≠ []) (hv : o.Varying ∨ o.fn.length = 1 ∧ 1 ≤ o.t0.shape.length) :
    ∃ A, o.interaction expi expn = .ok A ∧
      Bc ([o.I0.shape, o.tau.shape, o.omega.shape, o.N.shape, o.bsf.shape, o.t0.shape, o.tex.shape] ++ o.fnShapes) A.shape ∧
      ∀ i, A.at i = o.interactionAt expi expn i := by
  obtain ⟨mI, mt, mo, mN, mb, m0, mx, -, -⟩ := mem_shapes (o := o)
  have hF1 := fint_den hc expi expn (t1 := o.t0) (p1 := o.p0) (t2 := o.tex) (p2 := o.pex) (fun s => Iff.rfl) hR hcl hne hv
  have hF2 := fint_den hc expi expn (t1 := o.tex) (p1 := o.pex) (t2 := o.t0) (p2 := o.p0)
    (fun s => by simp only [List.mem_cons, List.not_mem_nil, or_false]; tauto) (by rw [hrank]; exact hR) hcl hne (by rw [hrank]; exact hv)
  have h0 := dmap Real.cos (darr o.t0 m0)
  have hx := dmap Real.cos (darr o.tex mx)
  have hI := dmul hc (dmul hc (dmul hc (darr o.I0 mI) h0) (darr o.omega mo))
    (dadd hc (dmul hc (dmap Real.exp (ddiv hc (dneg (darr o.tau mt)) hx)) hF1)
      (dmul hc (dmap Real.exp (ddiv hc (dneg (darr o.tau mt)) h0)) hF2))
  have h := dmul hc (dmul hc (darr o.N mN) (dsub hc (dlit 1) (darr o.bsf mb))) hI
  obtain ⟨A, hA1, hA2, hA3⟩ := h.1
  refine ⟨A, hA1, hA2.congr fun s => ?_, fun i => ?_⟩
  · simp only [List.mem_append, List.mem_cons, List.not_mem_nil, or_false]
    tauto
  · rw [hA3 i]
    rfl

/-! ### calc -/

/-- The conditions of `C107_surface`, `C107_volume`. -/
structure RObj.Valid (o : RObj) : Prop where
  compatible : Compatible o.shapes
  brdf : Closed o.brdf o.toArgs
  p : Closed o.p o.toArgs
  nonempty : Var.theta0 ∉ o.brdf.vars ∨ Var.theta0 ∉ o.p.vars → ∀ A ∈ o.toArgs.all, 0 ∉ A.shape

/-- The conditions of `C107_interaction_partial`. -/
structure RObj.ValidInt (o : RObj) : Prop where
  rank : o.tex.shape.length = o.t0.shape.length
  ranks : ∀ A ∈ o.tau :: o.toArgs.all, A.shape.length ≤ o.t0.shape.length
  closed : ∀ e ∈ o.fn, Closed e o.toArgs
  ne : o.fn ≠ []
  varying : o.Varying ∨ o.fn.length = 1 ∧ 1 ≤ o.t0.shape.length

/-- The shapes that determine the shape of each contribution. -/
noncomputable def RObj.surfShapes (o : RObj) : List Shape :=
  [o.I0.shape, o.tau.shape, o.N.shape, o.bsf.shape, o.t0.shape, o.tex.shape] ++ usedShapes o.brdf o.toArgs
noncomputable def RObj.volShapes (o : RObj) : List Shape :=
  [o.I0.shape, o.tau.shape, o.omega.shape, o.bsf.shape, o.t0.shape, o.tex.shape] ++ usedShapes o.p o.toArgs
noncomputable def RObj.intShapes (o : RObj) : List Shape :=
  [o.I0.shape, o.tau.shape, o.omega.shape, o.N.shape, o.bsf.shape, o.t0.shape, o.tex.shape] ++ o.fnShapes

theorem surf_den {o : RObj} (h : o.Valid) : DenIn o.shapes o.surface o.surfShapes fun i => (o.elem i).surface :=
  surface_den h.compatible h.brdf fun hn => h.nonempty (Or.inl hn)

theorem vol_den {o : RObj} (h : o.Valid) : DenIn o.shapes o.volume o.volShapes fun i => (o.elem i).volume :=
  volume_den h.compatible h.p fun hn => h.nonempty (Or.inr hn)

theorem int_den {o : RObj} (hc : o.Valid) (h : o.ValidInt) (expi : ℝ → ℝ) (expn : Nat → ℝ → ℝ) :
    DenIn o.shapes (o.interaction expi expn) o.intShapes fun i => o.interactionAt expi expn i := by
  refine ⟨C107_interaction_partial hc.compatible expi expn h.rank h.ranks h.closed h.ne h.varying, ?_⟩
  obtain ⟨mI, mt, mo, mN, mb, m0, mx, -, -⟩ := mem_shapes (o := o)
  intro s hs
  unfold RObj.intShapes RObj.fnShapes at hs
  simp only [List.mem_append, List.mem_cons, List.not_mem_nil, or_false] at hs
  rcases hs with (rfl | rfl | rfl | rfl | rfl | rfl | rfl) | hs
  all_goals first | assumption | skip
  split at hs
  · exact all_mem_shapes s hs
  · cases hs

/-- The total of one element. -/
noncomputable def RObj.totalAt (o : RObj) (expi : ℝ → ℝ) (expn : Nat → ℝ → ℝ) (intQ : Bool) (i : Idx) : ℝ :=
  (o.elem i).surface + (o.elem i).volume + if intQ then o.interactionAt expi expn i else 0

/-- The shapes that determine the shape of the total. -/
noncomputable def RObj.totShapes (o : RObj) (intQ : Bool) : List Shape :=
  o.surfShapes ++ o.volShapes ++ if intQ then o.intShapes else []

theorem total_den {o : RObj} (hc : o.Valid) (expi : ℝ → ℝ) (expn : Nat → ℝ → ℝ) {scalarTau intQ : Bool} (hi : intQ = true → o.ValidInt)
    (ht : scalarTau = true → 0 < o.tau.at fun _ => 0) :
    ∃ x l, o.calcV expi expn scalarTau intQ = x :: o.surface :: o.volume :: l ∧
      (l = if intQ then [o.interaction expi expn] else []) ∧
      DenIn o.shapes x (o.totShapes intQ) (o.totalAt expi expn intQ) := by
  have hcan : (!scalarTau || decide (o.tau.at (fun _ => 0) > 0)) = true := by
    cases scalarTau with
    | false => rfl
    | true => simpa using ht rfl
  unfold RObj.calcV RObj.totalAt RObj.totShapes
  dsimp only
  rw [if_pos hcan, if_pos hcan]
  cases intQ with
  | true =>
    refine ⟨_, _, rfl, rfl, ?_⟩
    exact dadd hc.compatible (dadd hc.compatible (surf_den hc) (vol_den hc)) (int_den hc (hi rfl) expi expn)
  | false =>
    refine ⟨_, _, rfl, rfl, ?_⟩
    have := dadd hc.compatible (surf_den hc) (vol_den hc)
    simpa using this

/-- C107: `calc` returns the total and the contributions of each element. -/
theorem C107_calc_partial {o : RObj} (hc : o.Valid) (expi : ℝ → ℝ) (expn : Nat → ℝ → ℝ) {scalarTau intQ : Bool}
    (hi : intQ = true → o.ValidInt) (ht : scalarTau = true → 0 < o.tau.at fun _ => 0) :
    ∃ T S V : Arr, (o.calcV expi expn scalarTau intQ).take 3 = [.ok T, .ok S, .ok V] ∧ Bc (o.totShapes intQ) T.shape ∧
      (∀ i, T.at i = o.totalAt expi expn intQ i) ∧ (∀ i, S.at i = (o.elem i).surface) ∧ (∀ i, V.at i = (o.elem i).volume) ∧
      (intQ = true → ∃ I, (o.calcV expi expn scalarTau intQ)[3]? = some (.ok I) ∧ ∀ i, I.at i = o.interactionAt expi expn i) := by
  obtain ⟨x, l, h1, h2, ⟨T, rfl, hT2, hT3⟩, -⟩ := total_den hc expi expn hi ht
  obtain ⟨S, hS1, -, hS3⟩ := (surf_den hc).1
  obtain ⟨V, hV1, -, hV3⟩ := (vol_den hc).1
  refine ⟨T, S, V, by rw [h1, hS1, hV1]; rfl, hT2, hT3, hS3, hV3, fun hq => ?_⟩
  obtain ⟨I, hI1, -, hI3⟩ := (int_den hc (hi hq) expi expn).1
  refine ⟨I, ?_, hI3⟩
  rw [h1, h2, if_pos hq, hI1]
  rfl

/-- C107: without canopy (a number `tau = 0`) the volume- and interaction-contributions are zero and the total is the
surface-contribution. -/
theorem C107_calc_bare {o : RObj} (hc : o.Valid) (expi : ℝ → ℝ) (expn : Nat → ℝ → ℝ) (intQ : Bool)
    (ht : o.tau.at (fun _ => 0) ≤ 0) (hr : 1 ≤ o.t0.shape.length) :
    ∃ T S : Arr, ∃ l, o.calcV expi expn true intQ = .ok T :: .ok S :: l ∧ Bc o.surfShapes T.shape ∧ T.shape = S.shape ∧
      (∀ i, T.at i = (o.elem i).surface ∧ S.at i = (o.elem i).surface) ∧ l.length = (if intQ then 2 else 1) ∧
      ∀ x ∈ l, ∃ Z : Arr, x = .ok Z ∧ Z.shape = [1] ∧ ∀ i, Z.at i = 0 := by
  have hcan : ¬ (!true || decide (o.tau.at (fun _ => 0) > 0)) = true := by simpa using ht
  obtain ⟨S, hS1, hS2, hS3⟩ := (surf_den hc).1
  have hz : Den RObj.zero1 [[1]] fun _ => 0 := ⟨_, rfl, bc_single _, fun _ => rfl⟩
  have hmem : o.t0.shape ∈ o.surfShapes := by simp [RObj.surfShapes]
  have hcomp : ∀ ss, (∀ s ∈ ss, s ∈ o.surfShapes) → o.t0.shape ∈ ss → Compatible (ss ++ [[1]]) := by
    intro ss hss hm
    refine ⟨S.shape, fun s hs => ?_⟩
    rcases List.mem_append.1 hs with h | h
    · exact hS2.le s (hss s h)
    · rw [List.mem_singleton.1 h]
      exact ⟨hr.trans (hS2.le _ hmem).1, fun a => Or.inl (by cases a <;> simp)⟩
  have hdrop : ∀ {x : NpV} {f : Idx → ℝ}, Den x o.surfShapes f → Den (x + RObj.zero1) o.surfShapes fun i => f i + 0 := by
    intro x f hx
    obtain ⟨A, h1, h2, h3⟩ := den_add hx hz (hcomp _ (fun s h => h) hmem)
    exact ⟨A, h1, bc_drop h2 ⟨_, hmem, hr⟩, h3⟩
  unfold RObj.calcV
  dsimp only
  rw [if_neg hcan, if_neg hcan]
  cases intQ with
  | true =>
    obtain ⟨T, h1, h2, h3⟩ := hdrop (hdrop (surf_den hc).1)
    refine ⟨T, S, [RObj.zero1, RObj.zero1], ?_, h2, h2.ext hS2, fun i => ⟨by simpa using h3 i, hS3 i⟩, rfl, ?_⟩
    · rw [if_pos rfl, h1, hS1]
    · intro x hx
      simp only [List.mem_cons, List.not_mem_nil, or_false, or_self] at hx
      exact ⟨_, hx, rfl, fun _ => rfl⟩
  | false =>
    obtain ⟨T, h1, h2, h3⟩ := hdrop (surf_den hc).1
    refine ⟨T, S, [RObj.zero1], ?_, h2, h2.ext hS2, fun i => ⟨by simpa using h3 i, hS3 i⟩, rfl, ?_⟩
    · rw [if_neg (by simp), h1, hS1]
    · intro x hx
      simp only [List.mem_cons, List.not_mem_nil, or_false] at hx
      exact ⟨_, hx, rfl, fun _ => rfl⟩

/-! ### Fits.calc -/

/-- The requested representation of a value for the incidence-angle `t0`. -/
noncomputable def represent (dB sig0 : Bool) (t0 x : ℝ) : ℝ :=
  let y := if sig0 then 4 * Real.pi * Real.cos t0 * x else x
  if dB then 10 * (Real.log y / Real.log 10) else y

theorem convert_den {M : List Shape} (hM : Compatible M) {t0 : Arr} (h0 : t0.shape ∈ M) {x : NpV} {ss : List Shape} {f : Idx → ℝ}
    (hx : DenIn M x ss f) (hm : t0.shape ∈ ss) (dB sig0 : Bool) :
    DenIn M (convert t0 dB sig0 x) ss fun i => represent dB sig0 (t0.at i) (f i) := by
  have h1 : DenIn M (if sig0 then (lit (4 * Real.pi) * mapV Real.cos (arr t0)) * x else x) ss fun i =>
      if sig0 then 4 * Real.pi * Real.cos (t0.at i) * f i else f i := by
    cases sig0 with
    | false => exact hx
    | true =>
      refine dcongr (dmul hM (dmul hM (dlit (4 * Real.pi)) (dmap Real.cos (darr t0 h0))) hx) fun s => ?_
      simp only [List.nil_append, List.mem_append, List.mem_cons, List.not_mem_nil, or_false]
      constructor
      · rintro (rfl | h)
        · exact hm
        · exact h
      · exact Or.inr
  unfold convert represent
  cases dB with
  | false => exact h1
  | true => exact dcongr (dmul hM (dlit 10) (dmap (fun x => Real.log x / Real.log 10) h1)) fun s => by simp

/-- C107: `fit.calc` returns the total of each element in the requested representation. -/
theorem C107_fit_total_partial {o : RObj} (hc : o.Valid) (expi : ℝ → ℝ) (expn : Nat → ℝ → ℝ) {scalarTau intQ : Bool}
    (hi : intQ = true → o.ValidInt) (ht : scalarTau = true → 0 < o.tau.at fun _ => 0) (dB sig0 : Bool) :
    ∃ A, fitTotal o expi expn scalarTau intQ dB sig0 = .ok A ∧ Bc (o.totShapes intQ) A.shape ∧
      ∀ i, A.at i = represent dB sig0 (o.t0.at i) (o.totalAt expi expn intQ i) := by
  obtain ⟨x, l, h1, -, hx⟩ := total_den hc expi expn hi ht
  have := convert_den hc.compatible mem_shapes.2.2.2.2.2.1 hx (by simp [RObj.totShapes, RObj.surfShapes]) dB sig0
  unfold fitTotal
  rw [h1]
  exact this.1

/-- The value of the k-th component of one element. -/
noncomputable def RObj.componentAt (o : RObj) (expi : ℝ → ℝ) (expn : Nat → ℝ → ℝ) (intQ : Bool) : Nat → Idx → ℝ
  | 0, i => o.totalAt expi expn intQ i
  | 1, i => (o.elem i).surface
  | 2, i => (o.elem i).volume
  | _, i => o.interactionAt expi expn i

/-- C107: the components returned by `fit.calc` are those of each element, if all of them have the same shape. -/
theorem C107_components_partial {o : RObj} (hc : o.Valid) (expi : ℝ → ℝ) (expn : Nat → ℝ → ℝ) {scalarTau intQ : Bool}
    (hi : intQ = true → o.ValidInt) (ht : scalarTau = true → 0 < o.tau.at fun _ => 0) (dB sig0 : Bool) {S : Shape}
    (hs : Bc o.surfShapes S) (hv : Bc o.volShapes S) (hii : intQ = true → Bc o.intShapes S) :
    ∃ A, fitComponents o expi expn scalarTau intQ dB sig0 = .ok A ∧ A.shape = S ++ [if intQ then 4 else 3] ∧
      ∀ i k, k < (if intQ then 4 else 3) →
        A.at (Function.update i S.length k) = represent dB sig0 (o.t0.at i) (o.componentAt expi expn intQ k i) := by
  obtain ⟨x, l, h1, h2, hx⟩ := total_den hc expi expn hi ht
  have hden : ∀ {y : NpV} {ss : List Shape} {f : Idx → ℝ}, Den y ss f → Bc ss S → Den y [S] f := by
    rintro y ss f ⟨A, a1, a2, a3⟩ hb
    exact ⟨A, a1, by rw [a2.ext hb]; exact bc_single S, a3⟩
  have htot : Bc (o.totShapes intQ) S := by
    have hmem : ∀ s ∈ o.totShapes intQ, s ∈ o.surfShapes ∨ s ∈ o.volShapes ∨ intQ = true ∧ s ∈ o.intShapes := by
      intro s hs
      unfold RObj.totShapes at hs
      cases intQ <;> simp at hs ⊢ <;> tauto
    have hsub : ∀ s ∈ o.surfShapes, s ∈ o.totShapes intQ := by
      intro s hs
      unfold RObj.totShapes
      simp [hs]
    refine ⟨fun s h => ?_, fun r hr => hs.rank r fun s h => hr s (hsub s h), fun a ha => ?_⟩
    · rcases hmem s h with h | h | ⟨hq, h⟩
      · exact hs.le s h
      · exact hv.le s h
      · exact (hii hq).le s h
    · obtain ⟨s, h, e⟩ := hs.attained a ha
      exact ⟨s, hsub s h, e⟩
  have hstack : DenS S.length (if intQ then 4 else 3) (stackV (o.calcV expi expn scalarTau intQ)) [S]
      (o.componentAt expi expn intQ) := by
    have hlen : (o.calcV expi expn scalarTau intQ).length = if intQ then 4 else 3 := by
      rw [h1, h2]
      cases intQ <;> rfl
    rw [← hlen]
    refine stackV_denS (by rw [h1]; simp) (fun T hT => by rw [hT.ext (bc_single S)]) fun k y hk => ?_
    rw [h1, h2] at hk
    match k with
    | 0 => cases hk; exact hden hx.1 htot
    | 1 => cases hk; exact hden (surf_den hc).1 hs
    | 2 => cases hk; exact hden (vol_den hc).1 hv
    | k + 3 =>
      cases hq : intQ with
      | false => rw [hq] at hk; simp at hk
      | true =>
        rw [hq] at hk
        cases k with
        | zero =>
          cases hk
          exact hden (int_den hc (hi hq) expi expn).1 (hii hq)
        | succ k => simp at hk
  have h0 : Le o.t0.shape S := hs.le _ (by simp [RObj.surfShapes])
  have hcomp : Compatible ([S] ++ [o.t0.shape]) := ⟨S, fun s h => by
    simp only [List.mem_append, List.mem_cons, List.not_mem_nil, or_false] at h
    rcases h with rfl | rfl
    · exact Le.refl _
    · exact h0⟩
  have hsig : DenS S.length (if intQ then 4 else 3)
      (if sig0 then (lit (4 * Real.pi) * mapV Real.cos (arr o.t0)) * stackV (o.calcV expi expn scalarTau intQ)
        else stackV (o.calcV expi expn scalarTau intQ)) [S] fun k i =>
      if sig0 then 4 * Real.pi * Real.cos (o.t0.at i) * o.componentAt expi expn intQ k i else o.componentAt expi expn intQ k i := by
    cases sig0 with
    | false => exact hstack
    | true =>
      have hl : Den (lit (4 * Real.pi) * mapV Real.cos (arr o.t0)) [o.t0.shape] fun i => 4 * Real.pi * Real.cos (o.t0.at i) :=
        den_mul (den_lit _) (den_map _ (den_arr _)) ⟨S, fun s h => by simp at h; rw [h]; exact h0⟩
      obtain ⟨X, U, a1, a2, a3, a4, a5⟩ := denS_zip_left (· * ·) hstack hl (by simpa using h0.1) hcomp
      refine ⟨X, U, a1, a2, a3, ?_, a5⟩
      have e : U = S := by
        refine a4.ext ⟨fun s h => ?_, fun r hr => hr S (by simp), fun a ha => ⟨S, by simp, rfl⟩⟩
        simp only [List.mem_append, List.mem_cons, List.not_mem_nil, or_false] at h
        rcases h with rfl | rfl
        · exact Le.refl _
        · exact h0
      rw [e]
      exact bc_single S
  have hdb : DenS S.length (if intQ then 4 else 3) (convert o.t0 dB sig0 (stackV (o.calcV expi expn scalarTau intQ))) [S] fun k i =>
      represent dB sig0 (o.t0.at i) (o.componentAt expi expn intQ k i) := by
    unfold convert represent
    cases dB with
    | false => exact hsig
    | true =>
      obtain ⟨X, U, a1, a2, a3, a4, a5⟩ := hsig
      dsimp only
      rw [a1]
      have hm : DenS S.length (if intQ then 4 else 3) (mapV (fun x => Real.log x / Real.log 10) (.ok X)) [S] fun k i =>
          Real.log (if sig0 then 4 * Real.pi * Real.cos (o.t0.at i) * o.componentAt expi expn intQ k i
            else o.componentAt expi expn intQ k i) / Real.log 10 := by
        refine ⟨_, U, rfl, a2, a3, a4, fun i k hk => ?_⟩
        show Real.log (X.at (mask X.shape _)) / Real.log 10 = _
        rw [X.at_mask (Le.refl _), a5 i k hk]
      have := denS_zip_left (· * ·) hm (den_lit 10) (by simp) ⟨S, by simp [Le.refl]⟩
      exact this
  obtain ⟨X, U, a1, a2, a3, a4, a5⟩ := hdb
  refine ⟨X, a1, by rw [a2, a4.ext (bc_single S)], fun i k hk => a5 i k hk⟩

/-! ### shapes that are not supported -/

/-- C107: `p` and `brdf` return arrays of the common shape of all arguments if the function does not depend on `t_0`, or if it depends on
all arguments. -/
theorem C107_function_shape_partial {e : Ex} {a : Args} (hcl : Closed e a) (hc : Compatible (a.all.map Arr.shape))
    (hne : Var.theta0 ∉ e.vars → ∀ A ∈ a.all, 0 ∉ A.shape)
    (hall : Var.theta0 ∈ e.vars → ∀ A ∈ a.all, ∃ v ∈ e.vars, a.arrOf v = A) :
    ∃ A, callFn e a = .ok A ∧ Bc (a.all.map Arr.shape) A.shape := by
  obtain ⟨A, h1, h2, -⟩ := C107_function hcl hc hne
  refine ⟨A, h1, h2.congr fun s => ⟨used_mem hcl s, fun hs => ?_⟩⟩
  unfold usedShapes
  by_cases h0 : Var.theta0 ∈ e.vars
  · rw [if_pos h0]
    obtain ⟨B, hB, rfl⟩ := List.mem_map.1 hs
    obtain ⟨v, hv, e⟩ := hall h0 B hB
    exact List.mem_map.2 ⟨v, hv, by rw [e]⟩
  · rw [if_neg h0]
    exact hs

/-- An array with the entries 1/4. -/
noncomputable def quarter (s : Shape) : Arr := ⟨s, fun _ => 1 / 4⟩

/-- Violation: a function that depends on `t_0` only, evaluated for several azimuth-angles, does not return the common shape. -/
theorem C107_function_shape_fails : ∃ (e : Ex) (a : Args) (A : Arr), Closed e a ∧ Compatible (a.all.map Arr.shape) ∧
    (∀ B ∈ a.all, 0 ∉ B.shape) ∧ callFn e a = .ok A ∧ ¬ Bc (a.all.map Arr.shape) A.shape := by
  refine ⟨.un Real.cos (.var .theta0), ⟨quarter [2], quarter [2], quarter [1, 3], quarter [1, 3], []⟩,
    ⟨[2], fun i => Real.cos ((quarter [2]).at i)⟩, ?_, ⟨[2, 3], ?_⟩, ?_, rfl, ?_⟩
  · intro k hk
    simp [Ex.vars] at hk
  · intro s hs
    simp only [Args.all, quarter, List.map_append, List.map_cons, List.map_nil, List.mem_append, List.mem_cons, List.not_mem_nil,
      or_false] at hs
    rcases hs with (rfl | rfl | rfl | rfl)
    all_goals
      refine ⟨by simp, fun a => ?_⟩
      match a with
      | 0 => simp
      | 1 => simp
      | a + 2 => simp
  · intro B hB
    simp only [Args.all, quarter, List.map_nil, List.append_nil, List.mem_cons, List.not_mem_nil, or_false] at hB
    rcases hB with rfl | rfl | rfl | rfl <;> simp
  · intro h
    have := (h.le [1, 3] (by simp [Args.all, quarter])).1
    simp at this

/-- Violation: functions that do not depend on `t_0` cannot be evaluated for arrays without elements. -/
theorem C107_empty_fails : callFn (.const 1) ⟨quarter [0], quarter [0], quarter [0], quarter [0], []⟩ = .error .valueError := rfl

/-- An object with one coefficient per element of `fn` and the given shapes. -/
noncomputable def sample (fn : List Ex) (s0 stau sN : Shape) : RObj where
  t0 := quarter s0
  tex := quarter s0
  p0 := quarter s0
  pex := quarter s0
  params := []
  I0 := quarter []
  tau := quarter stau
  omega := quarter []
  N := quarter sN
  bsf := quarter []
  brdf := .un Real.cos (.var .theta0)
  p := .un Real.cos (.var .theta0)
  fn := fn
  backend := .sympy

theorem sample_shapes (fn : List Ex) (s0 stau sN : Shape) (s : Shape) (hs : s ∈ (sample fn s0 stau sN).shapes) :
    s = [] ∨ s = s0 ∨ s = stau ∨ s = sN := by
  simp only [RObj.shapes, Args.all, sample, quarter, List.map_append, List.map_cons, List.map_nil, List.mem_append, List.mem_cons,
    List.not_mem_nil, or_false] at hs
  tauto

theorem sample_valid (fn : List Ex) (s0 stau sN : Shape) (h : Compatible [s0, stau, sN]) : (sample fn s0 stau sN).Valid := by
  obtain ⟨W, hW⟩ := h
  refine ⟨⟨W, fun s hs => ?_⟩, ?_, ?_, ?_⟩
  · rcases sample_shapes fn s0 stau sN s hs with rfl | rfl | rfl | rfl
    · exact ⟨by simp, fun a => Or.inl (by simp)⟩
    all_goals exact hW _ (by simp)
  · intro k hk; simp [sample, Ex.vars] at hk
  · intro k hk; simp [sample, Ex.vars] at hk
  · intro hn; simp [sample, Ex.vars] at hn

/-- Violation: the interaction-term of arrays `tau` with shape `(3, 1)` and incidence-angles with shape `(2,)` raises an error, although
the shapes are compatible and surface- and volume-term are evaluated. -/
theorem C107_rank_fails : ∃ o : RObj, o.Valid ∧ o.fn ≠ [] ∧ (∀ e ∈ o.fn, Closed e o.toArgs) ∧ o.Varying ∧
    ∀ expi expn, o.interaction expi expn = .error .valueError := by
  refine ⟨sample [.var .theta0, .const 1] [2] [1, 3] [], sample_valid _ _ _ _ ⟨[2, 3], ?_⟩, by simp [sample], ?_, Or.inr ⟨_, by simp [sample]; left; rfl, by simp [Ex.vars]⟩,
    fun expi expn => rfl⟩
  · intro s hs
    simp only [List.mem_cons, List.not_mem_nil, or_false] at hs
    rcases hs with rfl | rfl | rfl
    all_goals
      refine ⟨by simp, fun a => ?_⟩
      match a with
      | 0 => simp
      | 1 => simp
      | a + 2 => simp
  · intro e he k hk
    simp only [sample, List.mem_cons, List.not_mem_nil, or_false] at he
    rcases he with rfl | rfl <;> simp [Ex.vars] at hk

/-- Violation: the interaction-term of two constant fn-coefficients and three incidence-angles raises an error. -/
theorem C107_constant_fails : ∃ o : RObj, o.Valid ∧ o.fn ≠ [] ∧ (∀ e ∈ o.fn, Closed e o.toArgs) ∧
    (∀ A ∈ o.tau :: o.toArgs.all, A.shape.length ≤ o.t0.shape.length) ∧
    ∀ expi expn, o.interaction expi expn = .error .valueError := by
  refine ⟨sample [.const 2, .const 1] [3] [] [], sample_valid _ _ _ _ ⟨[3], ?_⟩, by simp [sample], ?_, ?_, fun expi expn => rfl⟩
  · intro s hs
    simp only [List.mem_cons, List.not_mem_nil, or_false] at hs
    rcases hs with rfl | rfl | rfl
    all_goals
      refine ⟨by simp, fun a => ?_⟩
      match a with
      | 0 => simp
      | a + 1 => simp
  · intro e he k hk
    simp only [sample, List.mem_cons, List.not_mem_nil, or_false] at he
    rcases he with rfl | rfl <;> simp [Ex.vars] at hk
  · intro A hA
    simp only [sample, Args.all, List.map_nil, List.append_nil, List.mem_cons, List.not_mem_nil, or_false] at hA
    rcases hA with rfl | rfl | rfl | rfl | rfl <;> simp [quarter, sample]

/-- Violation: `fit.calc(return_components=True)` raises an error if only `NormBRDF` is given with several values. -/
theorem C107_components_fails : ∃ o : RObj, o.Valid ∧ ∀ expi expn, fitComponents o expi expn false false false true = .error .valueError := by
  refine ⟨sample [.var .theta0] [3, 1] [1, 1] [1, 2], sample_valid _ _ _ _ ⟨[3, 2], ?_⟩, fun expi expn => rfl⟩
  intro s hs
  simp only [List.mem_cons, List.not_mem_nil, or_false] at hs
  rcases hs with rfl | rfl | rfl
  all_goals
    refine ⟨by simp, fun a => ?_⟩
    match a with
    | 0 => simp
    | 1 => simp
    | a + 2 => simp

/-! ### examples -/

theorem sample_compatible : Compatible [[5, 1], [1, 2], [1, 2]] := ⟨[5, 2], by
  intro s hs
  simp only [List.mem_cons, List.not_mem_nil, or_false] at hs
  rcases hs with rfl | rfl | rfl
  all_goals
    refine ⟨by simp, fun a => ?_⟩
    match a with
    | 0 => simp
    | 1 => simp
    | a + 2 => simp⟩

/-- Five incidence-angles and two values of `tau` and `NormBRDF`: the total has the shape `(2, 5)`. -/
example (expi : ℝ → ℝ) (expn : Nat → ℝ → ℝ) : ∃ A, fitTotal (sample [.var .theta0, .const 1] [5, 1] [1, 2] [1, 2]) expi expn false true true true =
    .ok A ∧ A.shape = [5, 2] ∧ ∀ i, A.at i = represent true true (1 / 4)
      ((sample [.var .theta0, .const 1] [5, 1] [1, 2] [1, 2]).totalAt expi expn true i) := by
  obtain ⟨A, h1, h2, h3⟩ := C107_fit_total_partial (sample_valid [.var .theta0, .const 1] [5, 1] [1, 2] [1, 2] sample_compatible) expi expn (scalarTau := false) (intQ := true)
    (fun _ => ⟨rfl, by
      intro A hA
      simp only [sample, Args.all, List.map_nil, List.append_nil, List.mem_cons, List.not_mem_nil, or_false] at hA
      rcases hA with rfl | rfl | rfl | rfl | rfl <;> simp [quarter, sample], by
      intro e he k hk
      simp only [sample, List.mem_cons, List.not_mem_nil, or_false] at he
      rcases he with rfl | rfl <;> simp [Ex.vars] at hk, by simp [sample], Or.inl (Or.inr ⟨_, by simp [sample]; left; rfl, by simp [Ex.vars]⟩)⟩)
    (by simp) true true
  refine ⟨A, h1, ?_, h3⟩
  have h1' : fitTotal (sample [.var .theta0, .const 1] [5, 1] [1, 2] [1, 2]) expi expn false true true true = .ok A := h1
  have : (match fitTotal (sample [.var .theta0, .const 1] [5, 1] [1, 2] [1, 2]) expi expn false true true true with
    | .ok A => A.shape | .error _ => []) = [5, 2] := rfl
  rw [h1'] at this
  exact this

/-- The components for the same arrays have the shape `(3, 2, 5)`. -/
example (expi : ℝ → ℝ) (expn : Nat → ℝ → ℝ) :
    ∃ A, fitComponents (sample [] [5, 1] [1, 2] [1, 2]) expi expn false false true false = .ok A ∧ A.shape = [5, 2, 3] := by
  have hval := sample_valid [] [5, 1] [1, 2] [1, 2] sample_compatible
  obtain ⟨S, hS, hS'⟩ := bshapes_spec (hval.compatible.sub (surf_den hval).2)
  obtain ⟨V, hV, hV'⟩ := bshapes_spec (hval.compatible.sub (vol_den hval).2)
  have eS : bshapes (sample [] [5, 1] [1, 2] [1, 2]).surfShapes = .ok [5, 2] := rfl
  have eV : bshapes (sample [] [5, 1] [1, 2] [1, 2]).volShapes = .ok [5, 2] := rfl
  rw [eS] at hS
  rw [eV] at hV
  cases hS
  cases hV
  obtain ⟨A, h1, h2, -⟩ := C107_components_partial hval expi expn (scalarTau := false) (intQ := false) (by simp) (by simp) true false
    hS' hV' (by simp)
  exact ⟨A, h1, h2⟩

/-- Bare soil. -/
example (expi : ℝ → ℝ) (expn : Nat → ℝ → ℝ) :
    ∃ T S : Arr, ∃ l, ({sample [] [5, 1] [] [1, 2] with tau := ⟨[], fun _ => 0⟩} : RObj).calcV expi expn true true = .ok T :: .ok S :: l ∧
      T.shape = S.shape := by
  have h0 : Compatible [[5, 1], [], [1, 2]] := ⟨[5, 2], by
    intro s hs
    simp only [List.mem_cons, List.not_mem_nil, or_false] at hs
    rcases hs with rfl | rfl | rfl
    all_goals
      refine ⟨by simp, fun a => ?_⟩
      match a with
      | 0 => simp
      | 1 => simp
      | a + 2 => simp⟩
  have hv := sample_valid [] [5, 1] [] [1, 2] h0
  have hval : ({sample [] [5, 1] [] [1, 2] with tau := ⟨[], fun _ => 0⟩} : RObj).Valid := ⟨hv.compatible, hv.brdf, hv.p, hv.nonempty⟩
  obtain ⟨T, S, l, h1, -, h2, -⟩ := C107_calc_bare hval expi expn true (le_refl _) (by simp [sample, quarter])
  exact ⟨T, S, l, h1, h2⟩

/-- A function of `t_0` and a parameter `t` given as column. -/
example : ∃ A, callFn (.bin (· * ·) (.var .theta0) (.var (.param "t")))
    ⟨quarter [4, 1], quarter [4, 1], quarter [], quarter [], [("t", quarter [1, 3])]⟩ = .ok A ∧ A.shape = [4, 3] ∧ ∀ i, A.at i = 1 / 4 * (1 / 4) :=
  ⟨_, rfl, rfl, fun _ => rfl⟩

end RT1.Arrays
