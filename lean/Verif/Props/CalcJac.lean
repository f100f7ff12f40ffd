import Verif.Model.CalcJac
import Verif.Props.PerformFit
import Verif.Props.RT1

/-!
# C111: the jacobian of a fit is the derivative of its residuals
-/

namespace RT1.CalcJac
open General Grouping FitSpec PerformFit FitEval Rad

variable {τ β : Type} [DecidableEq τ]

/-! ### specification -/

/-- The `i`-th residual of a fit as a function of the vector of parameters (0 if it can not be evaluated). -/
noncomputable def residAt (F : β → List ℝ → ℝ) (data : Data β) (x0 : List ℝ) (s : Setup) (i : Nat) (x : List ℝ) : ℝ :=
  match resid F data x0 s x with
  | .ok r => r.getD i 0
  | .error _ => 0

/-- The inner derivative of a fitted symbol at an observation: `d` is the derivative of the expression of tau, omega or NormBRDF in which
the symbol is used (1 if it is used in none of them). -/
def InnerAt (m : JModel β) (key : String) (b : β) (name : String) (d : ℝ) : Prop :=
  (∃ r ∈ m.props, key ∈ r.symbs ∧ name = r.name ∧ (r.diff key).eval .keyError (m.fixed b) = .ok d) ∨
    ((∀ r ∈ m.props, key ∉ r.symbs) ∧ name = key ∧ d = 1)

/-- The model and its derivatives: no fitted symbol is used in two of tau, omega and NormBRDF, their derivatives do not depend on fitted
symbols, and outer times inner derivative is the derivative of the model `F` with respect to the value of the parameter, for all values that
satisfy `P`. -/
structure JacOk (m : JModel β) (F : β → List ℝ → ℝ) (order : List String) (inc : List β) (P : β → List ℝ → Prop) : Prop where
  unshared : ∀ key ∈ order, ∀ (p q : Nat) (r r' : PropDef), m.props[p]? = some r → m.props[q]? = some r' → key ∈ r.symbs → key ∈ r'.symbs →
    p = q
  fresh : ∀ r ∈ m.props, ∀ r' ∈ m.props, r.name ∈ order → r.name ∈ r'.symbs → r.name = r'.name
  linear : ∀ key ∈ order, ∀ r ∈ m.props, key ∈ r.symbs → ∀ s ∈ (r.diff key).symbs, s ∉ order
  known : ∀ key ∈ order, ∀ r ∈ m.props, key ∈ r.symbs → ∀ b ∈ inc, ∃ d, (r.diff key).eval .keyError (m.fixed b) = .ok d
  deriv : ∀ (j : Nat) (key name : String), order[j]? = some key →
    ((∃ r ∈ m.props, key ∈ r.symbs ∧ name = r.name) ∨ ((∀ r ∈ m.props, key ∉ r.symbs) ∧ name = key)) →
    ∃ G, m.rjac name = .ok G ∧ ∀ b ∈ inc, ∀ d, InnerAt m key b name d → ∀ pv : List ℝ, pv.length = order.length → P b pv →
      HasDerivAt (fun t => F b (pv.set j t)) (G b pv * d) (pv.getD j 0)

/-! ### `neworder` -/

theorem replaceAt_spec {order : List String} {φ : String → String} {k n : String} (hk : k ∈ order) (hφ : φ k = k)
    (hnd : order.Nodup) (hf : ∀ k' ∈ order, φ k' = k → k' = k ∨ n = k) :
    replaceAt n (order.map φ) k = .ok (order.map (Function.update φ k n)) := by
  have hm : k ∈ order.map φ := List.mem_map.2 ⟨k, hk, hφ⟩
  unfold replaceAt
  rw [if_pos hm]
  congr 1
  have hlt := List.idxOf_lt_length_of_mem hm
  have hget : (order.map φ)[(order.map φ).idxOf k] = k := List.getElem_idxOf hlt
  generalize (order.map φ).idxOf k = p at hlt hget
  rw [List.length_map] at hlt
  rw [List.getElem_map] at hget
  apply List.ext_getElem (by simp)
  intro i h1 h2
  simp only [List.length_map, List.length_set] at h1 h2
  rw [List.getElem_set, List.getElem_map, List.getElem_map]
  by_cases hpi : p = i
  · subst hpi
    rw [if_pos rfl]
    rcases hf _ (List.getElem_mem hlt) hget with e | e
    · rw [e, Function.update_self]
    · by_cases e' : order[p] = k
      · rw [e', Function.update_self]
      · rw [Function.update_of_ne e', hget, e]
  · rw [if_neg hpi]
    by_cases e' : order[i] = k
    · rw [e', Function.update_self, hφ]
      rcases hf _ (List.getElem_mem hlt) hget with e | e
      · exact absurd ((List.Nodup.getElem_inj_iff hnd).1 (e.trans e'.symm)) hpi
      · exact e.symm
    · rw [Function.update_of_ne e']

theorem steps_spec {order : List String} (hnd : order.Nodup) : ∀ (S : List (String × String)) (φ : String → String),
    (S.map Prod.fst).Nodup → (∀ kn ∈ S, kn.1 ∈ order ∧ φ kn.1 = kn.1 ∧ ∀ k' ∈ order, φ k' = kn.1 → k' = kn.1 ∨ kn.2 = kn.1) →
    (∀ kn ∈ S, ∀ kn' ∈ S, kn'.2 = kn.1 → kn.2 = kn.1) →
    ∃ φ' : String → String, S.foldlM (fun l kn => replaceAt kn.2 l kn.1) (order.map φ) = .ok (order.map φ') ∧
      (∀ kn ∈ S, φ' kn.1 = kn.2) ∧ ∀ k, k ∉ S.map Prod.fst → φ' k = φ k := by
  intro S
  induction S with
  | nil => intro φ _ _ _; exact ⟨φ, rfl, by simp, by simp⟩
  | cons a S ih =>
    intro φ h1 h2 h3
    rw [List.map_cons, List.nodup_cons] at h1
    obtain ⟨ha1, ha2, ha3⟩ := h2 a (by simp)
    have hstep := replaceAt_spec ha1 ha2 hnd ha3
    obtain ⟨φ', e1, e2, e3⟩ := ih (Function.update φ a.1 a.2) h1.2 (by
      intro kn hkn
      obtain ⟨b1, b2, b3⟩ := h2 kn (by simp [hkn])
      have hne : kn.1 ≠ a.1 := fun e => h1.1 (e ▸ List.mem_map.2 ⟨kn, hkn, rfl⟩)
      refine ⟨b1, by rw [Function.update_of_ne hne, b2], ?_⟩
      intro k' hk' hu
      by_cases e : k' = a.1
      · rw [e, Function.update_self] at hu
        exact .inr (h3 kn (by simp [hkn]) a (by simp) hu)
      · rw [Function.update_of_ne e] at hu
        exact b3 k' hk' hu) (fun kn hkn kn' hkn' => h3 kn (by simp [hkn]) kn' (by simp [hkn']))
    refine ⟨φ', ?_, ?_, ?_⟩
    · rw [List.foldlM_cons, hstep]
      exact e1
    · intro kn hkn
      rcases List.mem_cons.1 hkn with rfl | hkn
      · rw [e3 _ h1.1, Function.update_self]
      · exact e2 kn hkn
    · intro k hk
      rw [List.map_cons, List.mem_cons, not_or] at hk
      rw [e3 k hk.2, Function.update_of_ne hk.1]

/-- The steps of `neworder` as one list. -/
def steps (order : List String) (props : List PropDef) : List (String × String) :=
  props.flatMap fun r => (order.filter fun k => decide (k ∈ r.symbs)).map fun k => (k, r.name)

theorem neworder_steps (order : List String) : ∀ (props : List PropDef) (l : List String),
    props.foldlM (fun l r => (order.filter fun k => decide (k ∈ r.symbs)).foldlM (replaceAt r.name) l) l =
      (steps order props).foldlM (fun l kn => replaceAt kn.2 l kn.1) l := by
  intro props
  induction props with
  | nil => intro l; rfl
  | cons r props ih =>
    intro l
    simp only [steps, List.flatMap_cons, List.foldlM_append, List.foldlM_cons]
    rw [List.foldlM_map]
    congr 1
    funext l'
    exact ih l'

theorem mem_steps {order : List String} {props : List PropDef} {k n : String} :
    (k, n) ∈ steps order props ↔ ∃ r ∈ props, k ∈ order ∧ k ∈ r.symbs ∧ n = r.name := by
  simp only [steps, List.mem_flatMap, List.mem_map, List.mem_filter, decide_eq_true_eq, Prod.mk.injEq]
  constructor
  · rintro ⟨r, hr, k', ⟨h1, h2⟩, rfl, rfl⟩
    exact ⟨r, hr, h1, h2, rfl⟩
  · rintro ⟨r, hr, h1, h2, rfl⟩
    exact ⟨r, hr, k, ⟨h1, h2⟩, rfl, rfl⟩

theorem steps_nodup {order : List String} (hnd : order.Nodup) {props : List PropDef}
    (hun : ∀ key ∈ order, ∀ (p q : Nat) (r r' : PropDef), props[p]? = some r → props[q]? = some r' → key ∈ r.symbs → key ∈ r'.symbs →
      p = q) : ((steps order props).map Prod.fst).Nodup := by
  have e : (steps order props).map Prod.fst = props.flatMap fun r => order.filter fun k => decide (k ∈ r.symbs) := by
    simp [steps, List.map_flatMap, List.map_map, Function.comp_def]
  rw [e, List.nodup_flatMap]
  refine ⟨fun r _ => hnd.filter _, ?_⟩
  rw [List.pairwise_iff_getElem]
  intro p q hp hq hpq k h1 h2
  simp only [List.mem_filter, decide_eq_true_eq] at h1 h2
  have := hun k h1.1 p q _ _ (List.getElem?_eq_getElem hp) (List.getElem?_eq_getElem hq) h1.2 h2.2
  omega

theorem neworder_spec {order : List String} (hnd : order.Nodup) {props : List PropDef}
    (hun : ∀ key ∈ order, ∀ (p q : Nat) (r r' : PropDef), props[p]? = some r → props[q]? = some r' → key ∈ r.symbs → key ∈ r'.symbs →
      p = q)
    (hfr : ∀ r ∈ props, ∀ r' ∈ props, r.name ∈ order → r.name ∈ r'.symbs → r.name = r'.name) :
    ∃ φ : String → String, neworder order props = .ok (order.map φ) ∧
      (∀ key ∈ order, ∀ r ∈ props, key ∈ r.symbs → φ key = r.name) ∧
      ∀ key ∈ order, (∀ r ∈ props, key ∉ r.symbs) → φ key = key := by
  obtain ⟨φ, h1, h2, h3⟩ := steps_spec hnd (steps order props) id (steps_nodup hnd hun) (by
    rintro ⟨k, n⟩ hkn
    obtain ⟨r, hr, a, b, rfl⟩ := mem_steps.1 hkn
    exact ⟨a, rfl, fun k' _ e => .inl e⟩) (by
    rintro ⟨k, n⟩ hkn ⟨k', n'⟩ hkn' e
    obtain ⟨r, hr, a, b, rfl⟩ := mem_steps.1 hkn
    obtain ⟨r', hr', a', b', rfl⟩ := mem_steps.1 hkn'
    simp only at e
    subst e
    exact (hfr r' hr' r hr a b).symm)
  refine ⟨φ, ?_, ?_, ?_⟩
  · rw [List.map_id] at h1
    unfold neworder
    rw [neworder_steps, h1]
  · intro key hk r hr hs
    exact h2 (key, r.name) (mem_steps.2 ⟨r, hr, hk, hs, rfl⟩)
  · intro key hk hs
    refine h3 key ?_
    intro hm
    obtain ⟨⟨k, n⟩, hkn, rfl⟩ := List.mem_map.1 hm
    obtain ⟨r, hr, a, b, rfl⟩ := mem_steps.1 hkn
    exact hs r hr b

/-! ### inner derivatives -/

theorem eval_no_symbs {err : PyErr} (d d' : Dict String ℝ) : ∀ (e : Expr), e.symbs = [] → e.eval err d = e.eval err d'
  | .num _, _ => rfl
  | .sym s, h => by simp [Expr.symbs] at h
  | .un f a, h => by
    simp only [Expr.symbs] at h
    simp only [Expr.eval, eval_no_symbs d d' a h]
  | .bin f a b, h => by
    simp only [Expr.symbs, List.append_eq_nil_iff] at h
    simp only [Expr.eval, eval_no_symbs d d' a h.1, eval_no_symbs d d' b h.2]

theorem innerVals_spec (m : JModel β) (order : List String) (inc : List (List β)) (r : PropDef) (key : String)
    (hlin : ∀ s ∈ (r.diff key).symbs, s ∉ order) (hne : inc.flatten ≠ [])
    (hk : ∀ b ∈ inc.flatten, ∃ d, (r.diff key).eval .keyError (m.fixed b) = .ok d) :
    ∃ ds, innerVals m order inc r key = .ok ds ∧
      List.Forall₂ (fun b d => (r.diff key).eval .keyError (m.fixed b) = .ok d) inc.flatten ds := by
  unfold innerVals
  by_cases h0 : (r.diff key).symbs = []
  · rw [if_pos h0]
    obtain ⟨b, hb⟩ := List.exists_mem_of_ne_nil _ hne
    obtain ⟨d, hd⟩ := hk b hb
    rw [eval_no_symbs [] (m.fixed b) _ h0, hd]
    refine ⟨_, rfl, ?_⟩
    have : inc.flatten.map (fun _ => d) = List.replicate inc.flatten.length d := List.map_const' ..
    rw [← this, List.forall₂_map_right_iff, List.forall₂_same]
    intro b' _
    rw [eval_no_symbs (m.fixed b') (m.fixed b) _ h0, hd]
  · rw [if_neg h0, if_pos hlin]
    generalize inc.flatten = l at hk
    clear hne
    induction l with
    | nil => exact ⟨[], rfl, .nil⟩
    | cons b l ih =>
      obtain ⟨d, hd⟩ := hk b (by simp)
      obtain ⟨ds, e1, e2⟩ := ih fun b hb => hk b (by simp [hb])
      exact ⟨d :: ds, by rw [List.mapM_cons, hd, e1]; rfl, .cons hd e2⟩

theorem innerFold_none (m : JModel β) (order : List String) (inc : List (List β)) (key : String) : ∀ (props : List PropDef) (acc : List ℝ),
    (∀ r ∈ props, key ∉ r.symbs) → props.foldlM (innerStep m order inc key) acc = .ok acc := by
  intro props
  induction props with
  | nil => intro acc _; rfl
  | cons r props ih =>
    intro acc h
    rw [List.foldlM_cons, innerStep, if_neg (h r (by simp))]
    exact ih acc fun r hr => h r (by simp [hr])

theorem zipWith_ones : ∀ (l : List ℝ) (n : Nat), l.length = n → List.zipWith (· * ·) (List.replicate n (1 : ℝ)) l = l := by
  intro l
  induction l with
  | nil => intro n _; simp
  | cons a l ih =>
    intro n h
    subst h
    simp [List.replicate_succ, ih l.length rfl]

theorem innerAll_spec (m : JModel β) (order : List String) (inc : List (List β)) (key : String) (hk : key ∈ order)
    (hne : inc.flatten ≠ [])
    (hun : ∀ (p q : Nat) (r r' : PropDef), m.props[p]? = some r → m.props[q]? = some r' → key ∈ r.symbs → key ∈ r'.symbs → p = q)
    (hlin : ∀ r ∈ m.props, key ∈ r.symbs → ∀ s ∈ (r.diff key).symbs, s ∉ order)
    (hkn : ∀ r ∈ m.props, key ∈ r.symbs → ∀ b ∈ inc.flatten, ∃ d, (r.diff key).eval .keyError (m.fixed b) = .ok d) :
    ∃ name ds, innerAll m order inc key = .ok ds ∧
      ((∃ r ∈ m.props, key ∈ r.symbs ∧ name = r.name) ∨ ((∀ r ∈ m.props, key ∉ r.symbs) ∧ name = key)) ∧
      List.Forall₂ (fun b d => InnerAt m key b name d) inc.flatten ds := by
  by_cases h : ∀ r ∈ m.props, key ∉ r.symbs
  · refine ⟨key, _, innerFold_none m order inc key m.props _ h, .inr ⟨h, rfl⟩, ?_⟩
    have : inc.flatten.map (fun _ => (1 : ℝ)) = List.replicate inc.flatten.length 1 := List.map_const' ..
    rw [← this, List.forall₂_map_right_iff, List.forall₂_same]
    exact fun b _ => .inr ⟨h, rfl, rfl⟩
  · push Not at h
    obtain ⟨r, hr, hs⟩ := h
    obtain ⟨l1, l2, e⟩ := List.append_of_mem hr
    obtain ⟨ds, e1, e2⟩ := innerVals_spec m order inc r key (hlin r hr hs) hne (hkn r hr hs)
    have hp : m.props[l1.length]? = some r := by rw [e]; simp
    refine ⟨r.name, ds, ?_, .inl ⟨r, hr, hs, rfl⟩, ?_⟩
    · unfold innerAll
      rw [e, List.foldlM_append, innerFold_none m order inc key l1]
      · show (r :: l2).foldlM (innerStep m order inc key) (List.replicate inc.flatten.length 1) = .ok ds
        rw [List.foldlM_cons, innerStep, if_pos hs, e1]
        show l2.foldlM (innerStep m order inc key) (List.zipWith (· * ·) (List.replicate inc.flatten.length 1) ds) = .ok ds
        rw [zipWith_ones ds _ e2.length_eq.symm, innerFold_none]
        intro r' hr' hs'
        obtain ⟨i, hi⟩ := List.getElem?_of_mem hr'
        have := hun l1.length (l1.length + 1 + i) r r' hp (by rw [e, List.getElem?_append_right (by omega)]; simpa [Nat.add_assoc, Nat.add_comm 1] using hi) hs hs'
        omega
      · intro r' hr' hs'
        obtain ⟨i, hi⟩ := List.getElem?_of_mem hr'
        have hlt := (List.getElem?_eq_some_iff.1 hi).1
        have := hun i l1.length r' r (by rw [e, List.getElem?_append_left hlt]; exact hi) hp hs' hs
        omega
    · exact e2.imp fun b d hd => .inl ⟨r, hr, hs, rfl, hd⟩

/-! ### closed forms -/

/-- The residuals in closed form (as in the proof of C41). -/
theorem residuals_closed [Inhabited β] (F : β → List ℝ → ℝ) (gi : List Int) (data : Data β) (x0 : List ℝ)
    (params : List (List Int × List ℝ)) (hc : data.Complete gi.length) (hx : x0.length = gi.length) (I : List (List Nat))
    (M : List (List Bool)) (h1 : idxAssigns gi = .ok (I, M)) (h2 : rectangularize (groupPos gi) = .ok (I, M))
    (h4 : ∀ r ∈ I, ∀ i ∈ r, i < gi.length)
    (hp : ∀ p ∈ params, p.1.length = gi.length ∧ p.2.length = p.1.dedup.length) :
    residuals F gi data.inc data.sig data.weights x0 params = .ok ((unmask I M).map fun i =>
      data.weight i * (F (data.inc.getD i default) (params.map fun p => ownValue p.1 p.2 i) - data.sig.getD i default)) := by
  have hpars : params.mapM (fun p => assignVals gi x0 p.1 p.2) =
      .ok (params.map fun p => I.map (List.map (ownValue p.1 p.2))) := by
    rw [mapM_ok_iff, List.forall₂_map_right_iff, List.forall₂_same]
    intro p hpm
    obtain ⟨a, b⟩ := hp p hpm
    exact assignVals_spec gi I M h1 h4 x0 p.1 p.2 hx a (by rw [firsts_length_dedup]; exact b)
  have := calcModel_map F I (fun i => data.inc.getD i default) (params.map fun p => ownValue p.1 p.2)
  rw [List.map_map] at this
  simp only [Function.comp_def, List.map_map] at this
  have hfin : unmask (map2 (fun w e => w * e) (I.map (List.map data.weight)) (map2 (fun t d => t - d)
      (calcModel F (I.map (List.map fun i => data.inc.getD i default))
        (params.map fun p => I.map (List.map (ownValue p.1 p.2)))) (I.map (List.map fun i => data.sig.getD i default)))) M =
      (unmask I M).map fun i => data.weight i *
        (F (data.inc.getD i default) (params.map fun p => ownValue p.1 p.2 i) - data.sig.getD i default) := by
    rw [this, map2_map, map2_map, unmask_map]
  rw [← hfin]
  cases hw : data.weights with
  | none =>
    have hW : data.weight = fun _ => 1 := by funext i; simp [Data.weight, hw]
    simp only [residuals, getData_spec gi I M h2 data.inc hc.inc, getData_spec gi I M h2 data.sig hc.sig, bind, Except.bind, hpars, pure,
      Except.pure, List.map_map, Function.comp_def, hW]
  | some w =>
    have hW : data.weight = fun i => w.getD i 0 := by funext i; simp [Data.weight, hw]
    simp only [residuals, getData_spec gi I M h2 data.inc hc.inc, getData_spec gi I M h2 data.sig hc.sig, bind, Except.bind, hpars, pure,
      Except.pure, getData_spec gi I M h2 w (hc.weights w hw), Except.map, hW]
    rfl

theorem paramsOf_eq {defs : List (String × Param)} {dyns : Dict String (List Int)} {s : Setup} (hs : SetupSpec defs dyns s)
    (hkeys : dyns.keys = (fittedOf defs).map Prod.fst) (hnd : dyns.keys.Nodup) (vals : List (List ℝ))
    (hv : vals.map List.length = s.splitpos) : paramsOf s vals.flatten = .ok ((dyns.map Prod.snd).zip vals) := by
  have hlv : vals.length = (dyns.map Prod.snd).length := by
    have := congrArg List.length hv
    rw [hs.splitpos] at this
    simpa using this
  have hun : unpack s.order s.splitpos vals.flatten = s.order.zip vals := by rw [← hv, unpack_flatten]
  have hdl : dyns.length = vals.length := by rw [hlv]; simp
  unfold paramsOf
  rw [hun, hs.order, ← hkeys, hs.dyns]
  have key : ∀ (e : Dict String (List Int)) (vs : List (List ℝ)), e.length = vs.length → (∀ x ∈ e, x ∈ dyns) →
      (e.keys.zip vs).mapM (fun kv => (do
        let dyn ← Dict.getItem dyns kv.1
        return (dyn, kv.2) : Except PyErr (List Int × List ℝ))) = .ok ((e.map Prod.snd).zip vs) := by
    intro e
    induction e with
    | nil => intro vs _ _; rfl
    | cons a e ih =>
      intro vs hvs hsub
      cases vs with
      | nil => simp at hvs
      | cons v vs =>
        have hg : Dict.get? dyns a.1 = some a.2 := (Dict.get?_iff_mem hnd _ _).2 (hsub a (by simp))
        simp only [Dict.keys, List.map_cons, List.zip_cons_cons, List.mapM_cons, Dict.getItem, hg, bind, Except.bind, pure,
          Except.pure]
        have := ih vs (by simpa using hvs) fun x hx => hsub x (by simp [hx])
        simp only [Dict.keys, Dict.getItem, bind, Except.bind, pure, Except.pure] at this
        rw [this]
  exact key dyns vals hdl fun x hx => hx

/-- One position of a concatenation of lists. -/
theorem flat_index : ∀ (ls : List (List ℝ)) (c : Nat), c < ls.flatten.length → ∃ (j q : Nat) (l : List ℝ), ls[j]? = some l ∧
    q < l.length ∧ ls.flatten[c]? = l[q]? ∧ (∀ t, ls.flatten.set c t = (ls.set j (l.set q t)).flatten) ∧
    ∀ ms : List (List ℝ), ms.map List.length = ls.map List.length → ms.flatten[c]? = (ms[j]?).bind (·[q]?) := by
  intro ls
  induction ls with
  | nil => intro c h; simp at h
  | cons a ls ih =>
    intro c h
    by_cases hc : c < a.length
    · refine ⟨0, c, a, rfl, hc, ?_, ?_, ?_⟩
      · rw [List.flatten_cons, List.getElem?_append_left hc]
      · intro t
        simp only [List.flatten_cons, List.set_cons_zero]
        rw [List.set_append_left _ _ hc]
      · intro ms hms
        cases ms with
        | nil => simp at hms
        | cons b ms =>
          simp only [List.map_cons, List.cons.injEq] at hms
          rw [List.flatten_cons, List.getElem?_append_left (by omega)]
          rfl
    · rw [List.flatten_cons, List.length_append] at h
      obtain ⟨j, q, l, h1, h2, h3, h4, h5⟩ := ih (c - a.length) (by omega)
      refine ⟨j + 1, q, l, by simpa using h1, h2, ?_, ?_, ?_⟩
      · rw [List.flatten_cons, List.getElem?_append_right (by omega), h3]
      · intro t
        simp only [List.flatten_cons, List.set_cons_succ]
        rw [List.set_append_right _ _ (by omega), h4]
      · intro ms hms
        cases ms with
        | nil => simp at hms
        | cons b ms =>
          simp only [List.map_cons, List.cons.injEq] at hms
          rw [List.flatten_cons, List.getElem?_append_right (by omega), hms.1, h5 ms hms.2]
          simp

theorem hstack_map {α : Type} (L : List Nat) (f : α → Nat → List ℝ) : ∀ ks : List α,
    hstack L.length (ks.map fun k => L.map (f k)) = L.map fun i => (ks.map fun k => f k i).flatten := by
  intro ks
  induction ks with
  | nil => simp [hstack]
  | cons k ks ih =>
    simp only [hstack, List.map_cons, List.foldr_cons, List.flatten_cons] at ih ⊢
    rw [ih, List.zipWith_map_left, List.zipWith_map_right, List.zipWith_self]

theorem ownValue_set (dyn : List Int) (l : List ℝ) (q : Nat) (k : Int) (t : ℝ) (i : Nat) (hk : (firsts dyn)[q]? = some k)
    (hl : l.length = (firsts dyn).length) :
    ownValue dyn (l.set q t) i = if dyn[i]? = some k then t else ownValue dyn l i := by
  obtain ⟨hq, hqk⟩ := List.getElem?_eq_some_iff.1 hk
  unfold ownValue
  cases hd : dyn[i]? with
  | none => simp
  | some k' =>
    simp only [Option.some.injEq]
    by_cases e : k' = k
    · subst e
      have hx : (firsts dyn).idxOf k' = q := by
        rw [← hqk]
        exact (firsts_nodup dyn).idxOf_getElem q hq
      rw [if_pos rfl, hx]
      simp [List.getD_eq_getElem?_getD, List.getElem?_set_self (by omega : q < l.length)]
    · rw [if_neg e]
      have hm : k' ∈ firsts dyn := (mem_firsts _ _).2 (List.mem_of_getElem? hd)
      have hne : q ≠ (firsts dyn).idxOf k' := by
        intro hx
        apply e
        have := List.getElem_idxOf (List.idxOf_lt_length_of_mem hm)
        simp only [← hx] at this
        rw [← this, hqk]
      simp [List.getD_eq_getElem?_getD, List.getElem?_set_ne hne]

theorem ownValue_at (dyn : List Int) (l : List ℝ) (q : Nat) (k : Int) (i : Nat) (hk : (firsts dyn)[q]? = some k)
    (hi : dyn[i]? = some k) : ownValue dyn l i = l.getD q 0 := by
  obtain ⟨hq, hqk⟩ := List.getElem?_eq_some_iff.1 hk
  unfold ownValue
  rw [hi]
  have hx : (firsts dyn).idxOf k = q := by
    rw [← hqk]
    exact (firsts_nodup dyn).idxOf_getElem q hq
  simp only [hx]
  rfl

/-- The dyn-groups of a parameter are consecutive in the order of the fit-groups (see C42). -/
def Consecutive (gi col : List Int) : Prop :=
  ∀ I M, idxAssigns gi = .ok (I, M) → Contig (I.flatten.map fun i => col.getD i default)

/-- The derivative of the model at one observation in closed form. -/
theorem dfun_closed [Inhabited β] {m : JModel β} {F : β → List ℝ → ℝ} {data : Data β} {x0 : List ℝ} {defs : List (String × Param)}
    {dyns : Dict String (List Int)} {s : Setup} (hs : SetupSpec defs dyns s)
    (hkeys : dyns.keys = (fittedOf defs).map Prod.fst) (hnd : dyns.keys.Nodup) (hc : data.Complete s.gi.length)
    (hx : x0.length = s.gi.length) (hcons : ∀ c ∈ dyns.map Prod.snd, Consecutive s.gi c)
    {P : β → List ℝ → Prop} (hj : JacOk m F s.order data.inc P) (vals : List (List ℝ)) (hv : vals.map List.length = s.splitpos) (I : List (List Nat))
    (M : List (List Bool)) (h1 : idxAssigns s.gi = .ok (I, M)) (h2 : rectangularize (groupPos s.gi) = .ok (I, M))
    (h4 : ∀ r ∈ I, ∀ i ∈ r, i < s.gi.length) :
    ∃ D : String → Nat → ℝ, dfun m data x0 s vals.flatten = .ok ((unmask I M).map fun i =>
        (dyns.map fun kc => (firsts kc.2).map fun k => if kc.2[i]? = some k then D kc.1 i else 0).flatten) ∧
      ∀ (j : Nat) (key : String), s.order[j]? = some key → ∀ i, i ∈ I.flatten →
        ∀ pv : List ℝ, pv = ((dyns.map Prod.snd).zip vals).map (fun p => ownValue p.1 p.2 i) →
        P (data.inc.getD i default) pv → HasDerivAt (fun t => F (data.inc.getD i default) (pv.set j t)) (D key i) (pv.getD j 0) := by
  have hord : s.order = dyns.keys := by rw [hs.order, hkeys]
  have hlv : vals.length = (dyns.map Prod.snd).length := by
    have := congrArg List.length hv
    rw [hs.splitpos] at this
    simpa using this
  have hIf : ∀ i ∈ I.flatten, i < s.gi.length := by
    intro i hi
    obtain ⟨r, hr, hir⟩ := List.mem_flatten.1 hi
    exact h4 r hr i hir
  set inc' : List (List β) := I.map (List.map fun i => data.inc.getD i default) with hinc'
  have hincf : inc'.flatten = I.flatten.map fun i => data.inc.getD i default := by rw [hinc', List.map_flatten]
  have hmem : ∀ i ∈ I.flatten, data.inc.getD i default ∈ data.inc := by
    intro i hi
    have := hIf i hi
    rw [← hc.inc] at this
    rw [List.getD_eq_getElem?_getD, List.getElem?_eq_getElem this]
    exact List.getElem_mem this
  have hmem' : ∀ b ∈ inc'.flatten, b ∈ data.inc := by
    intro b hb
    rw [hincf] at hb
    obtain ⟨i, hi, rfl⟩ := List.mem_map.1 hb
    exact hmem i hi
  have hIne : I.flatten ≠ [] := by
    intro e
    have h3 : unmask I M = (groupPos s.gi).flatten := unmask_rect _ _ _ h2
    have hp := groupPos_perm s.gi
    rw [← h3] at hp
    have hl := hp.length_eq
    have hsub : unmask I M = [] := by
      rw [List.eq_nil_iff_forall_not_mem]
      intro i hi
      have : i ∈ I.flatten := by
        unfold unmask at hi
        obtain ⟨r, hr, hir⟩ := List.mem_flatten.1 hi
        rw [List.mem_iff_getElem?] at hr
        obtain ⟨n, hn⟩ := hr
        rw [List.getElem?_zipWith] at hn
        cases ha : I[n]? with
        | none => simp [ha] at hn
        | some a =>
          cases hb : M[n]? with
          | none => simp [ha, hb] at hn
          | some b =>
            simp only [ha, hb, Option.some.injEq] at hn
            subst hn
            obtain ⟨⟨u, w⟩, hu, rfl⟩ := List.mem_map.1 hir
            exact List.mem_flatten.2 ⟨a, List.mem_of_getElem? ha, (List.of_mem_zip (List.mem_filter.1 hu).1).1⟩
      rw [e] at this
      cases this
    rw [hsub] at hl
    have : s.gi.length = 0 := by simpa using hl.symm
    exact hs.gi_ne (List.length_eq_zero_iff.1 this)
  have hne' : inc'.flatten ≠ [] := by rw [hincf]; simpa using hIne
  -- outer and inner derivatives for each key
  have hall : ∀ key, ∃ (name : String) (G : β → List ℝ → ℝ) (ds : List ℝ), key ∈ s.order →
      (((∃ r ∈ m.props, key ∈ r.symbs ∧ name = r.name) ∨ ((∀ r ∈ m.props, key ∉ r.symbs) ∧ name = key)) ∧
      m.rjac name = .ok G ∧ innerAll m s.order inc' key = .ok ds ∧
      List.Forall₂ (fun b d => InnerAt m key b name d) inc'.flatten ds ∧
      ∀ j, s.order[j]? = some key → ∀ b ∈ data.inc, ∀ d, InnerAt m key b name d → ∀ pv : List ℝ, pv.length = s.order.length → P b pv →
        HasDerivAt (fun t => F b (pv.set j t)) (G b pv * d) (pv.getD j 0)) := by
    intro key
    by_cases hk : key ∈ s.order
    · obtain ⟨name, ds, e1, e2, e3⟩ := innerAll_spec m s.order inc' key hk hne' (hj.unshared key hk) (hj.linear key hk)
        (fun r hr hsy b hb => hj.known key hk r hr hsy b (hmem' b hb))
      obtain ⟨j, hjj⟩ := List.getElem?_of_mem hk
      obtain ⟨G, g1, g2⟩ := hj.deriv j key name hjj e2
      refine ⟨name, G, ds, fun _ => ⟨e2, g1, e1, e3, ?_⟩⟩
      intro j' hj'
      have : j' = j := by
        rw [hord] at hjj hj'
        obtain ⟨a1, a2⟩ := List.getElem?_eq_some_iff.1 hjj
        obtain ⟨b1, b2⟩ := List.getElem?_eq_some_iff.1 hj'
        exact (List.Nodup.getElem_inj_iff hnd).1 (b2.trans a2.symm)
      subst this
      exact g2
    · exact ⟨"", fun _ _ => 0, [], fun h => absurd h hk⟩
  choose name G ds hN using hall
  obtain ⟨φ, n1, n2, n3⟩ := neworder_spec (hord ▸ hnd) (props := m.props) hj.unshared hj.fresh
  have hφ : ∀ key ∈ s.order, φ key = name key := by
    intro key hk
    rcases (hN key hk).1 with ⟨r, hr, hsy, e⟩ | ⟨h, e⟩
    · rw [e, n2 key hk r hr hsy]
    · rw [e, n3 key hk h]
  have hnames : neworder s.order m.props = .ok (s.order.map name) := by
    rw [n1, List.map_congr_left hφ]
  have hincD := getData_spec s.gi I M h2 data.inc hc.inc
  have hpar := paramsOf_eq hs hkeys hnd vals hv
  set params := (dyns.map Prod.snd).zip vals with hparams
  have hplen : ∀ p ∈ params, p.1.length = s.gi.length ∧ p.2.length = p.1.dedup.length := by
    intro p hp
    rw [hparams] at hp
    obtain ⟨q, hq, rfl⟩ := List.getElem_of_mem hp
    rw [List.getElem_zip]
    have hq1 : q < (dyns.map Prod.snd).length := by
      have := hq; rw [List.length_zip] at this; omega
    have hq2 : q < vals.length := by omega
    refine ⟨(hs.refines _ (List.getElem_mem hq1)).1, ?_⟩
    have := congrArg (fun l => l[q]?) (hv.trans hs.splitpos)
    simp only [List.getElem?_map] at this
    rw [List.getElem?_eq_getElem hq2] at this
    rw [List.length_map] at hq1
    rw [List.getElem?_eq_getElem hq1] at this
    simpa using this
  have hpars : params.mapM (fun p => assignVals s.gi x0 p.1 p.2) =
      .ok (params.map fun p => I.map (List.map (ownValue p.1 p.2))) := by
    rw [mapM_ok_iff, List.forall₂_map_right_iff, List.forall₂_same]
    intro p hpm
    obtain ⟨a, b⟩ := hplen p hpm
    exact assignVals_spec s.gi I M h1 h4 x0 p.1 p.2 hx a (by rw [firsts_length_dedup]; exact b)
  let pvAt : Nat → List ℝ := fun i => params.map fun p => ownValue p.1 p.2 i
  have hcm : ∀ g : β → List ℝ → ℝ, (calcModel g inc' (params.map fun p => I.map (List.map (ownValue p.1 p.2)))).flatten =
      I.flatten.map fun i => g (data.inc.getD i default) (pvAt i) := by
    intro g
    have := calcModel_map g I (fun i => data.inc.getD i default) (params.map fun p => ownValue p.1 p.2)
    rw [List.map_map] at this
    simp only [Function.comp_def, List.map_map] at this
    rw [hinc', this, List.map_flatten]
  have houter : (s.order.map name).mapM (outerVals m inc' (params.map fun p => I.map (List.map (ownValue p.1 p.2)))) =
      .ok (s.order.map fun key => I.flatten.map fun i => G key (data.inc.getD i default) (pvAt i)) := by
    rw [mapM_ok_iff, List.forall₂_map_left_iff, List.forall₂_map_right_iff, List.forall₂_same]
    intro key hk
    simp only [outerVals, (hN key hk).2.1, bind, Except.bind, pure, Except.pure, hcm]
  -- the inner derivatives as functions of the position
  have hds : ∀ key, ∃ ι : Nat → ℝ, key ∈ s.order → ds key = I.flatten.map ι ∧
      ∀ i ∈ I.flatten, InnerAt m key (data.inc.getD i default) (name key) (ι i) := by
    intro key
    by_cases hk : key ∈ s.order
    · have hf := (hN key hk).2.2.2.1
      rw [hincf, List.forall₂_map_left_iff] at hf
      have hex : ∀ i, i ∈ I.flatten → ∃ d, InnerAt m key (data.inc.getD i default) (name key) d := by
        intro i hi
        obtain ⟨n, hn⟩ := List.getElem?_of_mem hi
        obtain ⟨hn1, hn2⟩ := List.getElem?_eq_some_iff.1 hn
        have := List.Forall₂.get hf (i := n) hn1 (by rw [← hf.length_eq]; exact hn1)
        simp only [List.get_eq_getElem, hn2] at this
        exact ⟨_, this⟩
      have huniq : ∀ i d d', InnerAt m key (data.inc.getD i default) (name key) d →
          InnerAt m key (data.inc.getD i default) (name key) d' → d = d' := by
        intro i d d' a b
        rcases a with ⟨r, hr, hsy, -, e⟩ | ⟨h, -, e⟩
        · rcases b with ⟨r', hr', hsy', -, e'⟩ | ⟨h', -, e'⟩
          · obtain ⟨p, hp⟩ := List.getElem?_of_mem hr
            obtain ⟨q, hq⟩ := List.getElem?_of_mem hr'
            have := hj.unshared key hk p q r r' hp hq hsy hsy'
            subst this
            rw [hp] at hq
            cases hq
            rw [e] at e'
            cases e'
            rfl
          · exact absurd hsy (h' r hr)
        · rcases b with ⟨r', hr', hsy', -, e'⟩ | ⟨h', -, e'⟩
          · exact absurd hsy' (h r' hr')
          · rw [e, e']
      have hex' : ∀ i, ∃ d, i ∈ I.flatten → InnerAt m key (data.inc.getD i default) (name key) d := by
        intro i
        by_cases hi : i ∈ I.flatten
        · obtain ⟨d, hd⟩ := hex i hi
          exact ⟨d, fun _ => hd⟩
        · exact ⟨0, fun h => absurd h hi⟩
      choose ι hι using hex'
      refine ⟨ι, fun _ => ⟨?_, hι⟩⟩
      have : List.Forall₂ (fun i d => d = ι i) I.flatten (ds key) := by
        have h' : List.Forall₂ (fun i d => i ∈ I.flatten ∧ InnerAt m key (data.inc.getD i default) (name key) d) I.flatten (ds key) := by
          rw [List.forall₂_iff_get] at hf ⊢
          exact ⟨hf.1, fun n a b => ⟨List.get_mem _ _, hf.2 n a b⟩⟩
        exact h'.imp fun i d hid => huniq i _ _ hid.2 (hι i hid.1)
      have h2 := List.forall₂_map_left_iff (f := ι) (R := fun a b => b = a) (l := I.flatten) (u := ds key) |>.2 this
      have h3 : List.Forall₂ Eq (I.flatten.map ι) (ds key) := h2.imp fun _ _ e => e.symm
      exact (List.forall₂_eq_eq_eq ▸ h3).symm
    · exact ⟨fun _ => 0, fun h => absurd h hk⟩
  choose ι hι using hds
  refine ⟨fun key i => G key (data.inc.getD i default) (pvAt i) * ι key i, ?_, ?_⟩
  · have hcols : (s.order.zip (s.order.map fun key => I.flatten.map fun i => G key (data.inc.getD i default) (pvAt i))).mapM
        (keyCols m s inc') = .ok (dyns.map fun kc => (unmask I M).map fun i => (firsts kc.2).map fun k =>
          if kc.2[i]? = some k then G kc.1 (data.inc.getD i default) (pvAt i) * ι kc.1 i else 0) := by
      rw [hord]
      have hz : dyns.keys.zip (dyns.keys.map fun key => I.flatten.map fun i => G key (data.inc.getD i default) (pvAt i)) =
          dyns.map fun kc => (kc.1, I.flatten.map fun i => G kc.1 (data.inc.getD i default) (pvAt i)) := by
        have : dyns.keys = dyns.map Prod.fst := rfl
        rw [this, List.map_map, List.zip_map', ]
        rfl
      rw [hz, mapM_ok_iff, List.forall₂_map_left_iff, List.forall₂_map_right_iff, List.forall₂_same]
      intro kc hkc
      have hk : kc.1 ∈ s.order := by rw [hord]; exact List.mem_map.2 ⟨kc, hkc, rfl⟩
      have hcm : kc.2 ∈ dyns.map Prod.snd := List.mem_map.2 ⟨kc, hkc, rfl⟩
      have hg : Dict.get? dyns kc.1 = some kc.2 := (Dict.get?_iff_mem hnd _ _).2 hkc
      obtain ⟨r1, r2⟩ := hs.refines _ hcm
      simp only [keyCols, (hN _ hk).2.2.1, hs.dyns, Dict.getItem, hg, bind, Except.bind, (hι _ hk).1]
      exact jacobian_spec s.gi kc.2 I M h2 hs.gi_ne r1 h4 r2 (hcons _ hcm I M h1) _ _
    have hlen : (unmask inc' M).length = (unmask I M).length := by rw [hinc', unmask_map, List.length_map]
    rw [← hinc'] at hincD
    simp only [dfun, hpar, bind, Except.bind, hincD, hpars, hnames, houter, hcols, pure, Except.pure, hlen]
    rw [hstack_map (unmask I M) (fun (kc : String × List Int) i => (firsts kc.2).map fun k =>
      if kc.2[i]? = some k then G kc.1 (data.inc.getD i default) (pvAt i) * ι kc.1 i else 0) dyns]
  · intro j key hjk i hi pv hpv hP
    have hk : key ∈ s.order := List.mem_of_getElem? hjk
    subst hpv
    refine (hN key hk).2.2.2.2 j hjk _ (hmem i hi) _ ((hι key hk).2 i hi) _ ?_ hP
    rw [List.length_map, List.length_zip, hlv, hord]
    simp [Dict.keys]

theorem map_set_own (cols : List (List Int)) (vals : List (List ℝ)) (j q : Nat) (l : List ℝ) (t : ℝ) (i : Nat) (col : List Int) (k : Int)
    (hc : cols[j]? = some col) (hl : vals[j]? = some l) (hk : (firsts col)[q]? = some k) (hlen : l.length = (firsts col).length) :
    (cols.zip (vals.set j (l.set q t))).map (fun p => ownValue p.1 p.2 i) =
      if col[i]? = some k then ((cols.zip vals).map fun p => ownValue p.1 p.2 i).set j t
      else (cols.zip vals).map fun p => ownValue p.1 p.2 i := by
  have hown := ownValue_set col l q k t i hk hlen
  obtain ⟨hc1, hc2⟩ := List.getElem?_eq_some_iff.1 hc
  obtain ⟨hl1, hl2⟩ := List.getElem?_eq_some_iff.1 hl
  by_cases h : col[i]? = some k
  · rw [if_pos h] at hown ⊢
    apply List.ext_getElem (by simp)
    intro n h1 h2
    simp only [List.getElem_map, List.getElem_zip, List.getElem_set]
    by_cases e : j = n
    · subst e
      simp only [if_pos, hc2, hown]
    · simp only [if_neg e]
  · rw [if_neg h] at hown ⊢
    apply List.ext_getElem (by simp)
    intro n h1 h2
    simp only [List.getElem_map, List.getElem_zip, List.getElem_set]
    by_cases e : j = n
    · subst e
      simp only [if_pos, hc2, hown, hl2]
    · simp only [if_neg e]

/-- The values of the parameters for each observation (as given by the vector `x`) satisfy `P`. -/
def HoldsAt (data : Data β) (dyns : Dict String (List Int)) (s : Setup) (x : List ℝ) (P : β → List ℝ → Prop) : Prop :=
  ∀ vals : List (List ℝ), vals.map List.length = s.splitpos → x = vals.flatten → ∀ (i : Nat) (t : β) (pv : List ℝ), data.inc[i]? = some t →
    List.Forall₂ (fun p v => IsOwnValue p.1 p.2 i v) ((dyns.map Prod.snd).zip vals) pv → P t pv

/-- C111: the jacobian that is handed over to the solver can be evaluated for all values of the parameters, it has one row for each residual
and one column for each parameter-value, and each entry, multiplied by the weight of the observation, is the derivative of the residual.

Full statement: each entry *is* the derivative of the residual, for all fits.  This is false for weighted data (`C111_weights_fails`), if the
expressions of tau, omega and NormBRDF are nonlinear in the fitted symbols (`C111_nonlinear_fails`), if a fitted symbol is used in more than
one place (`C111_shared_fails`, `C111_phase_fails`), and for dyn-groups that are not consecutive (`C42_fails`); for the interaction-term see
the documentation of `performfit` (it is neglected).  `JacOk` is discharged for the radiative transfer model in `C111_model_partial`. -/
theorem C111_derivative_partial {lib : Lib τ} {m : JModel β} {F : β → List ℝ → ℝ} {index : List τ} {data : Data β} {x0 : List ℝ}
    {defs : List (String × Param)} {dyns : Dict String (List Int)} (hv : Valid lib index data x0 defs dyns) {s : Setup}
    (hs : setup lib index defs = .ok s) (hcons : ∀ c ∈ dyns.map Prod.snd, Consecutive s.gi c) {P : β → List ℝ → Prop}
    (hj : JacOk m F s.order data.inc P) (x : List ℝ) (hx : x.length = s.splitpos.sum) (hP : HoldsAt data dyns s x P) :
    ∃ (r : List ℝ) (J : List (List ℝ)) (obs : List Nat), resid F data x0 s x = .ok r ∧ dfun m data x0 s x = .ok J ∧ obs.Perm (List.range index.length) ∧
      J.length = r.length ∧ obs.length = r.length ∧
      ∀ n i row, obs[n]? = some i → J[n]? = some row →
        (∃ pv t y, data.inc[i]? = some t ∧ data.sig[i]? = some y ∧ r[n]? = some (data.weight i * (F t pv - y))) ∧
        row.length = x.length ∧
        ∀ c v, row[c]? = some v →
          HasDerivAt (fun t => residAt F data x0 s n (x.set c t)) (data.weight i * v) (x.getD c 0) := by
  obtain ⟨hspec, hgl, hkeys, -⟩ := setup_spec lib hv.libOk index defs hv.names hv.fitted dyns hv.dyns hv.obs hv.regular hv.bounds s hs
  have hnd : dyns.keys.Nodup := by
    rw [hkeys]
    exact List.Sublist.nodup (List.Sublist.map _ List.filter_sublist) hv.names
  have hcomp : data.Complete s.gi.length := by rw [hgl]; exact hv.complete
  have hx0 : x0.length = s.gi.length := by rw [hgl]; exact hv.empty
  have hpos : 0 < s.gi.length := List.length_pos_iff.2 hspec.gi_ne
  have : Inhabited β := ⟨data.inc[0]'(by rw [hcomp.inc]; exact hpos)⟩
  obtain ⟨I, M, h1, h2, h3, h4⟩ := idxAssigns_spec s.gi hspec.gi_ne
  obtain ⟨vals, hvl, rfl⟩ := exists_split s.splitpos x hx
  set cols := dyns.map Prod.snd with hcols
  have hplen : ∀ vs : List (List ℝ), vs.map List.length = s.splitpos → ∀ p ∈ cols.zip vs,
      p.1.length = s.gi.length ∧ p.2.length = p.1.dedup.length := by
    intro vs hvs p hp
    obtain ⟨q, hq, rfl⟩ := List.getElem_of_mem hp
    rw [List.getElem_zip]
    have hq1 : q < cols.length := by
      have := hq; rw [List.length_zip] at this; omega
    have hq2 : q < vs.length := by
      have := hq; rw [List.length_zip] at this; omega
    refine ⟨(hspec.refines _ (List.getElem_mem hq1)).1, ?_⟩
    have := congrArg (fun l => l[q]?) (hvs.trans hspec.splitpos)
    simp only [List.getElem?_map] at this
    rw [List.getElem?_eq_getElem hq2] at this
    rw [hcols, List.length_map] at hq1
    rw [List.getElem?_eq_getElem hq1] at this
    simpa [hcols] using this
  -- residuals for all values
  have hres : ∀ vs : List (List ℝ), vs.map List.length = s.splitpos → resid F data x0 s vs.flatten = .ok ((unmask I M).map fun i =>
      data.weight i * (F (data.inc.getD i default) ((cols.zip vs).map fun p => ownValue p.1 p.2 i) - data.sig.getD i default)) := by
    intro vs hvs
    have hp := paramsOf_eq hspec hkeys hnd vs hvs
    have := residuals_closed F s.gi data x0 (cols.zip vs) hcomp hx0 I M h1 h2 h4 (hplen vs hvs)
    rw [← this]
    unfold paramsOf at hp
    unfold resid
    rw [hp]
    rfl
  obtain ⟨D, hD1, hD2⟩ := dfun_closed hspec hkeys hnd hcomp hx0 hcons hj vals hvl I M h1 h2 h4
  refine ⟨_, _, unmask I M, hres vals hvl, hD1, ?_, by simp, by simp, ?_⟩
  · rw [h3, ← hgl]; exact groupPos_perm s.gi
  intro n i row hni hrow
  rw [List.getElem?_map, hni] at hrow
  simp only [Option.map_some, Option.some.injEq] at hrow
  have him : i ∈ unmask I M := List.mem_of_getElem? hni
  have hil : i < s.gi.length := by
    rw [h3] at him
    exact List.mem_range.1 ((groupPos_perm s.gi).mem_iff.1 him)
  have hif : i ∈ I.flatten := by
    unfold unmask at him
    obtain ⟨r, hr, hir⟩ := List.mem_flatten.1 him
    rw [List.mem_iff_getElem?] at hr
    obtain ⟨n, hn⟩ := hr
    rw [List.getElem?_zipWith] at hn
    cases ha : I[n]? with
    | none => simp [ha] at hn
    | some a =>
      cases hb : M[n]? with
      | none => simp [ha, hb] at hn
      | some b =>
        simp only [ha, hb, Option.some.injEq] at hn
        subst hn
        obtain ⟨⟨u, w⟩, hu, rfl⟩ := List.mem_map.1 hir
        exact List.mem_flatten.2 ⟨a, List.mem_of_getElem? ha, (List.of_mem_zip (List.mem_filter.1 hu).1).1⟩
  have hlv : vals.length = cols.length := by
    have := congrArg List.length hvl
    rw [hspec.splitpos] at this
    simpa [hcols] using this
  -- lengths
  have hrl : (dyns.map fun kc => (firsts kc.2).map fun k => if kc.2[i]? = some k then D kc.1 i else 0).map List.length =
      vals.map List.length := by
    rw [hvl, hspec.splitpos]
    simp only [List.map_map, Function.comp_def, List.length_map, firsts_length_dedup]
  refine ⟨⟨(cols.zip vals).map fun p => ownValue p.1 p.2 i, data.inc.getD i default, data.sig.getD i default, ?_, ?_, ?_⟩, ?_, ?_⟩
  · rw [List.getD_eq_getElem?_getD, List.getElem?_eq_getElem (by rw [hcomp.inc]; exact hil)]; rfl
  · rw [List.getD_eq_getElem?_getD, List.getElem?_eq_getElem (by rw [hcomp.sig]; exact hil)]; rfl
  · rw [List.getElem?_map, hni]; rfl
  · rw [← hrow, List.length_flatten, hrl, List.length_flatten]
  intro c v hcv
  have hcl : c < vals.flatten.length := by
    have := (List.getElem?_eq_some_iff.1 hcv).1
    rw [← hrow, List.length_flatten, hrl, ← List.length_flatten] at this
    exact this
  obtain ⟨j, q, l, f1, f2, f3, f4, f5⟩ := flat_index vals c hcl
  have hcv' := f5 _ hrl
  rw [hrow, hcv] at hcv'
  obtain ⟨hjl, hjv⟩ := List.getElem?_eq_some_iff.1 f1
  have hjd : j < dyns.length := by rw [hlv, hcols, List.length_map] at hjl; exact hjl
  have hcol : cols[j]? = some (dyns[j]).2 := by rw [hcols, List.getElem?_map, List.getElem?_eq_getElem hjd]; rfl
  have hkey : s.order[j]? = some (dyns[j]).1 := by
    rw [hspec.order, ← hkeys]
    show (dyns.map Prod.fst)[j]? = _
    rw [List.getElem?_map, List.getElem?_eq_getElem hjd]; rfl
  have hllen : l.length = (firsts (dyns[j]).2).length := by
    have := congrArg (fun l => l[j]?) hrl
    simp only [List.getElem?_map, f1, List.getElem?_eq_getElem hjd] at this
    simpa using this.symm
  have hq : (firsts (dyns[j]).2)[q]? = some ((firsts (dyns[j]).2)[q]'(by omega)) := List.getElem?_eq_getElem (by omega)
  set k := (firsts (dyns[j]).2)[q]'(by omega) with hk
  have hvv : v = if (dyns[j]).2[i]? = some k then D (dyns[j]).1 i else 0 := by
    rw [List.getElem?_map, List.getElem?_eq_getElem hjd] at hcv'
    simp only [Option.map_some, Option.bind_some, List.getElem?_map, hq, Option.some.injEq] at hcv'
    exact hcv'
  have hval : vals.flatten.getD c 0 = l.getD q 0 := by
    rw [List.getD_eq_getElem?_getD, f3, List.getD_eq_getElem?_getD]
  set pv := (cols.zip vals).map fun p => ownValue p.1 p.2 i with hpv
  -- the residual as a function of the value
  have hfun : (fun t => residAt F data x0 s n (vals.flatten.set c t)) = fun t => data.weight i *
      (F (data.inc.getD i default) (if (dyns[j]).2[i]? = some k then pv.set j t else pv) - data.sig.getD i default) := by
    funext t
    have hset : (vals.set j (l.set q t)).map List.length = s.splitpos := by
      rw [← hvl, List.map_set, List.length_set]
      apply List.ext_getElem (by simp)
      intro n' _ _
      rw [List.getElem_set]
      split
      · rename_i e
        subst e
        rw [List.getElem_map, hjv]
      · rfl
    unfold residAt
    rw [f4 t, hres _ hset]
    simp only
    rw [List.getD_eq_getElem?_getD, List.getElem?_map, hni]
    simp only [Option.map_some, Option.getD_some]
    rw [map_set_own cols vals j q l t i _ k hcol f1 hq hllen]
  rw [hfun, hvv, hval]
  by_cases hd : (dyns[j]).2[i]? = some k
  · simp only [if_pos hd]
    have hder := hD2 j _ hkey i hif pv rfl (hP vals hvl rfl i _ pv (by
      rw [List.getD_eq_getElem?_getD, List.getElem?_eq_getElem (by rw [hcomp.inc]; exact hil)]; rfl) (by
      rw [hpv, List.forall₂_map_right_iff, List.forall₂_same]
      intro p hp
      obtain ⟨a, b⟩ := hplen vals hvl p hp
      rw [isOwnValue_iff _ _ _ _ (by omega) (by rw [firsts_length_dedup]; exact b)]))
    have hown : pv.getD j 0 = l.getD q 0 := by
      rw [hpv, List.getD_eq_getElem?_getD, List.getElem?_map, List.getElem?_eq_getElem (by rw [List.length_zip]; omega)]
      simp only [List.getElem_zip, Option.map_some, Option.getD_some]
      have e1 : cols[j]'(by omega) = (dyns[j]).2 := by
        rw [List.getElem?_eq_getElem (by omega)] at hcol
        exact Option.some.inj hcol
      rw [e1, hjv]
      exact ownValue_at _ _ _ k i hq hd
    rw [hown] at hder
    exact (hder.sub_const _).const_mul _
  · simp only [if_neg hd, mul_zero]
    exact hasDerivAt_const _ _

/-- C111: without weights, the jacobian is the derivative of the residuals. -/
theorem C111_unweighted_partial {lib : Lib τ} {m : JModel β} {F : β → List ℝ → ℝ} {index : List τ} {data : Data β} {x0 : List ℝ}
    {defs : List (String × Param)} {dyns : Dict String (List Int)} (hv : Valid lib index data x0 defs dyns) {s : Setup}
    (hs : setup lib index defs = .ok s) (hcons : ∀ c ∈ dyns.map Prod.snd, Consecutive s.gi c) {P : β → List ℝ → Prop}
    (hj : JacOk m F s.order data.inc P) (hw : data.weights = none) (x : List ℝ) (hx : x.length = s.splitpos.sum)
    (hP : HoldsAt data dyns s x P) :
    ∃ (r : List ℝ) (J : List (List ℝ)), resid F data x0 s x = .ok r ∧ dfun m data x0 s x = .ok J ∧ r.length = index.length ∧
      J.length = r.length ∧ ∀ n row, J[n]? = some row → row.length = x.length ∧ ∀ c v, row[c]? = some v →
        HasDerivAt (fun t => residAt F data x0 s n (x.set c t)) v (x.getD c 0) := by
  obtain ⟨r, J, obs, h1, h2, h3, h4, h5, h6⟩ := C111_derivative_partial hv hs hcons hj x hx hP
  refine ⟨r, J, h1, h2, by rw [← h5, h3.length_eq, List.length_range], h4, fun n row hrow => ?_⟩
  have hn : n < obs.length := by rw [h5, ← h4]; exact (List.getElem?_eq_some_iff.1 hrow).1
  obtain ⟨-, a, b⟩ := h6 n _ row (List.getElem?_eq_getElem hn) hrow
  refine ⟨a, fun c v hcv => ?_⟩
  have := b c v hcv
  simpa [Data.weight, hw] using this

/-- C111: whenever the weight of an observation is not 1, no nonzero entry in the row of this observation is the derivative of the
residual. -/
theorem C111_weights_fails {lib : Lib τ} {m : JModel β} {F : β → List ℝ → ℝ} {index : List τ} {data : Data β} {x0 : List ℝ}
    {defs : List (String × Param)} {dyns : Dict String (List Int)} (hv : Valid lib index data x0 defs dyns) {s : Setup}
    (hs : setup lib index defs = .ok s) (hcons : ∀ c ∈ dyns.map Prod.snd, Consecutive s.gi c) {P : β → List ℝ → Prop}
    (hj : JacOk m F s.order data.inc P) (x : List ℝ) (hx : x.length = s.splitpos.sum) (hP : HoldsAt data dyns s x P) :
    ∃ (J : List (List ℝ)) (obs : List Nat), dfun m data x0 s x = .ok J ∧ obs.Perm (List.range index.length) ∧ obs.length = J.length ∧
      ∀ (n i : Nat) (row : List ℝ) (c : Nat) (v : ℝ), obs[n]? = some i → data.weight i ≠ 1 → J[n]? = some row → row[c]? = some v → v ≠ 0 →
        ¬ HasDerivAt (fun t => residAt F data x0 s n (x.set c t)) v (x.getD c 0) := by
  obtain ⟨r, J, obs, h1, h2, h3, h4, h5, h6⟩ := C111_derivative_partial hv hs hcons hj x hx hP
  refine ⟨J, obs, h2, h3, h5.trans h4.symm, fun n i row c v hi hw hrow hcv hv0 hd => ?_⟩
  have := hd.unique ((h6 n i row hi hrow).2.2 c v hcv)
  exact hw (mul_right_cancel₀ hv0 (by rw [one_mul]; exact this.symm))

/-! ### expressions that are not linear in the fitted symbols -/

theorem foldlM_ok_mem {α γ : Type} {f : α → γ → Except PyErr α} : ∀ {l : List γ} {a b : α}, l.foldlM f a = .ok b → ∀ c ∈ l,
    ∃ a' b', f a' c = .ok b' := by
  intro l
  induction l with
  | nil => intro a b _ c hc; cases hc
  | cons d l ih =>
    intro a b h c hc
    rw [List.foldlM_cons] at h
    cases hd : f a d with
    | error e => rw [hd] at h; cases h
    | ok a' =>
      rw [hd] at h
      rcases List.mem_cons.1 hc with rfl | hc
      · exact ⟨a, a', hd⟩
      · exact ih h c hc

theorem dfun_ok {m : JModel β} {data : Data β} {x0 : List ℝ} {s : Setup} {x : List ℝ} {J : List (List ℝ)}
    (h : dfun m data x0 s x = .ok J) : ∃ inc names outer cols, neworder s.order m.props = .ok names ∧ outer.length = names.length ∧
      (s.order.zip outer).mapM (keyCols m s inc) = .ok cols := by
  unfold dfun at h
  simp only [bind, Except.bind] at h
  split at h
  · cases h
  rename_i params _
  split at h
  · cases h
  rename_i im _
  split at h
  · cases h
  split at h
  · cases h
  rename_i names hn
  split at h
  · cases h
  rename_i outer ho
  split at h
  · cases h
  rename_i cols hc
  exact ⟨im.1, names, outer, cols, hn, ((mapM_ok_iff _ _ _).1 ho).length_eq.symm, hc⟩

theorem replaceAt_length {n i : String} {l l' : List String} (h : replaceAt n l i = .ok l') : l'.length = l.length := by
  unfold replaceAt at h
  split at h
  · cases h; simp
  · cases h

theorem steps_length : ∀ {S : List (String × String)} {l l' : List String},
    S.foldlM (fun l kn => replaceAt kn.2 l kn.1) l = .ok l' → l'.length = l.length := by
  intro S
  induction S with
  | nil => intro l l' h; cases h; rfl
  | cons a S ih =>
    intro l l' h
    rw [List.foldlM_cons] at h
    cases hd : replaceAt a.2 l a.1 with
    | error e => rw [hd] at h; cases h
    | ok l1 =>
      rw [hd] at h
      rw [ih h, replaceAt_length hd]

/-- C111: if the expression of tau, omega or NormBRDF is not linear in the fitted symbols (i.e. its derivative with respect to a fitted
symbol depends on fitted symbols, e.g. `tau = x**2` or `tau = x * y`), the jacobian can not be evaluated: the fit raises an exception, for
all data and all values of the parameters. -/
theorem C111_nonlinear_fails (m : JModel β) (data : Data β) (x0 : List ℝ) (s : Setup) (x : List ℝ) (key : String) (r : PropDef)
    (hk : key ∈ s.order) (hr : r ∈ m.props) (hs : key ∈ r.symbs) (hne : (r.diff key).symbs ≠ [])
    (hfit : ∀ y ∈ (r.diff key).symbs, y ∈ s.order) (J : List (List ℝ)) : dfun m data x0 s x ≠ .ok J := by
  intro h
  obtain ⟨inc, names, outer, cols, h1, h2, h3⟩ := dfun_ok h
  have hl : names.length = s.order.length := by
    unfold neworder at h1
    rw [neworder_steps] at h1
    exact steps_length h1
  obtain ⟨j, hj⟩ := List.getElem?_of_mem hk
  have hjl := (List.getElem?_eq_some_iff.1 hj).1
  have hf := (mapM_ok_iff _ _ _).1 h3
  have hz : (s.order.zip outer)[j]? = some (key, outer[j]'(by omega)) := by
    rw [List.getElem?_eq_getElem (by rw [List.length_zip]; omega), List.getElem_zip]
    rw [List.getElem?_eq_getElem hjl, Option.some.injEq] at hj
    rw [hj]
  have hzl := (List.getElem?_eq_some_iff.1 hz)
  have := List.Forall₂.get hf (i := j) hzl.1 (by rw [← hf.length_eq]; exact hzl.1)
  simp only [List.get_eq_getElem, hzl.2] at this
  unfold keyCols at this
  cases hi : innerAll m s.order inc key with
  | error e => simp [hi, bind, Except.bind] at this
  | ok ds =>
    obtain ⟨a, b, hab⟩ := foldlM_ok_mem hi r hr
    obtain ⟨y, hy⟩ := List.exists_mem_of_ne_nil _ hne
    simp only [innerStep, if_pos hs, innerVals, if_neg hne] at hab
    rw [if_neg (fun h => h y hy (hfit y hy)), if_pos hfit] at hab
    cases hab

/-! ### symbols that are used more than once -/

/-- C111: if a fitted symbol is used in two of tau, omega and NormBRDF (and is not called like one of them), the jacobian can not be
evaluated. -/
theorem C111_shared_fails (m : JModel β) (data : Data β) (x0 : List ℝ) (s : Setup) (x : List ℝ) (key : String) (hnd : s.order.Nodup)
    (hk : key ∈ s.order) (hn : ∀ r ∈ m.props, r.name ≠ key) (p q : Nat) (hpq : p < q) (r r' : PropDef) (hp : m.props[p]? = some r)
    (hq : m.props[q]? = some r') (hs : key ∈ r.symbs) (hs' : key ∈ r'.symbs) (J : List (List ℝ)) : dfun m data x0 s x ≠ .ok J := by
  intro h
  obtain ⟨inc, names, outer, cols, h1, -, -⟩ := dfun_ok h
  unfold neworder at h1
  rw [neworder_steps] at h1
  -- the number of occurrences of the key decreases by one with each replacement
  have hcount : ∀ (S : List (String × String)) (l l' : List String), (∀ kn ∈ S, kn.2 ≠ key) →
      S.foldlM (fun l kn => replaceAt kn.2 l kn.1) l = .ok l' → l'.count key + (S.map Prod.fst).count key = l.count key := by
    intro S
    induction S with
    | nil => intro l l' _ h; cases h; simp
    | cons a S ih =>
      intro l l' hS h
      rw [List.foldlM_cons] at h
      cases hd : replaceAt a.2 l a.1 with
      | error e => rw [hd] at h; cases h
      | ok l1 =>
        rw [hd] at h
        have e1 := ih l1 l' (fun kn hkn => hS kn (by simp [hkn])) h
        have ha : a.2 ≠ key := hS a (by simp)
        unfold replaceAt at hd
        split at hd
        · rename_i hm
          cases hd
          have hlt := List.idxOf_lt_length_of_mem hm
          rw [List.count_set hlt, List.getElem_idxOf hlt] at e1
          rw [List.map_cons, List.count_cons]
          have hb : (a.2 == key) = false := by simpa using ha
          rw [hb] at e1
          by_cases e : a.1 = key
          · have hb' : (a.1 == key) = true := by simpa using e
            have hpos : 0 < l.count key := List.count_pos_iff.2 (e ▸ hm)
            simp only [hb', if_true, Bool.false_eq_true, if_false] at e1 ⊢
            omega
          · have hb' : (a.1 == key) = false := by simpa using e
            simp only [hb', Bool.false_eq_true, if_false] at e1 ⊢
            omega
        · cases hd
  have hS : ∀ kn ∈ steps s.order m.props, kn.2 ≠ key := by
    rintro ⟨k, n⟩ hkn
    obtain ⟨r, hr, -, -, rfl⟩ := mem_steps.1 hkn
    exact hn r hr
  have hc := hcount _ _ _ hS h1
  have h2 : 2 ≤ ((steps s.order m.props).map Prod.fst).count key := by
    have e : (steps s.order m.props).map Prod.fst = m.props.flatMap fun r => s.order.filter fun k => decide (k ∈ r.symbs) := by
      simp [steps, List.map_flatMap, List.map_map, Function.comp_def]
    rw [e]
    have hone : ∀ r : PropDef, key ∈ r.symbs → 1 ≤ (s.order.filter fun k => decide (k ∈ r.symbs)).count key := by
      intro r hr
      exact List.count_pos_iff.2 (List.mem_filter.2 ⟨hk, by simpa using hr⟩)
    obtain ⟨hp1, hp2⟩ := List.getElem?_eq_some_iff.1 hp
    obtain ⟨hq1, hq2⟩ := List.getElem?_eq_some_iff.1 hq
    have hsplit : m.props = m.props.take q ++ m.props.drop q := (List.take_append_drop q m.props).symm
    rw [hsplit, List.flatMap_append, List.count_append]
    have a1 : 1 ≤ (((m.props.take q).flatMap fun r => s.order.filter fun k => decide (k ∈ r.symbs))).count key := by
      refine List.count_pos_iff.2 (List.mem_flatMap.2 ⟨r, ?_, List.mem_filter.2 ⟨hk, by simpa using hs⟩⟩)
      rw [← hp2]
      exact List.mem_take_iff_getElem.2 ⟨p, by omega, rfl⟩
    have a2 : 1 ≤ (((m.props.drop q).flatMap fun r => s.order.filter fun k => decide (k ∈ r.symbs))).count key := by
      refine List.count_pos_iff.2 (List.mem_flatMap.2 ⟨r', ?_, List.mem_filter.2 ⟨hk, by simpa using hs'⟩⟩)
      rw [← hq2]
      exact List.mem_drop_iff_getElem.2 ⟨0, by omega, by simp⟩
    omega
  have h3 : s.order.count key ≤ 1 := List.nodup_iff_count_le_one.1 hnd key
  omega

/-! ### the radiative transfer model -/

/-- The modelled backscatter of an observation. -/
noncomputable def rtF (R : RTDef) (order : List String) (b : Obs) (pv : List ℝ) : ℝ :=
  backscatter R.dB R.sig0 (elemAt R order b pv)

/-- The derivative of an expression with respect to a symbol. -/
def IsDiff (e : Expr) (key : String) (d : Expr) : Prop :=
  ∀ ρ : String → ℝ, HasDerivAt (fun t => val (Function.update ρ key t) e) (val ρ d) (ρ key)

/-- The phase functions do not depend on a symbol. -/
def PhaseIndep (o : Elem) (key : String) : Prop :=
  ∀ (ρ : Env) (t : ℝ), o.brdf (Function.update ρ key t) = o.brdf ρ ∧ o.p (Function.update ρ key t) = o.p ρ

theorem val_update (ρ : String → ℝ) (key : String) (t : ℝ) : ∀ e : Expr, key ∉ e.symbs → val (Function.update ρ key t) e = val ρ e
  | .num _, _ => rfl
  | .sym s, h => by
    simp only [Expr.symbs, List.mem_singleton] at h
    simp only [val, Function.update_of_ne (Ne.symm h)]
  | .un f a, h => by
    simp only [Expr.symbs] at h
    simp only [val, val_update ρ key t a h]
  | .bin f a b, h => by
    simp only [Expr.symbs, List.mem_append, not_or] at h
    simp only [val, val_update ρ key t a h.1, val_update ρ key t b h.2]

theorem eval_val {err : PyErr} (d : Dict String ℝ) (ρ : String → ℝ) : ∀ (e : Expr) (v : ℝ),
    (∀ s ∈ e.symbs, ∀ x, Dict.get? d s = some x → ρ s = x) → e.eval err d = .ok v → v = val ρ e
  | .num x, v, _, h => by cases h; rfl
  | .sym s, v, hs, h => by
    simp only [Expr.eval] at h
    split at h
    · rename_i x hx
      cases h
      exact (hs s (by simp [Expr.symbs]) _ hx).symm
    · cases h
  | .un f a, v, hs, h => by
    simp only [Expr.eval, bind, Except.bind] at h
    split at h
    · cases h
    · rename_i w hw
      cases h
      simp only [val, ← eval_val d ρ a w hs hw]
  | .bin f a b, v, hs, h => by
    simp only [Expr.eval, bind, Except.bind] at h
    split at h
    · cases h
    rename_i w hw
    split at h
    · cases h
    rename_i w' hw'
    cases h
    simp only [Expr.symbs, List.mem_append] at hs
    simp only [val, ← eval_val d ρ a w (fun s h => hs s (.inl h)) hw, ← eval_val d ρ b w' (fun s h => hs s (.inr h)) hw']

theorem zip_get (e : Dict String ℝ) (key : String) : ∀ (order : List String) (pv : List ℝ) (j : Nat), order.Nodup →
    order[j]? = some key → pv.length = order.length →
    Dict.get? (order.zip pv ++ e) key = some (pv.getD j 0) ∧
    ∀ t s, Dict.get? (order.zip (pv.set j t) ++ e) s = if s = key then some t else Dict.get? (order.zip pv ++ e) s := by
  intro order
  induction order with
  | nil => intro pv j _ h; simp at h
  | cons k order ih =>
    intro pv j hnd hj hl
    rw [List.nodup_cons] at hnd
    cases pv with
    | nil => simp at hl
    | cons p pv =>
      cases j with
      | zero =>
        simp only [List.getElem?_cons_zero, Option.some.injEq] at hj
        subst hj
        refine ⟨by simp [Dict.get?_cons], fun t s => ?_⟩
        simp only [List.set_cons_zero, List.zip_cons_cons, List.cons_append, Dict.get?_cons]
        by_cases h : s = k
        · simp [h]
        · simp [h, Ne.symm h]
      | succ j =>
        simp only [List.getElem?_cons_succ] at hj
        obtain ⟨h1, h2⟩ := ih pv j hnd.2 hj (by simpa using hl)
        have hne : k ≠ key := fun h => hnd.1 (h ▸ List.mem_of_getElem? hj)
        refine ⟨by simp [Dict.get?_cons, hne, h1], fun t s => ?_⟩
        simp only [List.set_cons_succ, List.zip_cons_cons, List.cons_append, Dict.get?_cons, h2]
        by_cases h : k = s
        · subst h
          simp [hne]
        · simp [h]

theorem symVal_set (order : List String) (b : Obs) (pv : List ℝ) (j : Nat) (key : String) (t : ℝ) (hnd : order.Nodup)
    (hj : order[j]? = some key) (hl : pv.length = order.length) :
    symVal order b (pv.set j t) = Function.update (symVal order b pv) key t := by
  funext s
  unfold symVal
  rw [(zip_get b.fixed key order pv j hnd hj hl).2 t s]
  by_cases h : s = key
  · subst h; simp
  · rw [if_neg h, Function.update_of_ne h]

theorem symVal_self (order : List String) (b : Obs) (pv : List ℝ) (j : Nat) (key : String) (hnd : order.Nodup)
    (hj : order[j]? = some key) (hl : pv.length = order.length) : symVal order b pv key = pv.getD j 0 := by
  unfold symVal
  rw [(zip_get b.fixed key order pv j hnd hj hl).1]
  rfl

theorem symVal_fixed (order : List String) (b : Obs) (pv : List ℝ) (s : String) (hs : s ∉ order) (x : ℝ)
    (hx : Dict.get? b.fixed s = some x) : symVal order b pv s = x := by
  have : Dict.get? (order.zip pv ++ b.fixed) s = Dict.get? b.fixed s := by
    induction order generalizing pv with
    | nil => simp
    | cons k order ih =>
      cases pv with
      | nil => simp
      | cons p pv =>
        simp only [List.mem_cons, not_or] at hs
        simp only [List.zip_cons_cons, List.cons_append, Dict.get?_cons, Ne.symm hs.1, if_false]
        exact ih pv hs.2
  unfold symVal
  rw [this, hx]
  rfl

/-- The conditions for the jacobian of the radiative transfer model. -/
structure ModelOk (R : RTDef) (order : List String) (inc : List Obs) : Prop where
  nodup : order.Nodup
  /-- no fitted symbol is used in two of tau, omega and NormBRDF -/
  unshared : ∀ key ∈ order, ¬ (key ∈ R.tau.symbs ∧ key ∈ R.omega.symbs) ∧ ¬ (key ∈ R.tau.symbs ∧ key ∈ R.norm.symbs) ∧
    ¬ (key ∈ R.omega.symbs ∧ key ∈ R.norm.symbs)
  /-- the names of tau, omega and NormBRDF are only used for themselves -/
  own : ("tau" ∈ order → "tau" ∈ R.tau.symbs) ∧ ("omega" ∈ order → "omega" ∈ R.omega.symbs) ∧
    ("NormBRDF" ∈ order → "NormBRDF" ∈ R.norm.symbs)
  names : ∀ n ∈ ["omega", "tau", "NormBRDF", "bsf"], n ∉ R.keys
  bsf : "bsf" ∉ R.tau.symbs ∧ "bsf" ∉ R.omega.symbs ∧ "bsf" ∉ R.norm.symbs ∧ ∀ b ∈ inc, PhaseIndep b.base "bsf"
  /-- the derivatives of tau, omega and NormBRDF are correct and do not depend on fitted symbols -/
  tau : ∀ key ∈ order, key ∈ R.tau.symbs → IsDiff R.tau key (R.dtau key) ∧ (∀ s ∈ (R.dtau key).symbs, s ∉ order) ∧
    ∀ b ∈ inc, (∃ d, (R.dtau key).eval .keyError b.fixed = .ok d) ∧ PhaseIndep b.base key
  omega : ∀ key ∈ order, key ∈ R.omega.symbs → IsDiff R.omega key (R.domega key) ∧ (∀ s ∈ (R.domega key).symbs, s ∉ order) ∧
    ∀ b ∈ inc, (∃ d, (R.domega key).eval .keyError b.fixed = .ok d) ∧ PhaseIndep b.base key
  norm : ∀ key ∈ order, key ∈ R.norm.symbs → IsDiff R.norm key (R.dnorm key) ∧ (∀ s ∈ (R.dnorm key).symbs, s ∉ order) ∧
    ∀ b ∈ inc, (∃ d, (R.dnorm key).eval .keyError b.fixed = .ok d) ∧ PhaseIndep b.base key
  /-- all other parameters are parameters of the phase functions -/
  phase : ∀ key ∈ order, key ∉ R.tau.symbs → key ∉ R.omega.symbs → key ∉ R.norm.symbs → key ≠ "bsf" → key ∈ R.keys
  /-- the derivative with respect to tau is only correct for `cos(t_ex) = 1`, see C09 -/
  nadir : (∃ key ∈ order, key ∈ R.tau.symbs) → ∀ b ∈ inc, Real.cos b.base.tex = 1
  incl : ∀ b ∈ inc, 0 < Real.cos b.base.t0

/-- The conditions for the values of the parameters: the derivatives of the phase functions are correct and the backscatter is positive
(in dB). -/
def ValuesOk (R : RTDef) (order : List String) (b : Obs) (pv : List ℝ) : Prop :=
  (∀ key ∈ order, key ∈ R.keys → DummyDiffCorrect (elemAt R order b pv) key) ∧
    (R.dB = true → 0 < (elemAt R order b pv).surface + (elemAt R order b pv).volume)

theorem entry_ok (R : RTDef) (o : Elem) (name : String) (h : name ∈ ["omega", "tau", "NormBRDF", "bsf"] ∨ name ∈ o.keys) :
    o.jacobian R.dB R.sig0 [name] = .ok [entry R o name] := by
  have : o.jacEntry R.dB R.sig0 name = .ok (entry R o name) := by
    unfold entry Elem.jacEntry
    dsimp only
    split_ifs
    · rfl
    · rfl
    · rfl
    · rfl
    · rfl
    · simp_all
  simp [Elem.jacobian, Elem.jacobianLoop, this]

theorem backscatter_congr (dB sig0 : Bool) (o o' : Elem) (h1 : o.surface = o'.surface) (h2 : o.volume = o'.volume) (h3 : o.t0 = o'.t0) :
    backscatter dB sig0 o = backscatter dB sig0 o' := by
  unfold backscatter
  rw [h1, h2, h3]

theorem prop_deriv {R : RTDef} {order : List String} {b : Obs} {pv : List ℝ} {j : Nat} {key name : String} {e de : Expr}
    (hnd : order.Nodup) (hj : order[j]? = some key) (hl : pv.length = order.length)
    (hn : name = "omega" ∨ name = "tau" ∨ name = "NormBRDF")
    (hbs : ∀ t, rtF R order b (pv.set j t) =
      backscatter R.dB R.sig0 (setParam (elemAt R order b pv) name (val (Function.update (symVal order b pv) key t) e)))
    (hget : getParam (elemAt R order b pv) name = val (symVal order b pv) e) (hd : IsDiff e key de)
    (hk : name ∉ R.keys) (hpos : R.dB = true → 0 < (elemAt R order b pv).surface + (elemAt R order b pv).volume)
    (hc0 : 0 < Real.cos b.base.t0) (hnad : name ≠ "tau" ∨ Real.cos b.base.tex = 1) :
    HasDerivAt (fun t => rtF R order b (pv.set j t)) (entry R (elemAt R order b pv) name * val (symVal order b pv) de) (pv.getD j 0) := by
  have h09 := C09_jacobian_partial (elemAt R order b pv) R.dB R.sig0 name (entry R (elemAt R order b pv) name) hc0 hpos
    (fun h => absurd h hk) hnad (entry_ok R _ name (.inl (by rcases hn with h | h | h <;> simp [h])))
  have hi := hd (symVal order b pv)
  have hself := symVal_self order b pv j key hnd hj hl
  rw [hget] at h09
  have hval : val (symVal order b pv) e = val (Function.update (symVal order b pv) key (symVal order b pv key)) e := by
    rw [Function.update_eq_self]
  rw [hval] at h09
  have := HasDerivAt.comp (symVal order b pv key) h09 hi
  rw [hself] at this
  refine this.congr_of_eventuallyEq (Filter.Eventually.of_forall fun t => ?_)
  exact hbs t

/-- C111: the conditions of `C111_derivative_partial` hold for the radiative transfer model if the fitted symbols are used once, linearly,
and the optical depth is not fitted (or the observations are at nadir).

Missing: the cases in which it is false (`C111_nonlinear_fails`, `C111_shared_fails`, `C111_phase_fails`, `C09_jacobian_tau_wrong`). -/
theorem C111_model_partial {R : RTDef} {order : List String} {inc : List Obs} (h : ModelOk R order inc)
    (mixed : String → Except PyErr (List ℝ)) :
    JacOk (rtModel R order mixed) (rtF R order) order inc (ValuesOk R order) where
  unshared := by
    intro key hk p q r r' hp hq hs hs'
    obtain ⟨u1, u2, u3⟩ := h.unshared key hk
    have hp3 := (List.getElem?_eq_some_iff.1 hp).1
    have hq3 := (List.getElem?_eq_some_iff.1 hq).1
    simp only [rtModel, List.length_cons, List.length_nil] at hp3 hq3
    have hp' : p = 0 ∨ p = 1 ∨ p = 2 := by omega
    have hq' : q = 0 ∨ q = 1 ∨ q = 2 := by omega
    rcases hp' with rfl | rfl | rfl <;> rcases hq' with rfl | rfl | rfl <;>
      simp only [rtModel, List.getElem?_cons_zero, List.getElem?_cons_succ, Option.some.injEq] at hp hq <;> subst hp <;> subst hq <;>
      simp only at hs hs' <;> first | rfl | tauto
  fresh := by
    intro r hr r' hr' h1 h2
    obtain ⟨o1, o2, o3⟩ := h.own
    have hu := h.unshared
    simp only [rtModel, List.mem_cons, List.not_mem_nil, or_false] at hr hr'
    rcases hr with rfl | rfl | rfl <;> rcases hr' with rfl | rfl | rfl <;> simp only at h1 h2 ⊢ <;> exfalso <;>
      first
      | exact (hu _ h1).1 ⟨o1 h1, h2⟩
      | exact (hu _ h1).2.1 ⟨o1 h1, h2⟩
      | exact (hu _ h1).1 ⟨h2, o2 h1⟩
      | exact (hu _ h1).2.2 ⟨o2 h1, h2⟩
      | exact (hu _ h1).2.1 ⟨h2, o3 h1⟩
      | exact (hu _ h1).2.2 ⟨h2, o3 h1⟩
  linear := by
    intro key hk r hr hs
    simp only [rtModel, List.mem_cons, List.not_mem_nil, or_false] at hr
    rcases hr with rfl | rfl | rfl
    · exact (h.tau key hk hs).2.1
    · exact (h.omega key hk hs).2.1
    · exact (h.norm key hk hs).2.1
  known := by
    intro key hk r hr hs b hb
    simp only [rtModel, List.mem_cons, List.not_mem_nil, or_false] at hr
    rcases hr with rfl | rfl | rfl
    · exact ((h.tau key hk hs).2.2 b hb).1
    · exact ((h.omega key hk hs).2.2 b hb).1
    · exact ((h.norm key hk hs).2.2 b hb).1
  deriv := by
    intro j key name hj hname
    have hk : key ∈ order := List.mem_of_getElem? hj
    have hjac : name ∈ ["omega", "tau", "NormBRDF", "bsf"] ∨ name ∈ R.keys := by
      rcases hname with ⟨r, hr, -, rfl⟩ | ⟨hno, rfl⟩
      · simp only [rtModel, List.mem_cons, List.not_mem_nil, or_false] at hr
        rcases hr with rfl | rfl | rfl <;> simp
      · by_cases hb : name = "bsf"
        · subst hb; simp
        · exact .inr (h.phase name hk (hno ⟨"tau", R.tau.symbs, R.dtau, mixed⟩ (by simp [rtModel]))
            (hno ⟨"omega", R.omega.symbs, R.domega, mixed⟩ (by simp [rtModel]))
            (hno ⟨"NormBRDF", R.norm.symbs, R.dnorm, mixed⟩ (by simp [rtModel])) hb)
    refine ⟨fun b pv => entry R (elemAt R order b pv) name, by simp only [rtModel, rtJac, if_pos hjac], ?_⟩
    intro b hb d hd pv hl hP
    have hnd := h.nodup
    have hset := fun t => symVal_set order b pv j key t hnd hj hl
    obtain ⟨u1, u2, u3⟩ := h.unshared key hk
    obtain ⟨b1, b2, b3, b4⟩ := h.bsf
    have hfix : ∀ (e : Expr), (∀ s ∈ e.symbs, s ∉ order) → e.eval .keyError b.fixed = .ok d → d = val (symVal order b pv) e := by
      intro e he hev
      refine eval_val b.fixed _ e d ?_ hev
      intro s hs x hx
      exact symVal_fixed order b pv s (he s hs) x hx
    rcases hd with ⟨r, hr, hs, rfl, hev⟩ | ⟨hno, rfl, rfl⟩
    · simp only [rtModel, List.mem_cons, List.not_mem_nil, or_false] at hr
      have hbsf : key ≠ "bsf" := by
        rintro rfl
        rcases hr with rfl | rfl | rfl
        · exact b1 hs
        · exact b2 hs
        · exact b3 hs
      rcases hr with rfl | rfl | rfl
      · obtain ⟨t1, t2, t3⟩ := h.tau key hk hs
        rw [hfix _ t2 hev]
        refine prop_deriv hnd hj hl (by simp) (fun t => ?_) (by simp [getParam, elemAt]) t1 (h.names _ (by simp)) hP.2 (h.incl b hb)
          (.inr (h.nadir ⟨key, hk, hs⟩ b hb))
        obtain ⟨q1, q2⟩ := (t3 b hb).2 (symVal order b pv) t
        have v1 := val_update (symVal order b pv) key t R.omega (fun h' => u1 ⟨hs, h'⟩)
        have v2 := val_update (symVal order b pv) key t R.norm (fun h' => u2 ⟨hs, h'⟩)
        apply backscatter_congr <;>
          simp only [elemAt, setParam, hset, Elem.surface, Elem.volume, Elem.mu0, Elem.muex, Elem.pVal, Elem.brdfVal, q1, q2, v1, v2,
            Function.update_of_ne (Ne.symm hbsf), String.reduceEq, if_true, if_false]
      · obtain ⟨t1, t2, t3⟩ := h.omega key hk hs
        rw [hfix _ t2 hev]
        refine prop_deriv hnd hj hl (by simp) (fun t => ?_) (by simp [getParam, elemAt]) t1 (h.names _ (by simp)) hP.2 (h.incl b hb)
          (.inl (by simp))
        obtain ⟨q1, q2⟩ := (t3 b hb).2 (symVal order b pv) t
        have v1 := val_update (symVal order b pv) key t R.tau (fun h' => u1 ⟨h', hs⟩)
        have v2 := val_update (symVal order b pv) key t R.norm (fun h' => u3 ⟨hs, h'⟩)
        apply backscatter_congr <;>
          simp only [elemAt, setParam, hset, Elem.surface, Elem.volume, Elem.mu0, Elem.muex, Elem.pVal, Elem.brdfVal, q1, q2, v1, v2,
            Function.update_of_ne (Ne.symm hbsf), String.reduceEq, if_true, if_false]
      · obtain ⟨t1, t2, t3⟩ := h.norm key hk hs
        rw [hfix _ t2 hev]
        refine prop_deriv hnd hj hl (by simp) (fun t => ?_) (by simp [getParam, elemAt]) t1 (h.names _ (by simp)) hP.2 (h.incl b hb)
          (.inl (by simp))
        obtain ⟨q1, q2⟩ := (t3 b hb).2 (symVal order b pv) t
        have v1 := val_update (symVal order b pv) key t R.tau (fun h' => u2 ⟨h', hs⟩)
        have v2 := val_update (symVal order b pv) key t R.omega (fun h' => u3 ⟨h', hs⟩)
        apply backscatter_congr <;>
          simp only [elemAt, setParam, hset, Elem.surface, Elem.volume, Elem.mu0, Elem.muex, Elem.pVal, Elem.brdfVal, q1, q2, v1, v2,
            Function.update_of_ne (Ne.symm hbsf), String.reduceEq, if_true, if_false]
    · have n1 : name ∉ R.tau.symbs := hno ⟨"tau", R.tau.symbs, R.dtau, mixed⟩ (by simp [rtModel])
      have n2 : name ∉ R.omega.symbs := hno ⟨"omega", R.omega.symbs, R.domega, mixed⟩ (by simp [rtModel])
      have n3 : name ∉ R.norm.symbs := hno ⟨"NormBRDF", R.norm.symbs, R.dnorm, mixed⟩ (by simp [rtModel])
      have m1 : name ≠ "tau" := by rintro rfl; exact n1 (h.own.1 hk)
      have m2 : name ≠ "omega" := by rintro rfl; exact n2 (h.own.2.1 hk)
      have m3 : name ≠ "NormBRDF" := by rintro rfl; exact n3 (h.own.2.2 hk)
      have hself := symVal_self order b pv j name hnd hj hl
      have h09 := C09_jacobian_partial (elemAt R order b pv) R.dB R.sig0 name (entry R (elemAt R order b pv) name) (h.incl b hb) hP.2
        (fun hkk => hP.1 name hk hkk) (.inl m1) (entry_ok R _ name hjac)
      rw [mul_one]
      have v1 := fun t => val_update (symVal order b pv) name t R.tau n1
      have v2 := fun t => val_update (symVal order b pv) name t R.omega n2
      have v3 := fun t => val_update (symVal order b pv) name t R.norm n3
      by_cases hbs : name = "bsf"
      · subst hbs
        have hg : getParam (elemAt R order b pv) "bsf" = pv.getD j 0 := by
          simp [getParam, elemAt, hk, hself]
        rw [hg] at h09
        refine h09.congr_of_eventuallyEq (Filter.Eventually.of_forall fun t => ?_)
        obtain ⟨q1, q2⟩ := b4 b hb (symVal order b pv) t
        apply backscatter_congr <;>
          simp only [elemAt, setParam, hset, Elem.surface, Elem.volume, Elem.mu0, Elem.muex, Elem.pVal, Elem.brdfVal, q1, q2, v1, v2, v3,
            Function.update_self, String.reduceEq, if_true, if_false, hk]
      · have hg : getParam (elemAt R order b pv) name = pv.getD j 0 := by
          simp [getParam, elemAt, m1, m2, m3, hbs, hself]
        rw [hg] at h09
        refine h09.congr_of_eventuallyEq (Filter.Eventually.of_forall fun t => ?_)
        apply backscatter_congr <;>
          simp only [elemAt, setParam, hset, Elem.surface, Elem.volume, Elem.mu0, Elem.muex, Elem.pVal, Elem.brdfVal, v1, v2, v3,
            Function.update_of_ne (Ne.symm hbs), m1, m2, m3, hbs, if_false]

/-- C111: for unweighted data, the jacobian of a fit with the radiative transfer model is the derivative of its residuals (with the conditions
`ModelOk` for the definition of the model and `ValuesOk` for the values of the parameters). -/
theorem C111_fit_partial {lib : Lib τ} {R : RTDef} {mixed : String → Except PyErr (List ℝ)} {index : List τ} {data : Data Obs}
    {x0 : List ℝ} {defs : List (String × Param)} {dyns : Dict String (List Int)} (hv : Valid lib index data x0 defs dyns) {s : Setup}
    (hs : setup lib index defs = .ok s) (hcons : ∀ c ∈ dyns.map Prod.snd, Consecutive s.gi c) (hR : ModelOk R s.order data.inc)
    (hw : data.weights = none) (x : List ℝ) (hx : x.length = s.splitpos.sum) (hP : HoldsAt data dyns s x (ValuesOk R s.order)) :
    ∃ (r : List ℝ) (J : List (List ℝ)), resid (rtF R s.order) data x0 s x = .ok r ∧ dfun (rtModel R s.order mixed) data x0 s x = .ok J ∧
      r.length = index.length ∧ J.length = r.length ∧ ∀ n row, J[n]? = some row → row.length = x.length ∧ ∀ c v, row[c]? = some v →
        HasDerivAt (fun t => residAt (rtF R s.order) data x0 s n (x.set c t)) v (x.getD c 0) :=
  C111_unweighted_partial hv hs hcons (C111_model_partial hR mixed) hw x hx hP

/-! ### symbols that are used in a phase function as well -/

/-- `omega = x`, and the phase function is proportional to `x`. -/
noncomputable def sharedObs : Obs where
  base := { I0 := 1, tau := 1, omega := 0, NormBRDF := 0, bsf := 0, t0 := 0, tex := 0, p0 := 0, pex := 0, env := fun _ => 0, keys := [],
            brdf := fun _ _ _ _ _ => 0, p := fun env _ _ _ _ => env "x", brdfDiff := fun _ _ _ _ _ _ => 0, pDiff := fun _ _ _ _ _ _ => 0,
            dbrdf := fun _ _ _ _ _ _ => 0, dp := fun _ _ _ _ _ _ => 1 }
  fixed := []

noncomputable def sharedDef : RTDef where
  tau := .num 1
  omega := .sym "x"
  norm := .num 0
  dtau := fun _ => .num 0
  domega := fun _ => .num 1
  dnorm := fun _ => .num 0
  keys := ["x"]
  dB := false
  sig0 := false

def sharedSetup : Setup := ⟨[("x", [1])], [1], ["x"], [1], [2], ([0], [5])⟩

theorem shared_dfun (mixed : String → Except PyErr (List ℝ)) : dfun (rtModel sharedDef ["x"] mixed) ⟨[sharedObs], [0], none⟩ [0] sharedSetup [2] =
    .ok [[entry sharedDef (elemAt sharedDef ["x"] sharedObs [2]) "omega"]] := by
  have h1 : paramsOf sharedSetup [2] = .ok [([1], [2])] := by
    rfl
  have h2 : getData ([1] : List Int) [sharedObs] = .ok ([[sharedObs]], [[false]]) := by rfl
  have h3 : assignVals ([1] : List Int) [(0 : ℝ)] ([1] : List Int) [2] = .ok [[2]] := by rfl
  have h4 : neworder ["x"] (rtModel sharedDef ["x"] mixed).props = .ok ["omega"] := by
    simp [neworder, rtModel, sharedDef, Expr.symbs, replaceAt, pure, Except.pure, bind, Except.bind]
  have h5 : outerVals (rtModel sharedDef ["x"] mixed) [[sharedObs]] [[[2]]] "omega" =
      .ok [entry sharedDef (elemAt sharedDef ["x"] sharedObs [2]) "omega"] := by
    simp [outerVals, rtModel, rtJac, bind, Except.bind, calcModel, map2, pure, Except.pure]
  have h6 : innerAll (rtModel sharedDef ["x"] mixed) ["x"] [[sharedObs]] "x" = .ok [1] := by
    simp [innerAll, rtModel, sharedDef, innerStep, innerVals, Expr.symbs, Expr.eval, Except.map, bind, Except.bind, pure, Except.pure]
  have h7 : ∀ v : ℝ, Grouping.jacobian ([1] : List Int) ([1] : List Int) [v] [1] = .ok [[v]] := by
    intro v
    have : getData ([1] : List Int) ([1] : List Int) = .ok ([[1]], [[false]]) := by rfl
    have c : (groupbyUnsorted ([1] : List Int) (fun x => x) (fun x => x)).length = 1 := by decide
    simp [Grouping.jacobian, this, bind, Except.bind, pure, Except.pure, Grouping.jacEntry, c]
  have h8 : ∀ v : ℝ, keyCols (rtModel sharedDef ["x"] mixed) sharedSetup [[sharedObs]] ("x", [v]) = .ok [[v]] := by
    intro v
    have h6' : innerAll (rtModel sharedDef ["x"] mixed) sharedSetup.order [[sharedObs]] "x" = .ok [1] := h6
    have h9 : Dict.getItem sharedSetup.dyns "x" = .ok [1] := by rfl
    simp only [keyCols, h6', h9, bind, Except.bind]
    exact h7 v
  unfold dfun
  rw [h1]
  simp only [bind, Except.bind, sharedSetup, h2, List.mapM_cons, List.mapM_nil, h3, pure, Except.pure, h4, h5, List.zip_cons_cons,
    List.zip_nil_left] at h8 ⊢
  rw [h8]
  simp [hstack, unmask]

theorem shared_resid (F : Obs → List ℝ → ℝ) (t : ℝ) :
    residAt F ⟨[sharedObs], [0], none⟩ [0] sharedSetup 0 (([2] : List ℝ).set 0 t) = F sharedObs [t] := by
  have h1 : paramsOf sharedSetup [t] = .ok [([1], [t])] := by rfl
  have h2 : getData ([1] : List Int) [sharedObs] = .ok ([[sharedObs]], [[false]]) := by rfl
  have h2' : getData ([1] : List Int) [(0 : ℝ)] = .ok ([[0]], [[false]]) := by rfl
  have h3 : assignVals ([1] : List Int) [(0 : ℝ)] ([1] : List Int) [t] = .ok [[t]] := by rfl
  have : resid F ⟨[sharedObs], [0], none⟩ [0] sharedSetup [t] = .ok [F sharedObs [t]] := by
    unfold paramsOf at h1
    unfold resid
    rw [h1]
    simp only [bind, Except.bind, residuals, sharedSetup, h2, h2', List.mapM_cons, List.mapM_nil, h3, pure, Except.pure]
    simp [calcModel, map2, unmask]
  simp [residAt, this]

theorem shared_F (t : ℝ) : rtF sharedDef ["x"] sharedObs [t] = t ^ 2 * ((1 - Real.exp (-2)) / 2) := by
  have e : (-1 : ℝ) - 1 = -2 := by norm_num
  simp [rtF, backscatter, elemAt, sharedDef, sharedObs, Elem.surface, Elem.volume, Elem.mu0, Elem.muex, Elem.pVal, Elem.brdfVal, val, symVal,
    Dict.get?, e]
  ring

/-- C111: if a fitted symbol is used in omega (likewise tau, NormBRDF) and in a phase function, the derivative of the phase function is missing
in the jacobian; no exception is raised. -/
theorem C111_phase_fails (mixed : String → Except PyErr (List ℝ)) : ∃ v : ℝ,
    dfun (rtModel sharedDef sharedSetup.order mixed) ⟨[sharedObs], [0], none⟩ [0] sharedSetup [2] = .ok [[v]] ∧
    ¬ HasDerivAt (fun t => residAt (rtF sharedDef sharedSetup.order) ⟨[sharedObs], [0], none⟩ [0] sharedSetup 0 (([2] : List ℝ).set 0 t)) v 2 := by
  refine ⟨_, shared_dfun mixed, ?_⟩
  have hv : entry sharedDef (elemAt sharedDef ["x"] sharedObs [2]) "omega" = 2 * ((1 - Real.exp (-2)) / 2) := by
    have e : (-1 : ℝ) - 1 = -2 := by norm_num
    simp [entry, Elem.jacEntry, elemAt, sharedDef, sharedObs, Elem.dsurfaceDomega, Elem.dvolumeDomega, Elem.mu0, Elem.muex, Elem.pVal, val,
      symVal, Dict.get?, Elem.jacNorm, e]
    ring
  rw [hv]
  intro h
  have h0 : (fun t => residAt (rtF sharedDef sharedSetup.order) ⟨[sharedObs], [0], none⟩ [0] sharedSetup 0 (([2] : List ℝ).set 0 t)) =
      fun t => t ^ 2 * ((1 - Real.exp (-2)) / 2) := by
    funext t
    rw [shared_resid]
    exact shared_F t
  rw [h0] at h
  have h1 := (hasDerivAt_pow 2 (2 : ℝ)).mul_const ((1 - Real.exp (-2)) / 2)
  have h2 := h.unique h1
  have h3 : Real.exp (-2) < 1 := by
    rw [Real.exp_lt_one_iff]; norm_num
  norm_num at h2
  linarith

/-- C111: a fit with one observation of weight 3 and the model `F = x` (with derivative 1): the jacobian is 1, but the residual is
`3 * (x - data)`. -/
theorem C111_weights_witness_fails : ∃ (m : JModel Unit) (F : Unit → List ℝ → ℝ) (data : Data Unit), data.weights = some [3] ∧
    JacOk m F sharedSetup.order data.inc (fun _ _ => True) ∧ dfun m data [0] sharedSetup [2] = .ok [[1]] ∧
    (∀ t : ℝ, resid F data [0] sharedSetup [t] = .ok [3 * (t - 5)]) ∧
    ¬ HasDerivAt (fun t => residAt F data [0] sharedSetup 0 (([2] : List ℝ).set 0 t)) 1 2 := by
  have hres : ∀ t : ℝ, resid (fun _ pv => pv.getD 0 0) ⟨[()], [5], some [3]⟩ [0] sharedSetup [t] = .ok [3 * (t - 5)] := by
    intro t
    have h1 : paramsOf sharedSetup [t] = .ok [([1], [t])] := by rfl
    have h2 : getData ([1] : List Int) [()] = .ok ([[()]], [[false]]) := by rfl
    have h3 : ∀ y : ℝ, getData ([1] : List Int) [y] = .ok ([[y]], [[false]]) := fun y => by rfl
    have h4 : assignVals ([1] : List Int) [(0 : ℝ)] ([1] : List Int) [t] = .ok [[t]] := by rfl
    unfold paramsOf at h1
    unfold resid
    rw [h1]
    simp only [bind, Except.bind, residuals, sharedSetup, h2, h3, List.mapM_cons, List.mapM_nil, h4, pure, Except.pure, Except.map]
    simp [calcModel, map2, unmask]
  refine ⟨⟨[], fun _ => [], fun _ => .ok fun _ _ => 1⟩, fun _ pv => pv.getD 0 0, ⟨[()], [5], some [3]⟩, rfl, ?_, ?_, hres, ?_⟩
  · refine ⟨by simp, by simp, by simp, by simp, ?_⟩
    intro j key name hj _
    refine ⟨fun _ _ => 1, rfl, ?_⟩
    intro b _ d hd pv hl _
    have hjl := (List.getElem?_eq_some_iff.1 hj).1
    have : j = 0 := by
      simp [sharedSetup] at hjl; omega
    subst this
    obtain ⟨a, rfl⟩ := List.length_eq_one_iff.1 (show pv.length = 1 from hl)
    rcases hd with ⟨r, hr, -⟩ | ⟨-, -, rfl⟩
    · simp at hr
    · simpa using hasDerivAt_id' a
  · have h1 : paramsOf sharedSetup [2] = .ok [([1], [2])] := by rfl
    have h2 : getData ([1] : List Int) [()] = .ok ([[()]], [[false]]) := by rfl
    have h4 : assignVals ([1] : List Int) [(0 : ℝ)] ([1] : List Int) [2] = .ok [[2]] := by rfl
    have h5 : neworder ["x"] [] = .ok ["x"] := by rfl
    have h7 : Grouping.jacobian ([1] : List Int) ([1] : List Int) [(1 : ℝ)] [1] = .ok [[1]] := by
      have : getData ([1] : List Int) ([1] : List Int) = .ok ([[1]], [[false]]) := by rfl
      have c : (groupbyUnsorted ([1] : List Int) (fun x => x) (fun x => x)).length = 1 := by decide
      simp [Grouping.jacobian, this, bind, Except.bind, pure, Except.pure, Grouping.jacEntry, c]
    have h9 : Dict.getItem ([("x", [1])] : Dict String (List Int)) "x" = .ok [1] := by rfl
    unfold dfun
    rw [h1]
    simp only [bind, Except.bind, sharedSetup, h2, List.mapM_cons, List.mapM_nil, h4, pure, Except.pure, h5, outerVals, keyCols, innerAll,
      List.foldlM_nil, List.zip_cons_cons, List.zip_nil_left, h9]
    have : Grouping.jacobian ([1] : List Int) ([1] : List Int) (calcModel (fun (_ : Unit) _ => (1 : ℝ)) [[()]] [[[2]]]).flatten
        (List.replicate ([[()]] : List (List Unit)).flatten.length 1) = .ok [[1]] := h7
    rw [this]
    simp [hstack, unmask]
  · intro h
    have h0 : (fun t => residAt (fun (_ : Unit) pv => pv.getD 0 0) ⟨[()], [5], some [3]⟩ [0] sharedSetup 0 (([2] : List ℝ).set 0 t)) =
        fun t => 3 * (t - 5) := by
      funext t
      have := hres t
      simp only [List.set_cons_zero, residAt, this]
      rfl
    rw [h0] at h
    have h1 := ((hasDerivAt_id (2 : ℝ)).sub_const 5).const_mul 3
    have := h.unique h1
    norm_num at this

/-! ### examples -/

def exSetup : Setup := ⟨[("omega", [0, 0, 1, 1]), ("tau", [1, 1, 1, 1])], [1, 1, 11, 11], ["omega", "tau"], [2, 1], [0, 0, 1],
  ([0, 0, 0], [1, 1, 2])⟩

theorem ex_setup : setup exampleLib [5, 5, 7, 7] exampleDefs = .ok exSetup := by
  have h1 : paramDynDict exampleLib [5, 5, 7, 7] (exampleDefs.map fun kd => (kd.1, kd.2.toParamDef)) = .ok exSetup.dyns := by
    have e : (exampleDefs.map fun kd => (kd.1, kd.2.toParamDef)) = [("omega", ⟨true, .int 1, none⟩), ("N", ⟨false, .none, none⟩),
      ("tau", ⟨true, .none, none⟩)] := rfl
    rw [e]
    decide +kernel
  have h2 : groupIndex (exSetup.dyns.map Prod.snd) = .ok [1, 1, 11, 11] := by decide +kernel
  have n1 : nunique exSetup.dyns [1, 1, 11, 11] "omega" = .ok 2 := by decide +kernel
  have n2 : nunique exSetup.dyns [1, 1, 11, 11] "tau" = .ok 1 := by decide +kernel
  have hf : (exampleDefs.filter fun kd => kd.2.fit) = [("omega", ⟨⟨true, .int 1, none⟩, .value (.scalar 0), none, ([0], [1])⟩),
    ("tau", ⟨⟨true, .none, none⟩, .value (.list [1]), none, ([0], [2])⟩)] := rfl
  have d1 : Dict.getItem exSetup.dyns "omega" = .ok [0, 0, 1, 1] := by decide
  have d2 : Dict.getItem exSetup.dyns "tau" = .ok [1, 1, 1, 1] := by decide
  have l1 : (dynDf ([1, 1, 11, 11] : List Int) ([0, 0, 1, 1] : List Int)).dedup.length = 2 := by decide
  unfold setup
  rw [h1]
  simp only [bind, Except.bind, h2, hf, List.mapM_cons, List.mapM_nil, pure, Except.pure, n1, n2, boundsOf, startOf, d1, d2, startvals,
    startVals, l1]
  simp [packStart, packBounds, boundVals, exSetup]

theorem ex_consecutive : ∀ c ∈ exSetup.dyns.map Prod.snd, Consecutive exSetup.gi c := by
  have h : idxAssigns exSetup.gi = .ok ([[0, 1], [2, 3]], [[false, false], [false, false]]) := by decide +kernel
  intro c hc I M hI
  rw [h] at hI
  cases hI
  simp only [exSetup, List.map_cons, List.map_nil, List.mem_cons, List.not_mem_nil, or_false] at hc
  rcases hc with rfl | rfl
  · apply contig_of_sorted; decide
  · apply contig_of_sorted; decide

/-- The model `omega + tau * v` with the auxiliary parameter `v`. -/
def exModel : JModel ℝ where
  props := [⟨"tau", ["tau", "v"], fun _ => .sym "v", fun _ => .error .valueError⟩]
  fixed := fun b => [("v", b)]
  rjac := fun _ => .ok fun _ _ => 1

def exF (b : ℝ) (pv : List ℝ) : ℝ := pv.getD 0 0 + pv.getD 1 0 * b

theorem ex_jacOk (inc : List ℝ) : JacOk exModel exF exSetup.order inc fun _ _ => True where
  unshared := by
    intro key hk p q r r' hp hq _ _
    have h1 := (List.getElem?_eq_some_iff.1 hp).1
    have h2 := (List.getElem?_eq_some_iff.1 hq).1
    simp [exModel] at h1 h2
    omega
  fresh := by
    intro r hr r' hr' _ _
    simp [exModel] at hr hr'
    rw [hr, hr']
  linear := by
    intro key hk r hr _ s hs
    simp [exModel] at hr
    subst hr
    simp [Expr.symbs] at hs
    subst hs
    decide
  known := by
    intro key hk r hr _ b _
    simp [exModel] at hr
    subst hr
    exact ⟨b, by simp [exModel, Expr.eval, Dict.get?]⟩
  deriv := by
    intro j key name hj hn
    refine ⟨fun _ _ => 1, rfl, ?_⟩
    intro b _ d hd pv hl _
    have hl2 : pv.length = 2 := hl
    obtain ⟨a, c, rfl⟩ := List.length_eq_two.1 hl2
    have hjl := (List.getElem?_eq_some_iff.1 hj).1
    have hj' : j = 0 ∨ j = 1 := by
      simp [exSetup] at hjl; omega
    rcases hj' with rfl | rfl
    · have hk : key = "omega" := by simpa [exSetup] using hj.symm
      subst hk
      rcases hd with ⟨r, hr, hs, -⟩ | ⟨-, -, rfl⟩
      · simp [exModel] at hr
        subst hr
        simp at hs
      · simpa [exF] using (hasDerivAt_id a).add_const (c * b)
    · have hk : key = "tau" := by simpa [exSetup] using hj.symm
      subst hk
      rcases hd with ⟨r, hr, hs, -, he⟩ | ⟨hno, -⟩
      · simp [exModel] at hr
        subst hr
        have : d = b := by
          simp [exModel, Expr.eval, Dict.get?] at he
          exact he.symm
        subst this
        simpa [exF] using ((hasDerivAt_id c).mul_const d).const_add a
      · exact absurd (by simp) (hno ⟨"tau", ["tau", "v"], fun _ => .sym "v", fun _ => .error .valueError⟩ (by simp [exModel]))

theorem ex_valid : Valid (β := ℝ) exampleLib [5, 5, 7, 7] ⟨[0.1, 0.2, 0.3, 0.4], [1, 2, 3, 4], some [1, 1, 2, 2]⟩ [0, 0, 0, 0] exampleDefs
    exSetup.dyns where
  libOk := exampleLib_ok
  names := by decide
  fitted := by simp [exampleDefs, fittedOf]
  dyns := by
    have e : (exampleDefs.map fun kd => (kd.1, kd.2.toParamDef)) = [("omega", ⟨true, .int 1, none⟩), ("N", ⟨false, .none, none⟩),
      ("tau", ⟨true, .none, none⟩)] := rfl
    rw [e]
    decide +kernel
  obs := by simp
  regular := ⟨by simp [exSetup], by simp [exSetup], [1, 1], by simp [exSetup], by norm_num⟩
  bounds := by
    intro pc hpc
    simp [exampleDefs, fittedOf, exSetup] at hpc
    rcases hpc with rfl | rfl <;> simp [BoundFits]
  complete := ⟨rfl, rfl, by simp⟩
  empty := rfl

/-- Two parameters for four observations with weights: the conditions of `C111_derivative_partial` and `C111_weights_fails`. -/
example : ∃ (J : List (List ℝ)) (obs : List Nat),
    dfun exModel ⟨[0.1, 0.2, 0.3, 0.4], [1, 2, 3, 4], some [1, 1, 2, 2]⟩ [0, 0, 0, 0] exSetup [0, 0, 1] = .ok J ∧ obs.length = J.length := by
  obtain ⟨J, obs, h1, -, h3, -⟩ := C111_weights_fails ex_valid ex_setup ex_consecutive (ex_jacOk _) [0, 0, 1] (by simp [exSetup])
    (fun _ _ _ _ _ _ _ _ => trivial)
  exact ⟨J, obs, h1, h3⟩

/-- `tau = x * y` with two fitted symbols. -/
example (data : Data ℝ) (J : List (List ℝ)) :
    dfun ⟨[⟨"tau", ["x", "y"], fun s => if s = "x" then .sym "y" else .sym "x", fun _ => .error .valueError⟩], fun _ => [],
      fun _ => .ok fun _ _ => 1⟩ data [0] ⟨[("x", [1]), ("y", [1])], [11], ["x", "y"], [1, 1], [0, 0], ([0, 0], [1, 1])⟩ [1, 2] ≠ .ok J :=
  C111_nonlinear_fails _ data _ _ _ "x" _ (by simp) (List.mem_singleton.2 rfl) (by simp) (by simp [Expr.symbs]) (by simp [Expr.symbs]) J

/-- `tau = x`, `omega = 0.5 * x` -/
example (data : Data ℝ) (J : List (List ℝ)) :
    dfun ⟨[⟨"tau", ["x"], fun _ => .num 1, fun _ => .error .valueError⟩, ⟨"omega", ["x"], fun _ => .num 0.5, fun _ => .error .valueError⟩],
      fun _ => [], fun _ => .ok fun _ _ => 1⟩ data [0] ⟨[("x", [1])], [1], ["x"], [1], [0], ([0], [1])⟩ [1] ≠ .ok J :=
  C111_shared_fails _ data _ _ _ "x" (by simp) (by simp) (by simp) 0 1 (by omega) _ _ rfl rfl (by simp) (by simp) J

/-- The model `omega = w * v` with the fitted symbol `w`, the auxiliary parameter `v` and a fitted parameter `x` of the phase function. -/
noncomputable def exDef : RTDef := { sharedDef with
  omega := .bin (· * ·) (.sym "w") (.sym "v")
  domega := fun _ => .sym "v" }

example : ModelOk exDef ["w", "x"] [{ sharedObs with fixed := [("v", 3)] }] where
  nodup := by decide
  unshared := by simp [exDef, sharedDef, Expr.symbs]
  own := by simp
  names := by simp [exDef, sharedDef]
  bsf := by
    refine ⟨by simp [exDef, sharedDef, Expr.symbs], by simp [exDef, Expr.symbs], by simp [exDef, sharedDef, Expr.symbs], ?_⟩
    intro b hb ρ t
    simp at hb
    subst hb
    simp [sharedObs]
  tau := by simp [exDef, sharedDef, Expr.symbs]
  omega := by
    intro key hk hs
    have : key = "w" := by
      simp at hk
      rcases hk with rfl | rfl
      · rfl
      · simp [exDef, Expr.symbs] at hs
    subst this
    refine ⟨?_, by simp [exDef, Expr.symbs], ?_⟩
    · intro ρ
      have := (hasDerivAt_id (ρ "w")).mul_const (ρ "v")
      simpa [exDef, val] using this
    · intro b hb
      simp at hb
      subst hb
      refine ⟨⟨3, by simp [exDef, Expr.eval, Dict.get?]⟩, ?_⟩
      intro ρ t
      simp [sharedObs]
  norm := by simp [exDef, sharedDef, Expr.symbs]
  phase := by
    intro key hk _ h _ _
    simp at hk
    rcases hk with rfl | rfl
    · simp [exDef, Expr.symbs] at h
    · simp [exDef, sharedDef]
  nadir := by
    intro _ b hb
    simp at hb
    subst hb
    simp [sharedObs]
  incl := by
    intro b hb
    simp at hb
    subst hb
    simp [sharedObs]

end RT1.CalcJac
