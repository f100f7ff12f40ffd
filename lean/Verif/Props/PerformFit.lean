import Verif.Model.PerformFit
import Verif.Props.Assign
import Verif.Props.StartVals
import Verif.Props.Variability

/-!
# C106 `performfit` minimizes the misfit of the observations

Specification: the misfit of given parameter values is the sum of the squared weighted differences between model and measurement over all
observations, where each observation uses the values of its own dyn-groups (`IsCost`).  Values are admissible (`Admissible`) if there is one
value for each dyn-group and all of them are within the boundaries of their own parameter.

The solver is scipy's `least_squares`; what is assumed about it is stated in `SolverOk` (and `SolverMin`).
-/

namespace RT1.PerformFit
open General Grouping FitSpec

/-! ### specification -/

/-- The weight of an observation. -/
def Data.weight {β : Type} (data : Data β) (i : Nat) : ℝ :=
  match data.weights with
  | none => 1
  | some w => w.getD i 0

/-- `c` is the misfit of the values `vals` of parameters with the dyn-groups `cols`. -/
def IsCost {β : Type} (F : β → List ℝ → ℝ) (data : Data β) (cols : List (List Int)) (vals : List (List ℝ)) (c : ℝ) : Prop :=
  ∃ err : Nat → ℝ, (∀ i < data.sig.length, ∃ pv t s, List.Forall₂ (fun p v => IsOwnValue p.1 p.2 i v) (cols.zip vals) pv ∧
    data.inc[i]? = some t ∧ data.sig[i]? = some s ∧ err i = data.weight i * (F t pv - s)) ∧
    c = ((List.range data.sig.length).map fun i => err i ^ 2).sum

/-- The boundaries of the `q`-th value: a single boundary holds for all values. -/
def boundAt (b : List ℝ) (q : Nat) : ℝ := if b.length = 1 then b.headD 0 else b.getD q 0

/-- One value for each dyn-group, within the boundaries. -/
def AdmissibleFor (p : Param) (col : List Int) (v : List ℝ) : Prop :=
  v.length = col.dedup.length ∧ ∀ q x, v[q]? = some x → boundAt p.bounds.1 q ≤ x ∧ x ≤ boundAt p.bounds.2 q

def Admissible (params : List (String × Param)) (cols : List (List Int)) (vals : List (List ℝ)) : Prop :=
  List.Forall₂ (fun pc v => AdmissibleFor pc.1.2 pc.2 v) (params.zip cols) vals

/-- Sum of squares. -/
def sumSq (r : List ℝ) : ℝ := (r.map fun x => x ^ 2).sum

/-- What is assumed about `least_squares` (with the default loss function): the boundaries and the start values have the same shape, the
result is within the boundaries, and it is at least as good as the start values. -/
def SolverOk (solver : Solver) : Prop :=
  ∀ f x lo hi y, solver f x lo hi = .ok y → lo.length = x.length ∧ hi.length = x.length ∧ y.length = x.length ∧
    List.Forall₂ (· ≤ ·) lo y ∧ List.Forall₂ (· ≤ ·) y hi ∧ ∃ r r0, f y = .ok r ∧ f x = .ok r0 ∧ sumSq r ≤ sumSq r0

/-- A solver that finds the minimum within the boundaries. -/
def SolverMin (solver : Solver) : Prop :=
  ∀ f x lo hi y, solver f x lo hi = .ok y → ∀ z r r', List.Forall₂ (· ≤ ·) lo z → List.Forall₂ (· ≤ ·) z hi →
    f y = .ok r → f z = .ok r' → sumSq r ≤ sumSq r'

/-- The dynamics are non-negative numbers with at most 18 digits altogether (see C36), one for each observation. -/
structure Regular (n : Nat) (cols : List (List Int)) : Prop where
  len : ∀ c ∈ cols, c.length = n
  pos : ∀ c ∈ cols, ∀ x ∈ c, 0 ≤ x
  digits : ∃ N : List Nat, List.Forall₂ (fun c n => 1 ≤ n ∧ ∀ x ∈ c, x.toNat < 10 ^ n) cols N ∧ N.sum ≤ 18

/-- The dataset has as many entries as the index. -/
structure Data.Complete {β : Type} (data : Data β) (n : Nat) : Prop where
  inc : data.inc.length = n
  sig : data.sig.length = n
  weights : ∀ w, data.weights = some w → w.length = n

/-! ### lemmas -/

theorem sumSq_perm {l l' : List ℝ} (h : l.Perm l') : sumSq l = sumSq l' := (h.map _).sum_eq

/-- The dynamics of the parameters of a set-up. -/
def fittedOf (defs : List (String × Param)) : List (String × Param) := defs.filter fun kd => kd.2.fit

theorem fitted_map (defs : List (String × Param)) :
    ((defs.map fun kd => (kd.1, kd.2.toParamDef)).filter fun kd => kd.2.fit).map Prod.fst = (fittedOf defs).map Prod.fst := by
  rw [List.filter_map, List.map_map]
  rfl

theorem forall₂_get? {κ ν α : Type} [DecidableEq κ] {d : Dict κ ν} (hn : d.keys.Nodup) (l : List (κ × α))
    (hk : d.keys = l.map Prod.fst) : List.Forall₂ (fun a v => Dict.get? d a.1 = some v) l (d.map Prod.snd) := by
  have : d.map Prod.snd = d.map Prod.snd := rfl
  have key : ∀ (l : List (κ × α)) (e : Dict κ ν), e.keys = l.map Prod.fst → (∀ x ∈ e, x ∈ d) →
      List.Forall₂ (fun a v => Dict.get? d a.1 = some v) l (e.map Prod.snd) := by
    intro l
    induction l with
    | nil =>
      intro e he _
      have : e = [] := by simpa [Dict.keys] using he
      subst this
      exact List.Forall₂.nil
    | cons a l ih =>
      intro e he hsub
      cases e with
      | nil => simp [Dict.keys] at he
      | cons x e =>
        simp only [Dict.keys, List.map_cons, List.cons.injEq] at he
        refine List.Forall₂.cons ?_ (ih e he.2 fun y hy => hsub y (by simp [hy]))
        rw [← he.1]
        exact (Dict.get?_iff_mem hn _ _).2 (hsub x (by simp))
  exact key l d hk fun x hx => hx

theorem nunique_eq (gi : List Int) (col : List Int) (hne : gi ≠ []) (hl : col.length = gi.length) (hr : Refines gi col) :
    (dynDf gi col).dedup.length = col.dedup.length := by
  obtain ⟨f, rfl⟩ := exists_fun gi col hl hr
  rw [dynDf_eq, ← firsts_length_dedup, firsts_map_firsts, firsts_length_dedup]

theorem unpack_flatten (order : List String) (ls : List (List ℝ)) :
    unpack order (ls.map List.length) ls.flatten = order.zip ls := by
  rw [unpack, splitInto_flatten]

/-- A list of the right length consists of values of the parameters. -/
theorem exists_split (ns : List Nat) (x : List ℝ) (hx : x.length = ns.sum) :
    ∃ ls : List (List ℝ), ls.map List.length = ns ∧ ls.flatten = x := by
  induction ns generalizing x with
  | nil => exact ⟨[], rfl, (List.length_eq_zero_iff.1 (by simpa using hx)).symm⟩
  | cons n ns ih =>
    simp only [List.sum_cons] at hx
    obtain ⟨ls, h1, h2⟩ := ih (x.drop n) (by simp; omega)
    exact ⟨x.take n :: ls, by simp [h1]; omega, by simp [h2]⟩

theorem forall₂_flatten {α β : Type} {R : α → β → Prop} {ls : List (List α)} {ms : List (List β)}
    (h : List.Forall₂ (List.Forall₂ R) ls ms) : List.Forall₂ R ls.flatten ms.flatten := by
  induction h with
  | nil => exact List.Forall₂.nil
  | cons a _ ih =>
    rw [List.flatten_cons, List.flatten_cons]
    exact List.rel_append a ih

theorem forall₂_flatten_inv {α β : Type} {R : α → β → Prop} : ∀ {ls : List (List α)} {ms : List (List β)},
    ls.map List.length = ms.map List.length → List.Forall₂ R ls.flatten ms.flatten → List.Forall₂ (List.Forall₂ R) ls ms
  | [], [], _, _ => List.Forall₂.nil
  | l :: ls, m :: ms, hl, h => by
    simp only [List.map_cons, List.cons.injEq] at hl
    rw [List.flatten_cons, List.flatten_cons] at h
    have h1 := List.forall₂_take l.length h
    have h2 := List.forall₂_drop l.length h
    rw [List.take_left, hl.1, List.take_left] at h1
    rw [List.drop_left, hl.1, List.drop_left] at h2
    exact List.Forall₂.cons h1 (forall₂_flatten_inv hl.2 h2)
  | [], _ :: _, hl, _ => by simp at hl
  | _ :: _, [], hl, _ => by simp at hl

/-- The repeated boundaries of a parameter. -/
def fullBound (n : Nat) (b : List ℝ) : List ℝ := if b.length = 1 then List.replicate n (b.headD 0) else b

theorem boundVals_eq {n : Nat} {b : List ℝ × List ℝ} (h : BoundFits n b) : boundVals n b = (fullBound n b.1, fullBound n b.2) := by
  obtain ⟨h1, h2, h3⟩ := h
  obtain ⟨b1, b2⟩ := b
  simp only at h2 h3
  unfold boundVals fullBound
  by_cases hl : b1.length = 1
  · obtain ⟨x, rfl⟩ := List.length_eq_one_iff.1 hl
    obtain ⟨y, rfl⟩ := List.length_eq_one_iff.1 (h2.symm.trans hl)
    simp [h1]
  · rw [if_neg (by simp [hl]), if_neg hl, if_neg (by rw [← h2]; exact hl)]

theorem fullBound_length {n : Nat} {b : List ℝ} (h : b.length = 1 ∨ b.length = n) : (fullBound n b).length = n := by
  unfold fullBound
  split_ifs with hb
  · simp
  · rcases h with h | h
    · exact absurd h hb
    · exact h

theorem fullBound_get {n : Nat} {b : List ℝ} (h : b.length = 1 ∨ b.length = n) {q : Nat} (hq : q < n) :
    (fullBound n b)[q]? = some (boundAt b q) := by
  unfold fullBound boundAt
  split_ifs with hb
  · rw [List.getElem?_replicate, if_pos hq]
  · have hl : b.length = n := by
      rcases h with h | h
      · exact absurd h hb
      · exact h
    rw [List.getElem?_eq_getElem (by omega), List.getD_eq_getElem?_getD, List.getElem?_eq_getElem (by omega)]
    rfl

theorem admissibleFor_iff {p : Param} {col : List Int} {v : List ℝ} (hb : BoundFits col.dedup.length p.bounds) :
    AdmissibleFor p col v ↔ List.Forall₂ (· ≤ ·) (fullBound col.dedup.length p.bounds.1) v ∧
      List.Forall₂ (· ≤ ·) v (fullBound col.dedup.length p.bounds.2) := by
  have e1 : p.bounds.1.length = 1 ∨ p.bounds.1.length = col.dedup.length := hb.2.2
  have e2 : p.bounds.2.length = 1 ∨ p.bounds.2.length = col.dedup.length := by rw [← hb.2.1]; exact hb.2.2
  have g1 := fun q hq => fullBound_get (q := q) e1 hq
  have g2 := fun q hq => fullBound_get (q := q) e2 hq
  have l1 := fullBound_length e1
  have l2 := fullBound_length e2
  rw [List.forall₂_iff_get, List.forall₂_iff_get]
  constructor
  · rintro ⟨hl, h⟩
    refine ⟨⟨by rw [l1, hl], fun q h1 h2 => ?_⟩, ⟨by rw [l2, hl], fun q h1 h2 => ?_⟩⟩
    · have := (h q _ (List.getElem?_eq_getElem h2)).1
      have e := g1 q (by omega)
      rw [List.getElem?_eq_getElem h1, Option.some.injEq] at e
      simpa [e] using this
    · have := (h q _ (List.getElem?_eq_getElem h1)).2
      have e := g2 q (by omega)
      rw [List.getElem?_eq_getElem h2, Option.some.injEq] at e
      simpa [e] using this
  · rintro ⟨⟨a1, a2⟩, b1, b2⟩
    refine ⟨by rw [← a1, l1], fun q x hq => ?_⟩
    obtain ⟨hq', rfl⟩ := List.getElem?_eq_some_iff.1 hq
    have c1 := a2 q (by omega) hq'
    have c2 := b2 q hq' (by omega)
    have e := g1 q (by omega)
    have e' := g2 q (by omega)
    rw [List.getElem?_eq_getElem (by omega), Option.some.injEq] at e e'
    simp only [List.get_eq_getElem] at c1 c2
    rw [e] at c1
    rw [e'] at c2
    exact ⟨c1, c2⟩

/-! ### the set-up -/

/-- What the set-up of a fit consists of. -/
structure SetupSpec (defs : List (String × Param)) (D : Dict String (List Int)) (s : Setup) : Prop where
  dyns : s.dyns = D
  order : s.order = (fittedOf defs).map Prod.fst
  splitpos : s.splitpos = (D.map Prod.snd).map fun c => c.dedup.length
  bounds : s.bounds = ((List.zipWith (fun kd c => fullBound c.dedup.length kd.2.bounds.1) (fittedOf defs) (D.map Prod.snd)).flatten,
    (List.zipWith (fun kd c => fullBound c.dedup.length kd.2.bounds.2) (fittedOf defs) (D.map Prod.snd)).flatten)
  gi_ne : s.gi ≠ []
  refines : ∀ c ∈ D.map Prod.snd, c.length = s.gi.length ∧ Refines s.gi c

variable {τ β : Type} [DecidableEq τ]

theorem groupIndex_refines {cols : List (List Int)} {n : Nat} (hn : 0 < n) (hne : cols ≠ []) (hr : Regular n cols) :
    ∃ gi, groupIndex cols = .ok gi ∧ gi.length = n ∧ ∀ c ∈ cols, c.length = gi.length ∧ Refines gi c := by
  obtain ⟨N, hN, h18⟩ := hr.digits
  obtain ⟨gi, h1, h2, h3⟩ := C36_groups_partial cols n hn hne hr.len hr.pos N hN h18
  refine ⟨gi, h1, h2, fun c hc => ⟨by rw [h2]; exact hr.len c hc, fun i j hi hj h => ?_⟩⟩
  rw [h2] at hi hj
  exact (h3 i j hi hj).1 h c hc

theorem mapM_get {α γ : Type} {dyns : Dict String (List Int)} {l : List (String × α)} {f : String × α → Except PyErr γ}
    {g : String × α → List Int → γ} {cols : List (List Int)}
    (hk : List.Forall₂ (fun a v => Dict.get? dyns a.1 = some v) l cols)
    (h : ∀ a c, a ∈ l → Dict.get? dyns a.1 = some c → c ∈ cols → f a = .ok (g a c)) : l.mapM f = .ok (List.zipWith g l cols) := by
  induction hk with
  | nil => rfl
  | cons h1 _ ih =>
    rw [List.mapM_cons, h _ _ (by simp) h1 (by simp), ih fun a c ha hc hm => h a c (by simp [ha]) hc (by simp [hm])]
    rfl

theorem setup_spec (lib : Lib τ) (hl : LibOk lib) (index : List τ) (defs : List (String × Param))
    (hn : (defs.map Prod.fst).Nodup) (hfit : fittedOf defs ≠ []) (dyns : Dict String (List Int))
    (hd : paramDynDict lib index (defs.map fun kd => (kd.1, kd.2.toParamDef)) = .ok dyns) (hi : index ≠ [])
    (hr : Regular index.length (dyns.map Prod.snd))
    (hb : ∀ pc ∈ (fittedOf defs).zip (dyns.map Prod.snd), BoundFits pc.2.dedup.length pc.1.2.bounds) (s : Setup)
    (hs : setup lib index defs = .ok s) :
    SetupSpec defs dyns s ∧ s.gi.length = index.length ∧ dyns.keys = (fittedOf defs).map Prod.fst ∧
      ∃ start : List StartVal, (fittedOf defs).mapM (startOf dyns s.gi) = .ok start ∧ s.start = packStart start := by
  have hkeys : dyns.keys = (fittedOf defs).map Prod.fst := by
    rw [(C88_parameters lib hl index _ (by simpa [List.map_map, Function.comp_def] using hn) dyns hd).1, fitted_map]
  have hnd : dyns.keys.Nodup := by
    rw [hkeys]
    exact List.Sublist.nodup (List.Sublist.map _ List.filter_sublist) hn
  have hcols : dyns.map Prod.snd ≠ [] := by
    intro h
    have : dyns = [] := by simpa using h
    rw [this] at hkeys
    simp only [Dict.keys, List.map_nil] at hkeys
    exact hfit (by simpa using hkeys.symm)
  obtain ⟨gi, hg, hgl, href⟩ := groupIndex_refines (List.length_pos_iff.2 hi) hcols hr
  have hgne : gi ≠ [] := by rw [← List.length_pos_iff, hgl]; exact List.length_pos_iff.2 hi
  have hf := forall₂_get? hnd (fittedOf defs) hkeys
  have hnu : ∀ (kd : String × Param) (c : List Int), Dict.get? dyns kd.1 = some c → c ∈ dyns.map Prod.snd →
      nunique dyns gi kd.1 = .ok c.dedup.length := by
    intro kd c h1 h2
    simp only [nunique, Dict.getItem, h1, bind, Except.bind, pure, Except.pure]
    rw [nunique_eq gi c hgne (href c h2).1 (href c h2).2]
  have hsplit : (fittedOf defs).mapM (fun kd => nunique dyns gi kd.1) =
      .ok (List.zipWith (fun _ c => c.dedup.length) (fittedOf defs) (dyns.map Prod.snd)) :=
    mapM_get hf fun a c _ h1 h2 => hnu a c h1 h2
  have hlen : (fittedOf defs).length = (dyns.map Prod.snd).length := hf.length_eq
  have hzw : ∀ (l : List (String × Param)) (m : List (List Int)), l.length = m.length →
      List.zipWith (fun _ c => c.dedup.length) l m = m.map fun c => c.dedup.length := by
    intro l
    induction l with
    | nil => intro m hm; simp at hm; simp [List.length_eq_zero_iff.1 hm.symm]
    | cons a l ih =>
      intro m hm
      cases m with
      | nil => simp at hm
      | cons c m => simp at hm; simp [ih m hm]
  have hbnd : (fittedOf defs).mapM (boundsOf dyns gi) = .ok (List.zipWith (fun kd c =>
      boundVals c.dedup.length kd.2.bounds) (fittedOf defs) (dyns.map Prod.snd)) :=
    mapM_get hf fun a c _ h1 h2 => by
      simp only [boundsOf, hnu a c h1 h2, bind, Except.bind, pure, Except.pure]
  have hbnd' : List.zipWith (fun kd c => boundVals c.dedup.length kd.2.bounds) (fittedOf defs) (dyns.map Prod.snd) =
      List.zipWith (fun kd c => (fullBound c.dedup.length kd.2.bounds.1, fullBound c.dedup.length kd.2.bounds.2)) (fittedOf defs)
        (dyns.map Prod.snd) := by
    rw [← List.map_uncurry_zip_eq_zipWith, ← List.map_uncurry_zip_eq_zipWith]
    apply List.map_congr_left
    intro pc hpc
    exact boundVals_eq (hb pc hpc)
  unfold setup at hs
  rw [hd] at hs
  simp only [bind, Except.bind, hg] at hs
  have hfd : (defs.filter fun kd => kd.2.fit) = fittedOf defs := rfl
  rw [hfd, hsplit, hbnd] at hs
  simp only at hs
  cases hst : (fittedOf defs).mapM (startOf dyns gi) with
  | error e => rw [hst] at hs; cases hs
  | ok start =>
    rw [hst] at hs
    simp only [pure, Except.pure, Except.ok.injEq] at hs
    subst hs
    refine ⟨⟨rfl, rfl, hzw _ _ hlen, ?_, hgne, href⟩, hgl, hkeys, start, hst, rfl⟩
    simp only
    rw [packBounds_eq, hbnd', List.map_zipWith, List.map_zipWith]

/-- The residuals of given values: there is one residual for each observation. -/
theorem resid_cost (F : β → List ℝ → ℝ) (data : Data β) (x0 : List ℝ) (defs : List (String × Param)) (dyns : Dict String (List Int))
    (s : Setup) (hs : SetupSpec defs dyns s) (hkeys : dyns.keys = (fittedOf defs).map Prod.fst) (hnd : dyns.keys.Nodup)
    (hdata : data.Complete s.gi.length) (hx0 : x0.length = s.gi.length) (vals : List (List ℝ))
    (hv : vals.map List.length = s.splitpos) :
    ∃ r, resid F data x0 s vals.flatten = .ok r ∧ r.length = data.sig.length ∧ IsCost F data (dyns.map Prod.snd) vals (sumSq r) := by
  have hlv : vals.length = (dyns.map Prod.snd).length := by
    have := congrArg List.length hv
    rw [hs.splitpos] at this
    simpa using this
  have hun : unpack s.order s.splitpos vals.flatten = s.order.zip vals := by rw [← hv, unpack_flatten]
  have hdl : dyns.length = vals.length := by rw [hlv]; simp
  have hpar : (s.order.zip vals).mapM (fun kv => do
      let dyn ← Dict.getItem s.dyns kv.1
      return (dyn, kv.2)) = .ok ((dyns.map Prod.snd).zip vals) := by
    rw [hs.order, ← hkeys, hs.dyns]
    have key : ∀ (e : Dict String (List Int)) (vs : List (List ℝ)), e.length = vs.length → (∀ x ∈ e, x ∈ dyns) →
        (e.keys.zip vs).mapM (fun kv => (do
          let dyn ← Dict.getItem dyns kv.1
          return (dyn, kv.2) : Except PyErr (List Int × List ℝ))) = .ok ((e.map Prod.snd).zip vs) := by
      intro e
      induction e with
      | nil => intro vs _ _; rfl
      | cons a e ih =>
        intro vs hvs hsub
        cases vs with
        | nil => simp at hvs
        | cons v vs =>
          have hg : Dict.get? dyns a.1 = some a.2 := (Dict.get?_iff_mem hnd _ _).2 (hsub a (by simp))
          simp only [Dict.keys, List.map_cons, List.zip_cons_cons, List.mapM_cons, Dict.getItem, hg, bind, Except.bind, pure,
            Except.pure]
          have := ih vs (by simpa using hvs) fun x hx => hsub x (by simp [hx])
          simp only [Dict.keys, Dict.getItem, bind, Except.bind, pure, Except.pure] at this
          rw [this]
    exact key dyns vals hdl fun x hx => hx
  have hp : ∀ p ∈ (dyns.map Prod.snd).zip vals, p.1.length = s.gi.length ∧ p.2.length = p.1.dedup.length := by
    intro p hp
    obtain ⟨i, hi⟩ := List.mem_iff_getElem?.1 hp
    rw [List.getElem?_zip_eq_some] at hi
    have h1 : (vals.map List.length)[i]? = some p.2.length := by rw [List.getElem?_map, hi.2]; rfl
    have h2 : ((dyns.map Prod.snd).map fun c => c.dedup.length)[i]? = some p.1.dedup.length := by
      rw [List.getElem?_map, hi.1]; rfl
    rw [hv, hs.splitpos, h2, Option.some.injEq] at h1
    exact ⟨(hs.refines p.1 (List.mem_of_getElem? hi.1)).1, h1.symm⟩
  obtain ⟨res, ord, h1, h2, h3⟩ := C41_residuals F s.gi hs.gi_ne data.inc data.sig data.weights x0 ((dyns.map Prod.snd).zip vals)
    hdata.inc hdata.sig hdata.weights hx0 hp
  refine ⟨res, ?_, ?_, ?_⟩
  · unfold resid
    rw [hun, hpar]
    exact h1
  · rw [h3.length_eq, h2.length_eq, List.length_range, hdata.sig]
  · have hon : ord.Nodup := h2.nodup_iff.2 List.nodup_range
    have hres : res = ord.map fun i => res.getD (ord.idxOf i) 0 := by
      apply List.ext_getElem
      · simp [h3.length_eq]
      · intro k hk hk'
        have hko : k < ord.length := by rw [← h3.length_eq]; exact hk
        rw [List.getElem_map, hon.idxOf_getElem, List.getD_eq_getElem?_getD, List.getElem?_eq_getElem hk]
        rfl
    refine ⟨fun i => res.getD (ord.idxOf i) 0, fun i hi => ?_, ?_⟩
    · have him : i ∈ ord := h2.mem_iff.2 (List.mem_range.2 (by rw [← hdata.sig]; exact hi))
      have hlt : ord.idxOf i < ord.length := List.idxOf_lt_length_of_mem him
      have hlt' : ord.idxOf i < res.length := by rw [h3.length_eq]; exact hlt
      have h := List.Forall₂.get h3 hlt' hlt
      simp only [List.get_eq_getElem, List.getElem_idxOf] at h
      obtain ⟨pv, h4, t, sg, w, h5, h6, h7, h8⟩ := h
      refine ⟨pv, t, sg, h4, h5, h6, ?_⟩
      change res.getD (ord.idxOf i) 0 = _
      rw [List.getD_eq_getElem?_getD, List.getElem?_eq_getElem hlt']
      simp only [Option.getD_some]
      rw [h8, h7]
      congr 1
      clear * -
      rcases data with ⟨_, _, _ | ws⟩ <;> rfl
    · conv_lhs => rw [hres]
      rw [sumSq, List.map_map, hdata.sig]
      exact ((h2.map _).sum_eq)

/-! ### the fit -/

/-- The assumptions about a fit: distinct names, at least one fitted parameter and one observation, dynamics that are correctly combined
(see C36), one boundary or one boundary for each dyn-group. -/
structure Valid (lib : Lib τ) (index : List τ) (data : Data β) (x0 : List ℝ) (defs : List (String × Param))
    (D : Dict String (List Int)) : Prop where
  libOk : LibOk lib
  names : (defs.map Prod.fst).Nodup
  fitted : fittedOf defs ≠ []
  dyns : paramDynDict lib index (defs.map fun kd => (kd.1, kd.2.toParamDef)) = .ok D
  obs : index ≠ []
  regular : Regular index.length (D.map Prod.snd)
  bounds : ∀ pc ∈ (fittedOf defs).zip (D.map Prod.snd), BoundFits pc.2.dedup.length pc.1.2.bounds
  complete : data.Complete index.length
  empty : x0.length = index.length

theorem forall₂_zipWith {α γ δ : Type} {R : List δ → List δ → Prop} {f : α → γ → List δ} : ∀ {l : List α} {m : List γ} {v : List (List δ)},
    l.length = m.length → (List.Forall₂ R (List.zipWith f l m) v ↔ List.Forall₂ (fun pc v => R (f pc.1 pc.2) v) (l.zip m) v)
  | [], [], v, _ => by simp
  | a :: l, c :: m, [], _ => by simp
  | a :: l, c :: m, v :: vs, h => by
    simp only [List.zipWith_cons_cons, List.zip_cons_cons, List.forall₂_cons]
    rw [forall₂_zipWith (by simpa using h)]
  | [], _ :: _, _, h => by simp at h
  | _ :: _, [], _, h => by simp at h

theorem lengths_zipWith {α γ δ : Type} {f : α → γ → List δ} {g : γ → Nat} : ∀ {l : List α} {m : List γ}, l.length = m.length →
    (∀ pc ∈ l.zip m, (f pc.1 pc.2).length = g pc.2) → (List.zipWith f l m).map List.length = m.map g
  | [], [], _, _ => rfl
  | a :: l, c :: m, h, hg => by
    simp only [List.zipWith_cons_cons, List.map_cons]
    rw [hg (a, c) (by simp), lengths_zipWith (by simpa using h) fun pc hpc => hg pc (by simp [hpc])]
  | [], _ :: _, h, _ => by simp at h
  | _ :: _, [], h, _ => by simp at h

/-- Admissible values are those that are handed over to the solver. -/
theorem admissible_iff {defs : List (String × Param)} {dyns : Dict String (List Int)} {s : Setup} (hs : SetupSpec defs dyns s)
    (hlen : (fittedOf defs).length = (dyns.map Prod.snd).length)
    (hb : ∀ pc ∈ (fittedOf defs).zip (dyns.map Prod.snd), BoundFits pc.2.dedup.length pc.1.2.bounds) (vals : List (List ℝ)) :
    Admissible (fittedOf defs) (dyns.map Prod.snd) vals ↔ vals.map List.length = s.splitpos ∧
      List.Forall₂ (· ≤ ·) s.bounds.1 vals.flatten ∧ List.Forall₂ (· ≤ ·) vals.flatten s.bounds.2 := by
  have key : Admissible (fittedOf defs) (dyns.map Prod.snd) vals ↔
      List.Forall₂ (List.Forall₂ (· ≤ ·)) (List.zipWith (fun kd c => fullBound c.dedup.length kd.2.bounds.1) (fittedOf defs)
        (dyns.map Prod.snd)) vals ∧
      List.Forall₂ (List.Forall₂ (· ≥ ·)) (List.zipWith (fun kd c => fullBound c.dedup.length kd.2.bounds.2) (fittedOf defs)
        (dyns.map Prod.snd)) vals := by
    rw [forall₂_zipWith hlen, forall₂_zipWith hlen]
    unfold Admissible
    have : ∀ (l : List ((String × Param) × List Int)) (vs : List (List ℝ)),
        (∀ pc ∈ l, BoundFits pc.2.dedup.length pc.1.2.bounds) →
        (List.Forall₂ (fun pc v => AdmissibleFor pc.1.2 pc.2 v) l vs ↔
          List.Forall₂ (fun pc v => List.Forall₂ (· ≤ ·) (fullBound pc.2.dedup.length pc.1.2.bounds.1) v) l vs ∧
          List.Forall₂ (fun pc v => List.Forall₂ (· ≥ ·) (fullBound pc.2.dedup.length pc.1.2.bounds.2) v) l vs) := by
      intro l
      induction l with
      | nil => intro vs _; cases vs <;> simp
      | cons a l ih =>
        intro vs h
        cases vs with
        | nil => simp
        | cons v vs =>
          simp only [List.forall₂_cons]
          rw [ih vs fun pc hpc => h pc (by simp [hpc]), admissibleFor_iff (h a (by simp))]
          have : List.Forall₂ (· ≤ ·) v (fullBound a.2.dedup.length a.1.2.bounds.2) ↔
              List.Forall₂ (· ≥ ·) (fullBound a.2.dedup.length a.1.2.bounds.2) v :=
            ⟨fun h => List.Forall₂.flip h, fun h => List.Forall₂.flip h⟩
          rw [this]
          tauto
    exact this _ vals hb
  have hl1 : (List.zipWith (fun kd c => fullBound c.dedup.length kd.2.bounds.1) (fittedOf defs) (dyns.map Prod.snd)).map List.length =
      s.splitpos := by
    rw [hs.splitpos]
    exact lengths_zipWith hlen fun pc hpc => fullBound_length (hb pc hpc).2.2
  have hl2 : (List.zipWith (fun kd c => fullBound c.dedup.length kd.2.bounds.2) (fittedOf defs) (dyns.map Prod.snd)).map List.length =
      s.splitpos := by
    rw [hs.splitpos]
    exact lengths_zipWith hlen fun pc hpc => fullBound_length (by rw [← (hb pc hpc).2.1]; exact (hb pc hpc).2.2)
  rw [key, hs.bounds]
  constructor
  · rintro ⟨h1, h2⟩
    refine ⟨?_, forall₂_flatten h1, List.Forall₂.flip (forall₂_flatten h2)⟩
    rw [← hl1]
    apply List.ext_getElem
    · simp [← h1.length_eq]
    · intro k hk hk'
      have := List.Forall₂.get h1 (by simpa using hk') (by simpa using hk)
      simp only [List.getElem_map]
      exact this.length_eq.symm
  · rintro ⟨h1, h2, h3⟩
    refine ⟨forall₂_flatten_inv (by rw [hl1, h1]) h2, forall₂_flatten_inv (by rw [hl2, h1]) (List.Forall₂.flip h3)⟩

theorem performfit_ok {solver : Solver} {lib : Lib τ} {F : β → List ℝ → ℝ} {index : List τ} {data : Data β} {x0 : List ℝ}
    {defs : List (String × Param)} {res : List (String × List ℝ)}
    (h : performfit solver lib F index data x0 defs = .ok res) :
    ∃ s x, setup lib index defs = .ok s ∧ solver (resid F data x0 s) s.start s.bounds.1 s.bounds.2 = .ok x ∧
      res = unpack s.order s.splitpos x := by
  unfold performfit at h
  cases hs : setup lib index defs with
  | error e => rw [hs] at h; cases h
  | ok s =>
    rw [hs] at h
    simp only [bind, Except.bind] at h
    cases hx : solver (resid F data x0 s) s.start s.bounds.1 s.bounds.2 with
    | error e => rw [hx] at h; cases h
    | ok x =>
      rw [hx] at h
      cases h
      exact ⟨s, x, rfl, hx, rfl⟩

/-- Everything about the result of a fit. -/
theorem result_spec {solver : Solver} (hsol : SolverOk solver) {lib : Lib τ} {F : β → List ℝ → ℝ} {index : List τ} {data : Data β}
    {x0 : List ℝ} {defs : List (String × Param)} {dyns : Dict String (List Int)} (hv : Valid lib index data x0 defs dyns)
    {res : List (String × List ℝ)} (h : performfit solver lib F index data x0 defs = .ok res) :
    ∃ s vals, setup lib index defs = .ok s ∧ SetupSpec defs dyns s ∧ s.gi.length = index.length ∧
      dyns.keys = (fittedOf defs).map Prod.fst ∧ dyns.keys.Nodup ∧ (fittedOf defs).length = (dyns.map Prod.snd).length ∧
      solver (resid F data x0 s) s.start s.bounds.1 s.bounds.2 = .ok vals.flatten ∧ vals.map List.length = s.splitpos ∧
      res.map Prod.fst = (fittedOf defs).map Prod.fst ∧ res.map Prod.snd = vals ∧
      ∃ start : List StartVal, (fittedOf defs).mapM (startOf dyns s.gi) = .ok start ∧ s.start = packStart start := by
  obtain ⟨s, x, hs, hx, rfl⟩ := performfit_ok h
  obtain ⟨hspec, hgl, hkeys, hstart⟩ := setup_spec lib hv.libOk index defs hv.names hv.fitted dyns hv.dyns hv.obs hv.regular hv.bounds s hs
  have hnd : dyns.keys.Nodup := by
    rw [hkeys]
    exact List.Sublist.nodup (List.Sublist.map _ List.filter_sublist) hv.names
  have hlen : (fittedOf defs).length = (dyns.map Prod.snd).length := by
    have := congrArg List.length hkeys
    simpa [Dict.keys] using this.symm
  obtain ⟨h1, h2, h3, h4, h5, -⟩ := hsol _ _ _ _ _ hx
  have hbl : s.bounds.1.length = s.splitpos.sum := by
    rw [hspec.bounds, List.length_flatten, hspec.splitpos]
    congr 1
    exact lengths_zipWith hlen fun pc hpc => fullBound_length (hv.bounds pc hpc).2.2
  obtain ⟨vals, hvl, hvf⟩ := exists_split s.splitpos x (by rw [h3, ← h1, hbl])
  subst hvf
  have hol : s.order.length = vals.length := by
    have := congrArg List.length hvl
    rw [hspec.order, List.length_map, hlen]
    rw [hspec.splitpos] at this
    simpa using this.symm
  have hun : unpack s.order s.splitpos vals.flatten = s.order.zip vals := by rw [← hvl, unpack_flatten]
  refine ⟨s, vals, hs, hspec, hgl, hkeys, hnd, hlen, hx, hvl, ?_, ?_, hstart⟩
  · rw [hun, List.map_fst_zip (by omega), hspec.order]
  · rw [hun, List.map_snd_zip (by omega)]

/-- C106: the results are one value for each dyn-group of each fitted parameter, within its boundaries.  Missing from the full claim: dynamics
with more than 18 digits, see `C106_digits_fails`. -/
theorem C106_admissible_partial {solver : Solver} (hsol : SolverOk solver) {lib : Lib τ} {F : β → List ℝ → ℝ} {index : List τ}
    {data : Data β} {x0 : List ℝ} {defs : List (String × Param)} {dyns : Dict String (List Int)}
    (hv : Valid lib index data x0 defs dyns) {res : List (String × List ℝ)}
    (h : performfit solver lib F index data x0 defs = .ok res) :
    res.map Prod.fst = (defs.filter fun kd => kd.2.fit).map Prod.fst ∧
      Admissible (defs.filter fun kd => kd.2.fit) (dyns.map Prod.snd) (res.map Prod.snd) := by
  obtain ⟨s, vals, hs, hspec, hgl, hkeys, hnd, hlen, hx, hvl, h1, h2, -⟩ := result_spec hsol hv h
  obtain ⟨-, -, -, h4, h5, -⟩ := hsol _ _ _ _ _ hx
  refine ⟨h1, ?_⟩
  rw [h2]
  exact (admissible_iff hspec hlen hv.bounds vals).2 ⟨hvl, h4, h5⟩

/-- C106: the misfit of the results is not larger than the misfit of the start values (see C87 for the start values of parameters with
`"auxiliary"` start values). -/
theorem C106_improves_aux_partial {solver : Solver} (hsol : SolverOk solver) {lib : Lib τ} {F : β → List ℝ → ℝ} {index : List τ}
    {data : Data β} {x0 : List ℝ} {defs : List (String × Param)} {dyns : Dict String (List Int)}
    (hv : Valid lib index data x0 defs dyns) {res : List (String × List ℝ)}
    (h : performfit solver lib F index data x0 defs = .ok res) (svals : List (List ℝ))
    (hst : ∀ gi, groupIndex (dyns.map Prod.snd) = .ok gi →
      List.Forall₂ (fun kd v => startOf dyns gi kd = .ok (.list v)) (defs.filter fun kd => kd.2.fit) svals)
    (hsl : List.Forall₂ (fun (c : List Int) v => v.length = c.dedup.length) (dyns.map Prod.snd) svals) :
    ∃ c c0, IsCost F data (dyns.map Prod.snd) (res.map Prod.snd) c ∧ IsCost F data (dyns.map Prod.snd) svals c0 ∧ c ≤ c0 := by
  obtain ⟨s, vals, hs, hspec, hgl, hkeys, hnd, hlen, hx, hvl, h1, h2, start, hstart, hpack⟩ := result_spec hsol hv h
  have hcols : dyns.map Prod.snd ≠ [] := by
    intro hc
    rw [hc] at hlen
    exact hv.fitted (List.length_eq_zero_iff.1 (by simpa using hlen))
  obtain ⟨gi, hg, -⟩ := groupIndex_refines (List.length_pos_iff.2 hv.obs) hcols hv.regular
  have hgi : s.gi = gi := by
    unfold setup at hs
    rw [hv.dyns] at hs
    simp only [bind, Except.bind, hg] at hs
    split at hs
    · cases hs
    split at hs
    · cases hs
    split at hs
    · cases hs
    simp only [pure, Except.pure, Except.ok.injEq] at hs
    rw [← hs]
  rw [hgi, mapM_ok_iff] at hstart
  have hss : start = svals.map StartVal.list := by
    have h3 := hst gi hg
    change List.Forall₂ _ (fittedOf defs) svals at h3
    clear hst hpack hx h2 h1 hs hspec hsl
    generalize fittedOf defs = l at hstart h3
    clear hlen
    induction h3 generalizing start with
    | nil => cases hstart; rfl
    | cons a _ ih =>
      cases hstart with
      | cons b hb =>
        rw [a] at b
        cases b
        rw [List.map_cons, ih _ hb]
  have hstart' : s.start = svals.flatten := by
    rw [hpack, hss, packStart_eq, List.map_map]
    congr 1
    simp [Function.comp_def, StartVal.toList]
  have hsl' : svals.map List.length = s.splitpos := by
    rw [hspec.splitpos]
    apply List.ext_getElem
    · simp [← hsl.length_eq]
    · intro k hk hk'
      have := List.Forall₂.get hsl (by simpa using hk') (by simpa using hk)
      simpa using this
  have hdata : data.Complete s.gi.length := by rw [hgl]; exact hv.complete
  have hx0 : x0.length = s.gi.length := by rw [hgl]; exact hv.empty
  obtain ⟨r, hr1, -, hr2⟩ := resid_cost F data x0 defs dyns s hspec hkeys hnd hdata hx0 vals hvl
  obtain ⟨r0, hr3, -, hr4⟩ := resid_cost F data x0 defs dyns s hspec hkeys hnd hdata hx0 svals hsl'
  obtain ⟨-, -, -, -, -, q, q0, hq, hq0, hle⟩ := hsol _ _ _ _ _ hx
  rw [hr1] at hq
  rw [hstart', hr3] at hq0
  cases hq
  cases hq0
  rw [h2]
  exact ⟨_, _, hr2, hr4, hle⟩

/-- The start values of a parameter with explicit start values: a number is used for all dyn-groups. -/
def IsStart (p : Param) (col : List Int) (v : List ℝ) : Prop :=
  (∃ x, p.start = .value (.scalar x) ∧ v = List.replicate col.dedup.length x) ∨
    (p.start = .value (.list v) ∧ v.length = col.dedup.length)

/-- C106: the misfit of the results is not larger than the misfit of the start values. -/
theorem C106_improves_partial {solver : Solver} (hsol : SolverOk solver) {lib : Lib τ} {F : β → List ℝ → ℝ} {index : List τ}
    {data : Data β} {x0 : List ℝ} {defs : List (String × Param)} {dyns : Dict String (List Int)}
    (hv : Valid lib index data x0 defs dyns) {res : List (String × List ℝ)}
    (h : performfit solver lib F index data x0 defs = .ok res) (svals : List (List ℝ))
    (hst : List.Forall₂ (fun pc v => IsStart pc.1.2 pc.2 v) ((defs.filter fun kd => kd.2.fit).zip (dyns.map Prod.snd)) svals) :
    ∃ c c0, IsCost F data (dyns.map Prod.snd) (res.map Prod.snd) c ∧ IsCost F data (dyns.map Prod.snd) svals c0 ∧ c ≤ c0 := by
  obtain ⟨s, vals, hs, hspec, hgl, hkeys, hnd, hlen, -⟩ := result_spec hsol hv h
  have hcols : dyns.map Prod.snd ≠ [] := by
    intro hc
    rw [hc] at hlen
    exact hv.fitted (List.length_eq_zero_iff.1 (by simpa using hlen))
  have hstl : ∀ pc v, IsStart (pc : (String × Param) × List Int).1.2 pc.2 v → v.length = pc.2.dedup.length := by
    rintro pc v (⟨x, -, rfl⟩ | ⟨-, h⟩)
    · simp
    · exact h
  change List.Forall₂ _ ((fittedOf defs).zip _) _ at hst
  refine C106_improves_aux_partial hsol hv h svals (fun gi hg => ?_) ?_
  · obtain ⟨gi', hg', hgl', href⟩ := groupIndex_refines (List.length_pos_iff.2 hv.obs) hcols hv.regular
    have hgne : gi' ≠ [] := by
      rintro rfl
      exact hv.obs (List.length_eq_zero_iff.1 hgl'.symm)
    rw [hg] at hg'
    cases hg'
    have hget := forall₂_get? hnd (fittedOf defs) hkeys
    change List.Forall₂ _ (fittedOf defs) _
    rw [List.forall₂_iff_get]
    rw [List.forall₂_iff_get] at hst hget
    refine ⟨by rw [← hst.1, List.length_zip, ← hlen, min_self], fun k hk hk' => ?_⟩
    have h1 := hst.2 k (by rw [List.length_zip, ← hlen, min_self]; exact hk) hk'
    have h2 := hget.2 k hk (by rw [← hlen]; exact hk)
    simp only [List.get_eq_getElem, List.getElem_zip] at h1 h2 ⊢
    have h3 := href _ (List.getElem_mem (l := dyns.map Prod.snd) (n := k) (by rw [← hlen]; exact hk))
    obtain ⟨n1, n2⟩ := C87_number gi (dyns.map Prod.snd)[k] (decide ((fittedOf defs)[k].2.freq = .str indexStr))
      (fittedOf defs)[k].2.startCol hgne h3.1 h3.2
    unfold startOf
    simp only [Dict.getItem, h2, bind, Except.bind]
    rcases h1 with ⟨x, e1, e2⟩ | ⟨e1, -⟩
    · rw [e1, n1, e2, List.map_const', firsts_length_dedup]
    · rw [e1, n2]
  · rw [List.forall₂_iff_get] at hst ⊢
    refine ⟨by rw [← hst.1, List.length_zip, ← hlen, min_self], fun k hk hk' => ?_⟩
    have h1 := hst.2 k (by rw [List.length_zip, ← hlen, min_self, hlen]; exact hk) hk'
    simp only [List.get_eq_getElem, List.getElem_zip] at h1 ⊢
    exact hstl (_, _) _ h1

/-- C106: if the solver finds the minimum of the function it is called with, the results are the admissible values with the smallest
misfit. -/
theorem C106_optimal_partial {solver : Solver} (hsol : SolverOk solver) (hmin : SolverMin solver) {lib : Lib τ} {F : β → List ℝ → ℝ}
    {index : List τ} {data : Data β} {x0 : List ℝ} {defs : List (String × Param)} {dyns : Dict String (List Int)}
    (hv : Valid lib index data x0 defs dyns) {res : List (String × List ℝ)}
    (h : performfit solver lib F index data x0 defs = .ok res) :
    ∃ c, IsCost F data (dyns.map Prod.snd) (res.map Prod.snd) c ∧
      ∀ vals, Admissible (defs.filter fun kd => kd.2.fit) (dyns.map Prod.snd) vals →
        ∃ c', IsCost F data (dyns.map Prod.snd) vals c' ∧ c ≤ c' := by
  obtain ⟨s, vals, hs, hspec, hgl, hkeys, hnd, hlen, hx, hvl, h1, h2, -⟩ := result_spec hsol hv h
  have hdata : data.Complete s.gi.length := by rw [hgl]; exact hv.complete
  have hx0 : x0.length = s.gi.length := by rw [hgl]; exact hv.empty
  obtain ⟨r, hr1, -, hr2⟩ := resid_cost F data x0 defs dyns s hspec hkeys hnd hdata hx0 vals hvl
  rw [h2]
  refine ⟨_, hr2, fun vals' hadm => ?_⟩
  obtain ⟨a1, a2, a3⟩ := (admissible_iff hspec hlen hv.bounds vals').1 hadm
  obtain ⟨r', hr3, -, hr4⟩ := resid_cost F data x0 defs dyns s hspec hkeys hnd hdata hx0 vals' a1
  exact ⟨_, hr4, hmin _ _ _ _ _ hx _ _ _ a2 a3 hr1 hr3⟩

/-- C106: the misfit is determined by the values. -/
theorem C106_cost_unique {F : β → List ℝ → ℝ} {data : Data β} {cols : List (List Int)} {vals : List (List ℝ)} {c c' : ℝ}
    (hc : ∀ p ∈ cols.zip vals, p.1.length = data.sig.length ∧ p.2.length = p.1.dedup.length) (h : IsCost F data cols vals c)
    (h' : IsCost F data cols vals c') : c = c' := by
  obtain ⟨err, h1, rfl⟩ := h
  obtain ⟨err', h1', rfl⟩ := h'
  congr 1
  apply List.map_congr_left
  intro i hi
  rw [List.mem_range] at hi
  obtain ⟨pv, t, s, a1, a2, a3, a4⟩ := h1 i hi
  obtain ⟨pv', t', s', b1, b2, b3, b4⟩ := h1' i hi
  rw [a2] at b2
  rw [a3] at b3
  cases b2
  cases b3
  have : pv = pv' := by
    clear a4 b4
    generalize cols.zip vals = l at hc a1 b1
    induction l generalizing pv pv' with
    | nil => cases a1; cases b1; rfl
    | cons p l ih =>
      cases a1 with
      | cons x1 y1 =>
        cases b1 with
        | cons x2 y2 =>
          have hp := hc p (by simp)
          rw [C38_unique p.1 p.2 i _ _ (by rw [hp.1]; exact hi) hp.2 x1 x2, ih _ _ (fun q hq => hc q (by simp [hq])) y1 y2]
  rw [a4, b4, this]

/-- C106: the residuals can be evaluated for all admissible values (no exception is raised inside of the solver). -/
theorem C106_evaluates_partial {lib : Lib τ} {F : β → List ℝ → ℝ} {index : List τ} {data : Data β} {x0 : List ℝ}
    {defs : List (String × Param)} {dyns : Dict String (List Int)} (hv : Valid lib index data x0 defs dyns) {s : Setup}
    (hs : setup lib index defs = .ok s) (x : List ℝ) (hx : x.length = s.bounds.1.length) :
    ∃ r, resid F data x0 s x = .ok r ∧ r.length = index.length := by
  obtain ⟨hspec, hgl, hkeys, -⟩ := setup_spec lib hv.libOk index defs hv.names hv.fitted dyns hv.dyns hv.obs hv.regular hv.bounds s hs
  have hnd : dyns.keys.Nodup := by
    rw [hkeys]
    exact List.Sublist.nodup (List.Sublist.map _ List.filter_sublist) hv.names
  have hlen : (fittedOf defs).length = (dyns.map Prod.snd).length := by
    have := congrArg List.length hkeys
    simpa [Dict.keys] using this.symm
  have hbl : s.bounds.1.length = s.splitpos.sum := by
    rw [hspec.bounds, List.length_flatten, hspec.splitpos]
    congr 1
    exact lengths_zipWith hlen fun pc hpc => fullBound_length (hv.bounds pc hpc).2.2
  obtain ⟨vals, hvl, rfl⟩ := exists_split s.splitpos x (by rw [hx, hbl])
  obtain ⟨r, h1, h2, -⟩ := resid_cost F data x0 defs dyns s hspec hkeys hnd (by rw [hgl]; exact hv.complete) (by rw [hgl]; exact hv.empty)
    vals hvl
  exact ⟨r, h1, by rw [h2, hv.complete.sig]⟩

/-! ### more than 18 digits -/

def digitsDefs : List (String × Param) :=
  [("a", ⟨⟨true, .int 1, none⟩, .value (.scalar 0), none, ([0], [1])⟩),
    ("b", ⟨⟨true, .str manualStr, some [1000, 1000, 1000]⟩, .value (.scalar 0), none, ([0], [1])⟩),
    ("c", ⟨⟨true, .str manualStr, some [1000, 1000, 1000]⟩, .value (.scalar 0), none, ([0], [1])⟩),
    ("d", ⟨⟨true, .str manualStr, some [1000, 1000, 1000]⟩, .value (.scalar 0), none, ([0], [1])⟩),
    ("e", ⟨⟨true, .str manualStr, some [100, 100, 101]⟩, .value (.scalar 0), none, ([0], [1])⟩)]

def digitsDyns : Dict String (List Int) :=
  [("a", [0, 1, 1]), ("b", [11000, 11000, 11000]), ("c", [11000, 11000, 11000]), ("d", [11000, 11000, 11000]), ("e", [1100, 1100, 1101])]

theorem digits_setup : setup exampleLib [0, 1, 1] digitsDefs =
    .ok ⟨digitsDyns, [1100011000110001152, 11100011000110000128, 11100011000110000128], ["a", "b", "c", "d", "e"], [2, 1, 1, 1, 1],
      [0, 0, 0, 0, 0, 0], ([0, 0, 0, 0, 0, 0], [1, 1, 1, 1, 1, 1])⟩ := by
  have h1 : paramDynDict exampleLib [0, 1, 1] (digitsDefs.map fun kd => (kd.1, kd.2.toParamDef)) = .ok digitsDyns := by
    have e : (digitsDefs.map fun kd => (kd.1, kd.2.toParamDef)) = [("a", ⟨true, .int 1, none⟩),
      ("b", ⟨true, .str manualStr, some [1000, 1000, 1000]⟩), ("c", ⟨true, .str manualStr, some [1000, 1000, 1000]⟩),
      ("d", ⟨true, .str manualStr, some [1000, 1000, 1000]⟩), ("e", ⟨true, .str manualStr, some [100, 100, 101]⟩)] := rfl
    rw [e]
    decide +kernel
  have h2 : groupIndex (digitsDyns.map Prod.snd) = .ok [1100011000110001152, 11100011000110000128, 11100011000110000128] := by
    decide +kernel
  have ha : nunique digitsDyns [1100011000110001152, 11100011000110000128, 11100011000110000128] "a" = .ok 2 := by decide +kernel
  have hb : nunique digitsDyns [1100011000110001152, 11100011000110000128, 11100011000110000128] "b" = .ok 1 := by decide +kernel
  have hc : nunique digitsDyns [1100011000110001152, 11100011000110000128, 11100011000110000128] "c" = .ok 1 := by decide +kernel
  have hd : nunique digitsDyns [1100011000110001152, 11100011000110000128, 11100011000110000128] "d" = .ok 1 := by decide +kernel
  have he : nunique digitsDyns [1100011000110001152, 11100011000110000128, 11100011000110000128] "e" = .ok 1 := by decide +kernel
  have hst : ∀ (k : String) (p : Param) (n : Nat), 1 ≤ n →
      nunique digitsDyns [1100011000110001152, 11100011000110000128, 11100011000110000128] k = .ok n → p.start = .value (.scalar 0) →
      startOf digitsDyns [1100011000110001152, 11100011000110000128, 11100011000110000128] (k, p) = .ok (.list (List.replicate n 0)) := by
    intro k p n hn h hp
    unfold nunique at h
    unfold startOf
    simp only [bind, Except.bind] at h ⊢
    cases hk : Dict.getItem digitsDyns k with
    | error e => rw [hk] at h; cases h
    | ok dyn =>
      rw [hk] at h
      simp only [pure, Except.pure, Except.ok.injEq] at h
      simp only [hp, startvals, bind, Except.bind, pure, Except.pure, startVals, h]
      rw [if_pos hn]
  unfold setup
  rw [h1]
  simp only [bind, Except.bind, h2]
  have hf : (digitsDefs.filter fun kd => kd.2.fit) = digitsDefs := rfl
  rw [hf]
  unfold digitsDefs
  simp only [List.mapM_cons, List.mapM_nil, bind, Except.bind, pure, Except.pure, ha, hb, hc, hd, he, boundsOf,
    fun p => hst "a" p 2 (by norm_num) ha, fun p => hst "b" p 1 (by norm_num) hb, fun p => hst "c" p 1 (by norm_num) hc,
    fun p => hst "d" p 1 (by norm_num) hd, fun p => hst "e" p 1 (by norm_num) he]
  simp [packStart, packBounds, boundVals]

/-- C106: with more than 18 digits the dyn-groups of a parameter are merged: the parameter `e` has two dyn-groups, but no fit (with any
solver) results in two values. -/
theorem C106_digits_fails :
    paramDynDict exampleLib [0, 1, 1] (digitsDefs.map fun kd => (kd.1, kd.2.toParamDef)) = .ok digitsDyns ∧
    Dict.get? digitsDyns "e" = some [1100, 1100, 1101] ∧
    (∃ (solver : Solver), ∀ (F : Unit → List ℝ → ℝ) (data : Data Unit) (x0 : List ℝ),
      ∃ res, performfit solver exampleLib F [0, 1, 1] data x0 digitsDefs = .ok res) ∧
    ∀ (solver : Solver) (F : Unit → List ℝ → ℝ) (data : Data Unit) (x0 : List ℝ) (res : List (String × List ℝ)),
      performfit solver exampleLib F [0, 1, 1] data x0 digitsDefs = .ok res → ∀ v, ("e", v) ∈ res → v.length ≤ 1 := by
  refine ⟨?_, rfl, ⟨fun _ x _ _ => .ok x, fun F data x0 => ⟨_, by unfold performfit; rw [digits_setup]; rfl⟩⟩, ?_⟩
  · have e : (digitsDefs.map fun kd => (kd.1, kd.2.toParamDef)) = [("a", ⟨true, .int 1, none⟩),
      ("b", ⟨true, .str manualStr, some [1000, 1000, 1000]⟩), ("c", ⟨true, .str manualStr, some [1000, 1000, 1000]⟩),
      ("d", ⟨true, .str manualStr, some [1000, 1000, 1000]⟩), ("e", ⟨true, .str manualStr, some [100, 100, 101]⟩)] := rfl
    rw [e]
    decide +kernel
  · intro solver F data x0 res h v hv
    obtain ⟨s, x, hs, -, rfl⟩ := performfit_ok h
    rw [digits_setup] at hs
    cases hs
    simp [unpack, splitInto] at hv
    rw [hv]
    simp

/-! ### example -/

/-- A solver that returns a minimum within the boundaries if there is one (and fails otherwise). -/
noncomputable def exactSolver : Solver := by
  classical
  exact fun f x lo hi =>
    if h : lo.length = x.length ∧ hi.length = x.length ∧ ∃ y : List ℝ, y.length = x.length ∧ List.Forall₂ (· ≤ ·) lo y ∧
        List.Forall₂ (· ≤ ·) y hi ∧ (∃ r r0, f y = .ok r ∧ f x = .ok r0 ∧ sumSq r ≤ sumSq r0) ∧
        ∀ z r r', List.Forall₂ (· ≤ ·) lo z → List.Forall₂ (· ≤ ·) z hi → f y = .ok r → f z = .ok r' → sumSq r ≤ sumSq r'
    then .ok h.2.2.choose else .error .valueError

/-- The assumptions about the solver can be met. -/
example : SolverOk exactSolver ∧ SolverMin exactSolver := by
  constructor
  · intro f x lo hi y h
    unfold exactSolver at h
    split at h
    · rename_i hc
      cases h
      have := hc.2.2.choose_spec
      exact ⟨hc.1, hc.2.1, this.1, this.2.1, this.2.2.1, this.2.2.2.1⟩
    · cases h
  · intro f x lo hi y h
    unfold exactSolver at h
    split at h
    · rename_i hc
      cases h
      exact hc.2.2.choose_spec.2.2.2.2
    · cases h

def exampleDefs : List (String × Param) :=
  [("omega", ⟨⟨true, .int 1, none⟩, .value (.scalar 0), none, ([0], [1])⟩), ("N", ⟨⟨false, .none, none⟩, .value (.scalar 3), none, ([0], [1])⟩),
    ("tau", ⟨⟨true, .none, none⟩, .value (.list [1]), none, ([0], [2])⟩)]

/-- Two parameters for four observations at two times, one of them constant, the other one with one value for each time. -/
example : Valid (β := ℝ) exampleLib [5, 5, 7, 7] ⟨[0.1, 0.2, 0.3, 0.4], [1, 2, 3, 4], some [1, 1, 2, 2]⟩ [0, 0, 0, 0] exampleDefs
    [("omega", [0, 0, 1, 1]), ("tau", [1, 1, 1, 1])] where
  libOk := exampleLib_ok
  names := by decide
  fitted := by simp [exampleDefs, fittedOf]
  dyns := by
    have e : (exampleDefs.map fun kd => (kd.1, kd.2.toParamDef)) = [("omega", ⟨true, .int 1, none⟩), ("N", ⟨false, .none, none⟩),
      ("tau", ⟨true, .none, none⟩)] := rfl
    rw [e]
    decide +kernel
  obs := by simp
  regular := ⟨by simp, by simp, [1, 1], by simp, by norm_num⟩
  bounds := by
    intro pc hpc
    simp [exampleDefs, fittedOf] at hpc
    rcases hpc with rfl | rfl <;> simp [BoundFits]
  complete := ⟨rfl, rfl, by simp⟩
  empty := rfl

end RT1.PerformFit
