import Verif.Model.MultiDump
import Verif.Props.DumpState
import Verif.Lemmas.Config

/-!
# C123: dumping and loading `MultiFits` objects, access to their configurations
-/

namespace RT1.MultiDump
open General DumpState

variable {V : Type}

/-- An object as it is built by `add_config` with fits of the current version. -/
structure Good (sort : Val V → Val V) (s : State V) : Prop where
  parent : s.parent = .self
  nonempty : s.names ≠ []
  mem : ∀ n, n ∈ s.names ↔ n ∈ s.fits.keys
  nodup : s.fits.keys.Nodup
  fit : ∀ e ∈ s.fits, e.2.name = some e.1 ∧ Current e.2.attrs
  sorted : sort s.dataset = s.dataset

/-- A fit with the shared attributes of the object. -/
def synced (s : State V) (a : Attrs V) : Attrs V :=
  ((a.put .dataset s.dataset).put kAux s.aux).put kReader s.reader

theorem synced_of_ne (s : State V) (a : Attrs V) {k : Key} (h1 : k ≠ .dataset) (h2 : k ≠ kAux) (h3 : k ≠ kReader) :
    synced s a k = a k := by
  unfold synced
  rw [put_ne _ _ h3, put_ne _ _ h2, put_ne _ _ h1]

theorem kne : kReader ≠ kAux ∧ kAux ≠ .dataset ∧ kReader ≠ .dataset := by decide

theorem synced_shared (s : State V) (a : Attrs V) :
    synced s a .dataset = some s.dataset ∧ synced s a kAux = some s.aux ∧ synced s a kReader = some s.reader := by
  unfold synced
  refine ⟨?_, ?_, put_eq _ _ _⟩
  · rw [put_ne _ _ (by decide), put_ne _ _ (by decide), put_eq]
  · rw [put_ne _ _ (by decide), put_eq]

theorem synced_ext {s : State V} {a b : Attrs V} (h : ∀ k, k ≠ .dataset → k ≠ kAux → k ≠ kReader → a k = b k) :
    synced s a = synced s b := by
  funext k
  by_cases h1 : k = .dataset
  · subst h1; rw [(synced_shared s a).1, (synced_shared s b).1]
  by_cases h2 : k = kAux
  · subst h2; rw [(synced_shared s a).2.1, (synced_shared s b).2.1]
  by_cases h3 : k = kReader
  · subst h3; rw [(synced_shared s a).2.2, (synced_shared s b).2.2]
  rw [synced_of_ne s a h1 h2 h3, synced_of_ne s b h1 h2 h3, h k h1 h2 h3]

theorem synced_twice (s : State V) (a : Attrs V) : synced s (synced s a) = synced s a :=
  synced_ext fun _ h1 h2 h3 => synced_of_ne s a h1 h2 h3

theorem synced_agree {s : State V} {a b : Attrs V} (h : Agree a b) : Agree (synced s a) (synced s b) := by
  refine ⟨fun k hk => ?_, ?_⟩
  · by_cases h1 : k = .dataset
    · subst h1; rw [(synced_shared s a).1, (synced_shared s b).1]
    by_cases h2 : k = kAux
    · subst h2; rw [(synced_shared s a).2.1, (synced_shared s b).2.1]
    by_cases h3 : k = kReader
    · subst h3; rw [(synced_shared s a).2.2, (synced_shared s b).2.2]
    rw [synced_of_ne s a h1 h2 h3, synced_of_ne s b h1 h2 h3, h.core k hk]
  · rw [synced_of_ne s b (by decide) (by decide) (by decide)]; exact h.fnevals

theorem synced_current {s : State V} {a : Attrs V} (h : Current a) : Current (synced s a) := by
  have e : ∀ k, k ≠ .dataset → k ≠ kAux → k ≠ kReader → synced s a k = a k := fun k => synced_of_ne s a
  refine ⟨?_, ?_, ?_, ?_⟩
  · intro k hk
    by_cases h1 : k = .dataset
    · subst h1; rw [(synced_shared s a).1]; rfl
    · have hp := h.present k hk
      simp only [List.mem_cons, List.not_mem_nil, or_false] at hk
      rw [e k h1 (by rintro rfl; simp [kAux] at hk) (by rintro rfl; simp [kReader] at hk)]
      exact hp
  · rw [e _ (by decide) (by decide) (by decide)]; exact h.fitset
  · rw [e _ (by decide) (by decide) (by decide)]; exact h.res
  · rw [e _ (by decide) (by decide) (by decide)]; exact h.id

/-- A config before and after some operations. -/
structure Rel (s₀ : State V) (e₀ e : String × Cfg V) : Prop where
  key : e.1 = e₀.1
  name : e.2.name = some e.1
  agree : Agree e₀.2.attrs e.2.attrs ∨ Agree (synced s₀ e₀.2.attrs) e.2.attrs

structure Inv (s₀ s : State V) : Prop where
  names : s.names = s₀.names
  parent : s.parent = .self
  dataset : s.dataset = s₀.dataset
  aux : s.aux = s₀.aux
  reader : s.reader = s₀.reader
  fits : List.Forall₂ (Rel s₀) s₀.fits s.fits

theorem Rel.current {s₀ : State V} {e₀ e : String × Cfg V} (h : Rel s₀ e₀ e) (hc : Current e₀.2.attrs) : Current e.2.attrs := by
  rcases h.agree with a | a
  · exact a.current hc
  · exact a.current (synced_current hc)

theorem Inv.keys {s₀ s : State V} (h : Inv s₀ s) : s.fits.keys = s₀.fits.keys := by
  have h1 := h.fits
  unfold Dict.keys
  generalize s₀.fits = l₀ at h1
  generalize s.fits = l at h1
  induction h1 with
  | nil => rfl
  | cons a _ ih => rw [List.map_cons, List.map_cons, a.key, ih]

theorem Inv.map {s₀ s : State V} (h : Inv s₀ s) (g : String × Cfg V → String × Cfg V)
    (hg : ∀ e₀ ∈ s₀.fits, ∀ e ∈ s.fits, Rel s₀ e₀ e → Rel s₀ e₀ (g e)) : Inv s₀ { s with fits := s.fits.map g } := by
  refine ⟨h.names, h.parent, h.dataset, h.aux, h.reader, ?_⟩
  show List.Forall₂ (Rel s₀) s₀.fits (s.fits.map g)
  rw [List.forall₂_map_right_iff]
  have h1 := h.fits
  revert hg
  generalize s₀.fits = l₀ at h1
  generalize s.fits = l at h1
  intro hg
  induction h1 with
  | nil => exact .nil
  | cons a _ ih =>
    refine .cons (hg _ (by simp) _ (by simp) a) (ih fun e₀ m₀ e m => hg e₀ (by simp [m₀]) e (by simp [m]))

theorem Inv.refl {sort : Val V → Val V} {s : State V} (h : Good sort s) : Inv s s := by
  refine ⟨rfl, h.parent, rfl, rfl, rfl, ?_⟩
  rw [List.forall₂_same]
  intro e he
  obtain ⟨h1, h2⟩ := h.fit e he
  exact ⟨rfl, h1, .inl ⟨fun _ _ => rfl, h2.present _ (by simp)⟩⟩

theorem Inv.good {sort : Val V → Val V} {s₀ s : State V} (h₀ : Good sort s₀) (h : Inv s₀ s) : Good sort s := by
  refine ⟨h.parent, by rw [h.names]; exact h₀.nonempty, by rw [h.names, h.keys]; exact h₀.mem, by rw [h.keys]; exact h₀.nodup, ?_,
    by rw [h.dataset]; exact h₀.sorted⟩
  intro e he
  have : ∃ e₀ ∈ s₀.fits, Rel s₀ e₀ e := by
    have h1 := h.fits
    generalize s₀.fits = l₀ at h1
    generalize s.fits = l at h1 he
    induction h1 with
    | nil => cases he
    | cons a _ ih =>
      rcases List.mem_cons.mp he with rfl | he
      · exact ⟨_, by simp, a⟩
      · obtain ⟨e₀, m, r⟩ := ih he
        exact ⟨e₀, by simp [m], r⟩
  obtain ⟨e₀, m, r⟩ := this
  exact ⟨r.name, r.current (h₀.fit e₀ m).2⟩

/-! ### the operations for good objects -/

theorem Good.get {sort : Val V → Val V} {s : State V} (h : Good sort s) {n : String} (hn : n ∈ s.names) :
    ∃ f, s.fits.get? n = some f ∧ f.name = some n ∧ Current f.attrs ∧ (n, f) ∈ s.fits := by
  have := (Dict.get?_isSome s.fits n).mpr ((h.mem n).mp hn)
  obtain ⟨f, hf⟩ := Option.isSome_iff_exists.mp this
  have hm := Dict.mem_of_get? hf
  exact ⟨f, hf, (h.fit _ hm).1, (h.fit _ hm).2, hm⟩

theorem configFits_good {sort : Val V → Val V} {s : State V} (h : Good sort s) :
    ∃ d, configFits s = .ok d ∧ ∀ n ∈ s.names, n ∈ d.map Prod.snd := by
  have e1 : s.names.mapM (entry s) = .ok (s.names.map fun n => (n, n)) := by
    rw [General.mapM_ok_iff, List.forall₂_map_right_iff, List.forall₂_same]
    intro n hn
    obtain ⟨f, hf, h1, -, -⟩ := h.get hn
    unfold entry getFit
    rw [hf]
    simp only [bind, Except.bind, h1]
  refine ⟨Dict.ofList (s.names.map fun n => (n, n)), ?_, ?_⟩
  · unfold configFits parentNames
    rw [h.parent]
    simp only [bind, Except.bind, e1]
  · intro n hn
    have := (Dict.get?_ofList_functional (l := s.names.map fun n => (n, n)) (by
      intro k v v' h1 h2
      simp only [List.mem_map, Prod.mk.injEq] at h1 h2
      obtain ⟨_, _, rfl, rfl⟩ := h1
      obtain ⟨_, _, rfl, rfl⟩ := h2
      rfl) n n).mpr (List.mem_map.mpr ⟨n, hn, rfl⟩)
    exact List.mem_map.mpr ⟨(n, n), Dict.mem_of_get? this, rfl⟩

theorem markAll_good (c : Consts V) {sort : Val V → Val V} {s : State V} (h : Good sort s) (mini : Bool) :
    ∃ d, configFits s = .ok d ∧ markAll c mini d s = { s with fits := s.fits.map fun e => (e.1, markFit c mini e.2) } := by
  obtain ⟨d, h1, h2⟩ := configFits_good h
  refine ⟨d, h1, ?_⟩
  unfold markAll
  congr 1
  refine List.map_congr_left fun e he => ?_
  rw [if_pos (h2 e.1 ((h.mem _).mpr (List.mem_map.mpr ⟨e, he, rfl⟩)))]

theorem markFit_agree (c : Consts V) {a : Attrs V} {f : Cfg V} (h : Agree a f.attrs) (mini : Bool) :
    Agree a (markFit c mini f).attrs := by
  unfold markFit
  cases mini with
  | true =>
    refine ⟨fun k hk => ?_, ?_⟩
    · show f.attrs.put .dumpMini (.opaque c.true_) k = _
      rw [put_ne _ _ hk.ne.1]; exact h.core k hk
    · show (f.attrs.put .dumpMini (.opaque c.true_) .fnevals).isSome
      rw [put_ne _ _ (by decide)]; exact h.fnevals
  | false =>
    refine ⟨fun k hk => ?_, ?_⟩
    · show f.attrs.del .dumpMini k = _
      rw [del_ne _ hk.ne.1]; exact h.core k hk
    · show (f.attrs.del .dumpMini .fnevals).isSome
      rw [del_ne _ (by decide)]; exact h.fnevals

theorem Inv.attrs {s₀ s : State V} (h : Inv s₀ s) (g : Attrs V → Attrs V) (hg : ∀ a b, Agree a b → Agree a (g b)) :
    Inv s₀ { s with fits := s.fits.map fun e => (e.1, { e.2 with attrs := g e.2.attrs }) } := by
  refine h.map _ fun e₀ _ e _ r => ⟨r.key, r.name, ?_⟩
  rcases r.agree with a | a
  · exact .inl (hg _ _ a)
  · exact .inr (hg _ _ a)

theorem Inv.markAll {sort : Val V → Val V} (c : Consts V) {s₀ s : State V} (h₀ : Good sort s₀) (h : Inv s₀ s) (mini : Bool) :
    ∃ d, configFits s = .ok d ∧ Inv s₀ (MultiDump.markAll c mini d s) := by
  obtain ⟨d, h1, h2⟩ := markAll_good c (h.good h₀) mini
  refine ⟨d, h1, ?_⟩
  rw [h2]
  refine h.map _ fun e₀ _ e _ r => ⟨r.key, r.name, ?_⟩
  rcases r.agree with a | a
  · exact .inl (markFit_agree c a mini)
  · exact .inr (markFit_agree c a mini)

theorem unpickle_good (c : Consts V) (isIdent : String → Bool) {sort : Val V → Val V} {s : State V} (h : Good sort s) :
    unpickle c isIdent s = .ok s := by
  have e1 : s.fits.mapM (fitSetstate c) = .ok s.fits := by
    rw [General.mapM_ok_iff, List.forall₂_same]
    intro e he
    unfold fitSetstate
    rw [setstate_current c (h.fit e he).2]
    rfl
  obtain ⟨d, h1, h2⟩ := configFits_good h
  have e2 : multiSetstate s = .ok s := by
    unfold multiSetstate
    rw [h1]
    simp only [bind, Except.bind]
    congr 2
    conv_rhs => rw [← List.map_id s.fits]
    refine List.map_congr_left fun e he => ?_
    rw [if_neg (by rw [(h.fit e he).1]; simp)]
    rfl
  unfold unpickle
  rw [e1]
  simp only [bind, Except.bind]
  have e3 : containerSetstate isIdent ⟨s.names, s.fits, s.parent, s.dataset, s.aux, s.reader⟩ = .ok s := by
    unfold containerSetstate; simp only [h.parent]; rw [← h.parent]
  rw [e3]
  exact e2

theorem setAll_good {sort : Val V → Val V} {s : State V} (h : Good sort s) (f : Attrs V → Attrs V) :
    setAll f s = .ok { s with fits := s.fits.map fun e => (e.1, { e.2 with attrs := f e.2.attrs }) } := by
  unfold setAll
  rw [if_pos]
  · congr 2
    refine List.map_congr_left fun e he => ?_
    rw [if_pos ((h.mem _).mpr (List.mem_map.mpr ⟨e, he, rfl⟩))]
  · rw [List.all_eq_true]
    intro n hn
    rw [Dict.get?_isSome]
    exact (h.mem n).mp hn

/-- `setAll` only needs the names. -/
theorem setAll_names {s : State V} (h : ∀ n, n ∈ s.names ↔ n ∈ s.fits.keys) (f : Attrs V → Attrs V) :
    setAll f s = .ok { s with fits := s.fits.map fun e => (e.1, { e.2 with attrs := f e.2.attrs }) } := by
  unfold setAll
  rw [if_pos]
  · congr 2
    refine List.map_congr_left fun e he => ?_
    rw [if_pos ((h _).mpr (List.mem_map.mpr ⟨e, he, rfl⟩))]
  · rw [List.all_eq_true]
    intro n hn
    rw [Dict.get?_isSome]
    exact (h n).mp hn

theorem keys_map (l : Dict String (Cfg V)) (g : Cfg V → Cfg V) : Dict.keys (l.map fun e => (e.1, g e.2)) = l.keys := by
  unfold Dict.keys
  rw [List.map_map]
  rfl

theorem mem_keys_attrs (l : Dict String (Cfg V)) (f : Attrs V → Attrs V) (n : String) :
    n ∈ Dict.keys (l.map fun e => (e.1, ({ e.2 with attrs := f e.2.attrs } : Cfg V))) ↔ n ∈ l.keys := by
  rw [keys_map l fun x => { x with attrs := f x.attrs }]

theorem load_of (c : Consts V) (isIdent : String → Bool) {sort : Val V → Val V} (stem : V) {f s : State V}
    (hu : unpickle c isIdent f = .ok s) (hid : needsID s = .ok false) (hsort : sort s.dataset = s.dataset)
    (hmem : ∀ n, n ∈ s.names ↔ n ∈ s.fits.keys) :
    load c isIdent sort stem f = .ok { s with fits := s.fits.map fun e => (e.1, { e.2 with attrs := synced s e.2.attrs }) } := by
  let s1 : State V := { s with fits := s.fits.map fun e => (e.1, { e.2 with attrs := e.2.attrs.put .dataset s.dataset }) }
  let s2 : State V := { s1 with fits := s1.fits.map fun e => (e.1, { e.2 with attrs := e.2.attrs.put kAux s1.aux }) }
  have m1 : ∀ n, n ∈ s1.names ↔ n ∈ s1.fits.keys := fun n =>
    (hmem n).trans (mem_keys_attrs s.fits (fun a => a.put .dataset s.dataset) n).symm
  have m2 : ∀ n, n ∈ s2.names ↔ n ∈ s2.fits.keys := fun n =>
    (m1 n).trans (mem_keys_attrs s1.fits (fun a => a.put kAux s1.aux) n).symm
  have e1 : setAll (fun a => a.put .dataset s.dataset) s = .ok s1 := setAll_names hmem _
  have e2 : setAll (fun a => a.put kAux s1.aux) s1 = .ok s2 := setAll_names m1 _
  have e3 := setAll_names m2 fun a => a.put kReader s2.reader
  unfold load
  rw [hu]
  simp only [bind, Except.bind, hid, Bool.false_eq_true, if_false, hsort]
  have e1' : setAll (fun a => a.put .dataset s.dataset) ⟨s.names, s.fits, s.parent, s.dataset, s.aux, s.reader⟩ = .ok s1 := e1
  rw [e1']
  dsimp only
  rw [e2]
  refine e3.trans ?_
  simp only [s2, s1, List.map_map]
  rfl

theorem load_good (c : Consts V) (isIdent : String → Bool) {sort : Val V → Val V} (stem : V) {s : State V} (h : Good sort s) :
    load c isIdent sort stem s = .ok { s with fits := s.fits.map fun e => (e.1, { e.2 with attrs := synced s e.2.attrs }) } := by
  have hid : needsID s = .ok false := by
    unfold needsID
    cases hn : s.names with
    | nil => exact absurd hn h.nonempty
    | cons n l =>
      obtain ⟨f, h1, -, h2, -⟩ := h.get (n := n) (by rw [hn]; simp)
      obtain ⟨v, hv, hv2⟩ := h2.id
      simp only [h1, hv]
      cases v with
      | none => exact absurd rfl hv2
      | _ => rfl
  exact load_of c isIdent stem (unpickle_good c isIdent h) hid h.sorted h.mem

theorem Inv.load {s₀ s : State V} (h : Inv s₀ s) :
    Inv s₀ { s with fits := s.fits.map fun e => (e.1, { e.2 with attrs := synced s e.2.attrs }) } := by
  have es : ∀ a : Attrs V, synced s a = synced s₀ a := by
    intro a; unfold synced; rw [h.dataset, h.aux, h.reader]
  refine h.map _ fun e₀ _ e _ r => ⟨r.key, r.name, .inr ?_⟩
  show Agree _ (synced s e.2.attrs)
  rw [es]
  rcases r.agree with a | a
  · exact synced_agree a
  · have := synced_agree (s := s₀) a
    rwa [synced_twice] at this

open DumpSpec in
theorem step_inv (c : Consts V) (isIdent : String → Bool) {sort : Val V → Val V} (stem : V) {s₀ : State V} (h₀ : Good sort s₀)
    {w : World V} (ho : Inv s₀ w.obj) (hf : ∀ f, w.file = some f → Inv s₀ f) (op : Op) :
    Inv s₀ (step c isIdent sort stem w op).2.obj ∧ (∀ f, (step c isIdent sort stem w op).2.file = some f → Inv s₀ f) ∧
      (step c isIdent sort stem w op).1 = outcome w.file.isSome op ∧
      (step c isIdent sort stem w op).2.file.isSome = (w.file.isSome || creates op) := by
  cases op with
  | dump mini canOpen =>
    obtain ⟨d, h1, h2⟩ := ho.markAll c h₀ mini
    cases canOpen with
    | true =>
      have e : dump c w.obj mini true = (.ok (pickled (markAll c mini d w.obj)), afterPickle (markAll c mini d w.obj)) := by
        unfold dump; rw [h1]; rfl
      simp only [step, e]
      refine ⟨h2.attrs _ fun a b hab => (getstate_agree hab).2, ?_, rfl, by simp [creates]⟩
      intro f hf
      rw [← Option.some.inj hf]
      exact h2.attrs _ fun a b hab => (getstate_agree hab).1
    | false =>
      have e : dump c w.obj mini false = (.error .osError, markAll c mini d w.obj) := by
        unfold dump; rw [h1]; rfl
      simp only [step, e]
      exact ⟨h2, hf, rfl, by simp [creates]⟩
  | load =>
    cases hw : w.file with
    | none => simp only [step, hw]; exact ⟨ho, by rw [hw] at hf; exact hf, rfl, by simp [creates]⟩
    | some f =>
      have hg := (hf f hw).good h₀
      simp only [step, hw, load_good c isIdent stem hg]
      exact ⟨(hf f hw).load, fun f' h' => by cases h'; exact hf f hw, rfl, by simp [creates]⟩
  | send =>
    have hp : Inv s₀ (pickled w.obj) := ho.attrs _ fun a b hab => (getstate_agree hab).1
    simp only [step, unpickle_good c isIdent (hp.good h₀)]
    exact ⟨hp, hf, rfl, by simp [creates]⟩

open DumpSpec in
theorem run_inv (c : Consts V) (isIdent : String → Bool) {sort : Val V → Val V} (stem : V) {s₀ : State V} (h₀ : Good sort s₀)
    (l : List Op) {w : World V} (ho : Inv s₀ w.obj) (hf : ∀ f, w.file = some f → Inv s₀ f) :
    Inv s₀ (run c isIdent sort stem w l).2.obj ∧ (run c isIdent sort stem w l).1 = outcomes w.file.isSome l := by
  induction l generalizing w with
  | nil => exact ⟨ho, rfl⟩
  | cons op l ih =>
    obtain ⟨s1, s2, s3, s4⟩ := step_inv c isIdent stem h₀ ho hf op
    obtain ⟨i1, i2⟩ := ih s1 s2
    refine ⟨i1, ?_⟩
    simp only [run, outcomes, s3, i2, s4]

/-! ### the property -/

/-- Specification: `f` is the fit that is attached under the name `n`. -/
def Attached (s : State V) (n : String) (f : Cfg V) : Prop := (n, f) ∈ s.fits

theorem Inv.attached {s₀ s : State V} (h : Inv s₀ s) {n : String} {f : Cfg V} (hf : Attached s n f) :
    ∃ f₀, Attached s₀ n f₀ ∧ Rel s₀ (n, f₀) (n, f) := by
  have h1 := h.fits
  unfold Attached at hf ⊢
  generalize s₀.fits = l₀ at h1
  generalize s.fits = l at h1 hf
  induction h1 with
  | nil => cases hf
  | cons a _ ih =>
    rcases List.mem_cons.mp hf with rfl | hf
    · rename_i e₀ _ _ _
      obtain ⟨k, f₀⟩ := e₀
      have hk : n = k := a.key
      subst hk
      exact ⟨f₀, by simp, a⟩
    · obtain ⟨f₀, m, r⟩ := ih hf
      exact ⟨f₀, by simp [m], r⟩

/-- C123: no sequence of dumps (mini or not, also failing ones), loads and transfers to other processes changes the names of the
configurations, their order, or the definition and results of a fit; the dataset, auxiliary data and reader arguments of a fit stay
the ones of the fit or become those of the MultiFits object.  Operations only fail if the file cannot be opened. -/
theorem C123_core (c : Consts V) (isIdent : String → Bool) (sort : Val V → Val V) (stem : V) (s : State V) (h : Good sort s) (l : List Op) :
    let r := run c isIdent sort stem ⟨s, none⟩ l
    r.1 = DumpSpec.outcomes false l ∧ r.2.obj.names = s.names ∧ r.2.obj.fits.map Prod.fst = s.fits.map Prod.fst ∧
      ∀ n f, Attached r.2.obj n f → ∃ f₀, Attached s n f₀ ∧ f.name = f₀.name ∧
        (∀ k, Core k → k ≠ .dataset → k ≠ .other "aux_data" → k ≠ .other "reader_arg" → f.attrs k = f₀.attrs k) ∧
        (f.attrs .dataset = f₀.attrs .dataset ∨ f.attrs .dataset = some s.dataset) ∧
        (f.attrs (.other "aux_data") = f₀.attrs (.other "aux_data") ∨ f.attrs (.other "aux_data") = some s.aux) ∧
        (f.attrs (.other "reader_arg") = f₀.attrs (.other "reader_arg") ∨ f.attrs (.other "reader_arg") = some s.reader) := by
  intro r
  obtain ⟨h1, h2⟩ := run_inv c isIdent stem h l (w := ⟨s, none⟩) (Inv.refl h) (fun _ hf => nomatch hf)
  refine ⟨h2, h1.names, h1.keys, ?_⟩
  intro n f hf
  obtain ⟨f₀, m, rel⟩ := h1.attached hf
  refine ⟨f₀, m, ?_, ?_⟩
  · have e1 : f.name = some n := rel.name
    rw [e1, ((h.fit _ m).1 : f₀.name = some n)]
  · rcases rel.agree with a | a
    · exact ⟨fun k hk _ _ _ => a.core k hk, .inl (a.core _ (by simp [Core])), .inl (a.core _ (by simp [Core])), .inl (a.core _ (by simp [Core]))⟩
    · obtain ⟨q1, q2, q3⟩ := synced_shared s f₀.attrs
      refine ⟨fun k hk k1 k2 k3 => ?_, .inr ((a.core _ (by simp [Core])).trans q1), .inr ((a.core kAux (by simp [Core, kAux])).trans q2),
        .inr ((a.core kReader (by simp [Core, kReader])).trans q3)⟩
      rw [a.core k hk]
      exact synced_of_ne s f₀.attrs k1 k2 k3

/-- Specification: the fits have the dataset, auxiliary data and reader arguments of the MultiFits object. -/
def Shared (s : State V) : Prop := ∀ n f, Attached s n f →
  f.attrs .dataset = some s.dataset ∧ f.attrs (.other "aux_data") = some s.aux ∧ f.attrs (.other "reader_arg") = some s.reader

/-- C123 (partial): if all fits share the data, then the data are kept as well.  (Missing: fits with own data, where it is false.) -/
theorem C123_data_partial (c : Consts V) (isIdent : String → Bool) (sort : Val V → Val V) (stem : V) (s : State V) (h : Good sort s)
    (hs : Shared s) (l : List Op) (n : String) (f : Cfg V) (hf : Attached (run c isIdent sort stem ⟨s, none⟩ l).2.obj n f) :
    ∃ f₀, Attached s n f₀ ∧ ∀ k, Core k → f.attrs k = f₀.attrs k := by
  obtain ⟨-, -, -, h4⟩ := C123_core c isIdent sort stem s h l
  obtain ⟨f₀, m, -, a1, a2, a3, a4⟩ := h4 n f hf
  obtain ⟨b1, b2, b3⟩ := hs n f₀ m
  refine ⟨f₀, m, fun k hk => ?_⟩
  by_cases h1 : k = .dataset
  · subst h1; rcases a2 with e | e
    · exact e
    · rw [e, b1]
  by_cases h2 : k = .other "aux_data"
  · subst h2; rcases a3 with e | e
    · exact e
    · rw [e, b2]
  by_cases h3 : k = .other "reader_arg"
  · subst h3; rcases a4 with e | e
    · exact e
    · rw [e, b3]
  exact a1 k hk h1 h2 h3

theorem cfg_eta (f : Cfg V) (a : Attrs V) (h : a = f.attrs) : ({ f with attrs := a } : Cfg V) = f := by subst h; rfl

theorem map_id_of {s : State V} (g : String × Cfg V → String × Cfg V) (h : ∀ e ∈ s.fits, g e = e) : { s with fits := s.fits.map g } = s := by
  have : s.fits.map g = s.fits := by
    conv_rhs => rw [← List.map_id s.fits]
    exact List.map_congr_left h
  rw [this]

theorem synced_self {s : State V} (hs : Shared s) {e : String × Cfg V} (he : e ∈ s.fits) : synced s e.2.attrs = e.2.attrs := by
  obtain ⟨b1, b2, b3⟩ := hs e.1 e.2 he
  funext k
  obtain ⟨q1, q2, q3⟩ := synced_shared s e.2.attrs
  by_cases h1 : k = .dataset
  · subst h1; rw [q1, b1]
  by_cases h2 : k = kAux
  · subst h2; rw [q2]; exact b2.symm
  by_cases h3 : k = kReader
  · subst h3; rw [q3]; exact b3.symm
  exact synced_of_ne s _ h1 h2 h3

/-- C123 (partial): a full dump restores the complete object. -/
theorem C123_full_partial (c : Consts V) (isIdent : String → Bool) (sort : Val V → Val V) (stem : V) (s : State V) (h : Good sort s)
    (hs : Shared s) (hm : ∀ n f, Attached s n f → f.attrs .dumpMini = none) :
    (run c isIdent sort stem ⟨s, none⟩ [.dump false true, .load]).2 = ⟨s, some s⟩ := by
  obtain ⟨d, h1, h2⟩ := markAll_good c h false
  have e0 : markAll c false d s = s := by
    rw [h2]
    refine map_id_of _ fun e he => ?_
    have : e.2.attrs.del .dumpMini = e.2.attrs := by
      funext k
      by_cases hk : k = .dumpMini
      · subst hk; rw [del_eq]; exact (hm e.1 e.2 he).symm
      · exact del_ne _ hk
    show (e.1, ({ e.2 with attrs := e.2.attrs.del .dumpMini } : Cfg V)) = e
    rw [cfg_eta _ _ this]
  have hg : ∀ e ∈ s.fits, getstate e.2.attrs = (e.2.attrs, e.2.attrs) := by
    intro e he
    unfold getstate
    rw [hm e.1 e.2 he]
  have e1 : pickled s = s := map_id_of _ fun e he => by rw [hg e he]
  have e2 : afterPickle s = s := map_id_of _ fun e he => by rw [hg e he]
  have e3 : dump c s false true = (.ok s, s) := by
    unfold dump; rw [h1]; simp only [if_true]; rw [e0, e1, e2]
  have e4 : load c isIdent sort stem s = .ok s := by
    rw [load_good c isIdent stem h]
    congr 1
    exact map_id_of _ fun e he => by rw [synced_self hs he]
  simp only [run, step, e3, e4]

/-- C123: a mini-dump leaves the object as it was (no marks remain); the fits of the file have no pre-evaluated functions. -/
theorem C123_mini (c : Consts V) (isIdent : String → Bool) (sort : Val V → Val V) (stem : V) (s : State V) (h : Good sort s)
    (hm : ∀ n f, Attached s n f → f.attrs .dumpMini = none) :
    (run c isIdent sort stem ⟨s, none⟩ [.dump true true]).2.obj = s ∧
      ∀ n f, Attached (run c isIdent sort stem ⟨s, none⟩ [.dump true true, .load]).2.obj n f →
        f.attrs .fnevals = some .none ∧ f.attrs .dumpMini = none := by
  obtain ⟨d, h1, h2⟩ := markAll_good c h true
  have hmk : ∀ f : Cfg V, (markFit c true f).attrs .dumpMini = some (.opaque c.true_) := by
    intro f; show f.attrs.put .dumpMini _ .dumpMini = _; rw [put_eq]
  have hg1 : ∀ f : Cfg V, (getstate (markFit c true f).attrs).2 = (markFit c true f).attrs.del .dumpMini := by
    intro f; unfold getstate; rw [hmk]
  have e2 : afterPickle (markAll c true d s) = s := by
    rw [h2]
    unfold afterPickle
    simp only [List.map_map]
    refine map_id_of _ fun e he => ?_
    have : (getstate (markFit c true e.2).attrs).2 = e.2.attrs := by
      rw [hg1]
      funext k
      by_cases hk : k = .dumpMini
      · subst hk; rw [del_eq]; exact (hm e.1 e.2 he).symm
      · rw [del_ne _ hk]
        show e.2.attrs.put .dumpMini _ k = _
        rw [put_ne _ _ hk]
    show (e.1, ({ (markFit c true e.2) with attrs := (getstate (markFit c true e.2).attrs).2 } : Cfg V)) = e
    rw [this]
    rfl
  have e3 : dump c s true true = (.ok (pickled (markAll c true d s)), s) := by
    unfold dump; rw [h1]; simp only [if_true]; rw [e2]
  refine ⟨by simp only [run, step, e3], ?_⟩
  have hinv : Inv s (pickled (markAll c true d s)) := by
    obtain ⟨d', g1, g2⟩ := (Inv.refl h).markAll c h true
    rw [h1] at g1
    cases g1
    exact g2.attrs _ fun a b hab => (getstate_agree hab).1
  have e4 := load_good c isIdent stem (hinv.good h)
  intro n f hf
  simp only [run, step, e3, e4] at hf
  unfold Attached at hf
  simp only at hf
  obtain ⟨e, he, heq⟩ := List.mem_map.mp hf
  rw [h2] at he
  obtain ⟨e', he', heq'⟩ := List.mem_map.mp he
  obtain ⟨e'', -, heq''⟩ := List.mem_map.mp he'
  have hfa : f.attrs = synced (pickled (markAll c true d s)) (getstate (markFit c true e''.2).attrs).1 := by
    have : f = { e.2 with attrs := synced (pickled (markAll c true d s)) e.2.attrs } := (congrArg Prod.snd heq).symm
    rw [this, ← heq', ← heq'']
  rw [hfa, synced_of_ne _ _ (by decide) (by decide) (by decide), synced_of_ne _ _ (by decide) (by decide) (by decide)]
  unfold getstate
  rw [hmk]
  dsimp only
  refine ⟨?_, ?_⟩
  · rw [put_ne _ _ (by decide), put_eq]
  · rw [put_ne _ _ (by decide), put_ne _ _ (by decide), del_eq]

/-- C123: after `load`, all fits have the data of the MultiFits object. -/
theorem C123_shared (c : Consts V) (isIdent : String → Bool) (sort : Val V → Val V) (stem : V) (s : State V) (h : Good sort s) :
    ∃ s', load c isIdent sort stem s = .ok s' ∧ Shared s' ∧ s'.dataset = s.dataset ∧ s'.aux = s.aux ∧ s'.reader = s.reader := by
  refine ⟨_, load_good c isIdent stem h, ?_, rfl, rfl, rfl⟩
  intro n f hf
  obtain ⟨e, -, heq⟩ := List.mem_map.mp hf
  have : f = { e.2 with attrs := synced s e.2.attrs } := (congrArg Prod.snd heq).symm
  rw [this]
  exact synced_shared s e.2.attrs

/-- C123 fails: a fit with its own dataset (`mf.configs.a.dataset = …`) loses it if the object is loaded: whatever dataset, it is
replaced by the one of the MultiFits object. -/
theorem C123_own_fails (c : Consts V) (isIdent : String → Bool) (sort : Val V → Val V) (stem : V) (s : State V) (h : Good sort s)
    (n : String) (f : Cfg V) (hf : Attached s n f) (own : Val V) (ho : f.attrs .dataset = some own) (hne : own ≠ s.dataset) :
    ∃ s' f', load c isIdent sort stem s = .ok s' ∧ Attached s' n f' ∧ f'.attrs .dataset ≠ f.attrs .dataset := by
  refine ⟨_, { f with attrs := synced s f.attrs }, load_good c isIdent stem h, List.mem_map.mpr ⟨(n, f), hf, rfl⟩, ?_⟩
  show synced s f.attrs .dataset ≠ _
  rw [(synced_shared s f.attrs).1, ho]
  intro e
  exact hne (Option.some.inj e).symm

/-- C123 fails: an object without configurations can be dumped but not loaded. -/
theorem C123_empty_fails (c : Consts V) (isIdent : String → Bool) (sort : Val V → Val V) (stem : V) (ds aux reader : Val V) :
    (run c isIdent sort stem ⟨⟨[], [], .self, ds, aux, reader⟩, none⟩ [.dump true true, .load]).1 = [.ok (), .error .assertionError] := rfl

/-! ### files of previous versions -/

/-- C123 (files of previous versions): the container without `_parent` gets the names of its fits; the fits get the data of the MultiFits
object from `load`, whatever `__setstate__` does with them. -/
theorem C123_legacy (c : Consts V) (isIdent : String → Bool) (sort : Val V → Val V) (stem : V) (s : State V) (hp : s.parent = .missing)
    (hne : s.names ≠ []) (hmem : ∀ n, n ∈ s.names ↔ n ∈ s.fits.keys) (hc : ∀ e ∈ s.fits, Current e.2.attrs)
    (hid : ∀ n ∈ s.names, isIdent n = true ∧ n ∉ MultiFits.reserved) (hsort : sort s.dataset = s.dataset) :
    ∃ s', load c isIdent sort stem s = .ok s' ∧ Shared s' ∧ s'.dataset = s.dataset ∧ s'.aux = s.aux ∧ s'.reader = s.reader ∧
      s'.names = s.names ∧ s'.fits.map Prod.fst = s.fits.map Prod.fst ∧
      ∀ n f, Attached s' n f → f.name = some n ∧ ∃ f₀, Attached s n f₀ ∧
        ∀ k, k ≠ .dataset → k ≠ .other "aux_data" → k ≠ .other "reader_arg" → f.attrs k = f₀.attrs k := by
  have e1 : s.fits.mapM (fitSetstate c) = .ok s.fits := by
    rw [General.mapM_ok_iff, List.forall₂_same]
    intro e he
    unfold fitSetstate
    rw [setstate_current c (hc e he)]
    rfl
  let g : String × Cfg V → String × Cfg V := fun e => (e.1, ⟨(e.2.attrs.put .dataset .none).put kAux .none, some e.1⟩)
  have e2 : s.fits.mapM (legacyFit isIdent) = .ok (s.fits.map g) := by
    rw [General.mapM_ok_iff, List.forall₂_map_right_iff, List.forall₂_same]
    intro e he
    obtain ⟨i1, i2⟩ := hid e.1 ((hmem _).mpr (List.mem_map.mpr ⟨e, he, rfl⟩))
    unfold legacyFit
    rw [if_neg (by simp [i1, i2])]
  let s1 : State V := { s with fits := s.fits.map g, parent := .own (s.fits.map Prod.fst) }
  have k1 : s1.fits.keys = s.fits.keys := by
    show Dict.keys (s.fits.map g) = _
    unfold Dict.keys
    rw [List.map_map]
    rfl
  have e3 : (s.fits.map Prod.fst).mapM (entry s1) = .ok ((s.fits.map Prod.fst).map fun n => (n, n)) := by
    rw [General.mapM_ok_iff, List.forall₂_map_right_iff, List.forall₂_same]
    intro n hn
    obtain ⟨f, hf⟩ := Option.isSome_iff_exists.mp ((Dict.get?_isSome s1.fits n).mpr (by rw [k1]; exact hn))
    have hm := Dict.mem_of_get? hf
    obtain ⟨e, -, heq⟩ := List.mem_map.mp hm
    have hfn : f.name = some n := by
      have h1 : f = (g e).2 := by rw [heq]
      have h2 : n = (g e).1 := by rw [heq]
      rw [h1, h2]
    unfold entry getFit
    rw [hf]
    simp only [bind, Except.bind, hfn]
  have e4 : multiSetstate s1 = .ok s1 := by
    unfold multiSetstate configFits parentNames
    show (do
      let d ← (do
        let l ← (Except.ok (s.fits.map Prod.fst) : Except PyErr (List String))
        let es ← l.mapM (entry s1)
        .ok (Dict.ofList es))
      .ok { s1 with fits := s1.fits.map fun (e : String × Cfg V) =>
        (e.1, if e.2.name = none ∧ e.1 ∈ d.map Prod.snd then { e.2 with name := (d.find? fun (x : String × String) => x.2 = e.1).map Prod.fst } else e.2) }) = _
    simp only [bind, Except.bind, e3]
    congr 1
    refine map_id_of _ fun e he => ?_
    obtain ⟨e', -, rfl⟩ := List.mem_map.mp he
    rw [if_neg (by simp [g])]
  have e5 : unpickle c isIdent s = .ok s1 := by
    unfold unpickle
    rw [e1]
    simp only [bind, Except.bind]
    unfold containerSetstate
    simp only [hp, e2, bind, Except.bind]
    exact e4
  have hmem1 : ∀ n, n ∈ s1.names ↔ n ∈ s1.fits.keys := by intro n; rw [k1]; exact hmem n
  have e6 : needsID s1 = .ok false := by
    unfold needsID
    cases hn : s1.names with
    | nil => exact absurd hn hne
    | cons n l =>
      obtain ⟨f, hf⟩ := Option.isSome_iff_exists.mp ((Dict.get?_isSome s1.fits n).mpr ((hmem1 n).mp (by rw [hn]; simp)))
      obtain ⟨e, he, heq⟩ := List.mem_map.mp (Dict.mem_of_get? hf)
      obtain ⟨v, hv, hv2⟩ := (hc e he).id
      have : f.attrs .id = some v := by
        have h1 : f = (g e).2 := by rw [heq]
        rw [h1]
        show ((e.2.attrs.put .dataset .none).put kAux .none) .id = _
        rw [put_ne _ _ (by decide), put_ne _ _ (by decide), hv]
      simp only [hf, this]
      cases v with
      | none => exact absurd rfl hv2
      | _ => rfl
  have e7 : load c isIdent sort stem s =
      .ok { s1 with fits := s1.fits.map fun e => (e.1, { e.2 with attrs := synced s1 e.2.attrs }) } := by
    exact load_of c isIdent stem e5 e6 hsort hmem1
  refine ⟨_, e7, ?_, rfl, rfl, rfl, rfl, ?_, ?_⟩
  · intro n f hf
    obtain ⟨e, -, heq⟩ := List.mem_map.mp hf
    have : f = { e.2 with attrs := synced s1 e.2.attrs } := (congrArg Prod.snd heq).symm
    rw [this]
    exact synced_shared s1 e.2.attrs
  · show Dict.keys (s1.fits.map fun e => (e.1, { e.2 with attrs := synced s1 e.2.attrs })) = _
    rw [keys_map s1.fits fun f => { f with attrs := synced s1 f.attrs }]
    exact k1
  · intro n f hf
    obtain ⟨e, he, heq⟩ := List.mem_map.mp hf
    obtain ⟨e', he', rfl⟩ := List.mem_map.mp he
    have hn : n = e'.1 := (congrArg Prod.fst heq).symm
    have hfe : f = ⟨synced s1 ((e'.2.attrs.put .dataset .none).put kAux .none), some e'.1⟩ := (congrArg Prod.snd heq).symm
    subst hn
    subst hfe
    refine ⟨rfl, e'.2, he', fun k h1 h2 h3 => ?_⟩
    show synced s1 _ k = _
    rw [synced_of_ne s1 _ h1 h2 h3]
    exact (put_ne _ _ h2).trans (put_ne _ _ h1)

/-- C123 fails: a configuration that is added to an object from such a file is not found (`configs[name]` raises AssertionError), since
its name is only added to the list of the object, not to the list of the container. -/
theorem C123_legacy_add_fails (isIdent : String → Bool) (s : State V) (l : List String) (hp : s.parent = .own l) (n : String) (hn : n ∉ l)
    (a : Attrs V) (s' : State V) (h : addConfig isIdent s n a = .ok s') : n ∈ s'.names ∧ getItem s' (.str n) = .error .assertionError := by
  unfold addConfig at h
  split at h
  · cases h
  · cases h
    refine ⟨by simp, ?_⟩
    unfold getItem parentNames
    simp only [hp, bind, Except.bind, hn, if_false]

/-- C123 fails: fits without `config_name` cannot be loaded: the dict of the configurations, from which the missing names are to be
set, already needs them. -/
theorem C123_config_name_fails (s : State V) (hp : s.parent = .self) (n : String) (l : List String) (hn : s.names = n :: l) (f : Cfg V)
    (hf : s.fits.get? n = some f) (hnone : f.name = none) : multiSetstate s = .error .attributeError := by
  unfold multiSetstate configFits parentNames
  simp only [hp, bind, Except.bind, hn, List.mapM_cons]
  have : entry s n = .error .attributeError := by
    unfold entry getFit
    simp only [hf, bind, Except.bind, hnone]
  rw [this]

/-! ### access -/

/-- C123 (access): `configs[name]` is the fit with the name, `configs[i]` the i-th one (counted from the end for negative numbers);
other names and numbers raise. -/
theorem C123_getitem (sort : Val V → Val V) (s : State V) (h : Good sort s) :
    (∀ n ∈ s.names, ∃ f, Attached s n f ∧ getItem s (.str n) = .ok f) ∧
    (∀ n, n ∉ s.names → getItem s (.str n) = .error .assertionError) ∧
    (∀ a n b, s.names = a ++ n :: b → ∃ f, Attached s n f ∧ getItem s (.int a.length) = .ok f ∧
      getItem s (.int (-(b.length + 1 : Int))) = .ok f) ∧
    (∀ i : Int, s.names.length ≤ i → getItem s (.int i) = .error .assertionError) ∧
    (∀ i : Int, i < -(s.names.length : Int) → getItem s (.int i) = .error .indexError) ∧
    getItem s .other = .error .attributeError := by
  have hpn : parentNames s = .ok s.names := by unfold parentNames; rw [h.parent]
  refine ⟨?_, ?_, ?_, ?_, ?_, rfl⟩
  · intro n hn
    obtain ⟨f, h1, -, -, h2⟩ := h.get hn
    refine ⟨f, h2, ?_⟩
    unfold getItem getFit
    simp only [hpn, bind, Except.bind, hn, if_true, h1]
  · intro n hn
    unfold getItem
    simp only [hpn, bind, Except.bind, hn, if_false]
  · intro a n b hab
    obtain ⟨f, h1, -, -, h2⟩ := h.get (n := n) (by rw [hab]; simp)
    have hg : (a ++ n :: b)[a.length]? = some n := by simp
    refine ⟨f, h2, ?_, ?_⟩
    · have hp1 : pyIndex (a ++ n :: b) a.length = .ok n := by
        unfold pyIndex
        simp only [show ¬ ((a.length : Int) < 0) by omega, if_false, Int.toNat_natCast, hg]
      unfold getItem getFit
      simp only [hpn, bind, Except.bind, hab, hp1, h1]
      rw [if_pos (by simp)]
    · have hp1 : pyIndex (a ++ n :: b) (-(b.length + 1 : Int)) = .ok n := by
        unfold pyIndex
        have e : (-(b.length + 1 : Int)) + ((a ++ n :: b).length : Int) = a.length := by simp; omega
        simp only [show (-(b.length + 1 : Int)) < 0 by omega, if_true, e, show ¬ ((a.length : Int) < 0) by omega, if_false,
          Int.toNat_natCast, hg]
      unfold getItem getFit
      simp only [hpn, bind, Except.bind, hab, hp1, h1]
      rw [if_pos (by simp; omega)]
  · intro i hi
    unfold getItem
    simp only [hpn, bind, Except.bind]
    rw [if_neg (by omega)]
  · intro i hi
    have : pyIndex s.names i = .error .indexError := by
      unfold pyIndex
      simp only [show i < 0 by omega, if_true, show i + (s.names.length : Int) < 0 by omega]
    unfold getItem
    simp only [hpn, bind, Except.bind, this]
    rw [if_pos (by omega)]

/-! ### an example -/

/-- A fit of the current version. -/
def exFit : Attrs String := fun k => match k with
  | .plot => some (.opaque "plots")
  | .verbose => some (.opaque "2")
  | .lsqKwargs => some (.dict [])
  | .intQ => some (.opaque "True")
  | .backend => some (.opaque "cse")
  | .fnevals => some .none
  | .dataset => some (.opaque "data")
  | .id => some (.opaque "RT1_fit")
  | .other "aux_data" => some .none
  | .other "reader_arg" => some (.dict [])
  | _ => none

def exState : State String := ⟨["a", "b"], [("a", ⟨exFit, some "a"⟩), ("b", ⟨exFit, some "b"⟩)], .self, .opaque "data", .none, .dict []⟩

theorem exGood : Good id exState := by
  have hc : Current exFit := by
    refine ⟨?_, rfl, ?_, ⟨_, rfl, by simp⟩⟩
    · intro k hk
      simp only [List.mem_cons, List.not_mem_nil, or_false] at hk
      rcases hk with rfl | rfl | rfl | rfl | rfl | rfl | rfl <;> rfl
    · intro v hv; cases hv
  refine ⟨rfl, by simp [exState], ?_, by simp [exState, Dict.keys], ?_, rfl⟩
  · intro n; simp [exState, Dict.keys]
  · intro e he
    simp only [exState, List.mem_cons, List.not_mem_nil, or_false] at he
    rcases he with rfl | rfl <;> exact ⟨rfl, hc⟩

example : Good id exState ∧ Shared exState ∧ ∀ n f, Attached exState n f → f.attrs .dumpMini = none := by
  refine ⟨exGood, ?_, ?_⟩ <;>
  · intro n f hf
    simp only [Attached, exState, List.mem_cons, List.not_mem_nil, or_false, Prod.mk.injEq] at hf
    rcases hf with ⟨rfl, rfl⟩ | ⟨rfl, rfl⟩ <;> first | exact ⟨rfl, rfl, rfl⟩ | rfl

end RT1.MultiDump
