import Verif.Model.Cache
import Mathlib.Tactic.Common

/-! Helper lemmas for the caches. -/

namespace RT1.Cache
open General

variable {S B D F M ν : Type}

theorem mem_cachedProps (q : Name) : q ∈ cachedProps := by cases q <;> decide

/-- All reads of a program have smaller rank than `n`. -/
def Prog.Below (rank : Name → Nat) (n : Nat) : Prog ν → Prop
  | .ret _ => True
  | .raise _ => True
  | .ask q _ k => rank q < n ∧ ∀ r, (k r).Below rank n

/-- Every successful run reads a cached property successfully. -/
def Prog.AsksProp : Prog ν → Prop
  | .ret _ => False
  | .raise _ => True
  | .ask q _ k => (q.isProp = true ∨ ∀ v, (k (.ok v)).AsksProp) ∧ ∀ e, (k (.error e)).AsksProp

theorem eval_congr {rd rd' : Name → List String → Except PyErr ν} {rank : Name → Nat} {n : Nat} (p : Prog ν)
    (hb : p.Below rank n) (h : ∀ q args, rank q < n → rd q args = rd' q args) : p.eval rd = p.eval rd' := by
  induction p with
  | ret v => rfl
  | raise e => rfl
  | ask q args k ih =>
    simp only [Prog.eval]
    rw [h q args hb.1]
    exact ih _ (hb.2 _)

/-- The bodies as assumed: the quantities do not depend on each other circularly, the cached methods `set_model` and
`_meandt_interp_assigns` read a cached property, `_assignvals_log_message` returns the same value (None) always. -/
structure Valid (c : Cls S B D F M ν) (rank : Name → Nat) : Prop where
  below : ∀ q o args a, (c.body q o args a).Below rank (rank q)
  set_model : ∀ o args a, (c.body .set_model o args a).AsksProp
  interp : ∀ o args a, (c.body .meandt_interp_assigns o args a).AsksProp
  message : ∃ w, ∀ o args a, c.body .assignvals_log_message o args a = .ret w

theorem scratch_fuel {c : Cls S B D F M ν} {rank : Name → Nat} (hc : Valid c rank) (o : Nat) (a : Attrs S B D F M) :
    ∀ (fuel : Nat) (q : Name) (args : List String), rank q < fuel →
      scratch c o a fuel q args = scratch c o a (rank q + 1) q args := by
  intro fuel
  induction fuel using Nat.strong_induction_on with
  | _ fuel ih =>
    intro q args h
    obtain ⟨n, rfl⟩ : ∃ n, fuel = n + 1 := ⟨fuel - 1, by omega⟩
    simp only [scratch]
    refine eval_congr _ (hc.below q o args a) ?_
    intro q' args' hq'
    rw [ih n (by omega) q' args' (by omega)]
    by_cases e : rank q < n + 1 ∧ rank q ≠ n
    · rw [ih (rank q) (by omega) q' args' hq']
    · have : rank q = n := by omega
      rw [this, ih n (by omega) q' args' (by omega)]

theorem mem_of_lookup {l : List (Key × ν)} {k : Key} {v : ν} (h : lookup l k = some v) : (k, v) ∈ l := by
  unfold lookup at h
  rw [Option.map_eq_some_iff] at h
  obtain ⟨e, he, rfl⟩ := h
  have h1 := List.mem_of_find?_eq_some he
  have h2 := List.find?_some he
  simp only [decide_eq_true_eq] at h2
  rw [← h2]
  exact h1

theorem mem_touch {l : List (Key × ν)} {k : Key} {e : Key × ν} : e ∈ touch l k ↔ e ∈ l := by
  unfold touch
  simp only [List.mem_append, List.mem_filter, decide_eq_true_eq]
  by_cases h : e.1 = k <;> simp [h]

theorem mem_insert {l : List (Key × ν)} {k : Key} {v : ν} {e : Key × ν} (h : e ∈ insert l k v) : e = (k, v) ∨ e ∈ l := by
  unfold insert at h
  split at h
  · exact .inr h
  · exact List.mem_cons.1 (List.mem_of_mem_take h)

theorem insert_ne_nil (l : List (Key × ν)) (k : Key) (v : ν) : insert l k v ≠ [] := by
  unfold insert
  split
  · rename_i h
    rintro rfl
    simp [lookup] at h
  · simp [maxsize]

/-- The entries of the tables are the values computed from scratch. -/
def Coherent (c : Cls S B D F M ν) (rank : Name → Nat) (objs : Nat → Attrs S B D F M) (t : Tables ν) : Prop :=
  ∀ q o args v, ((o, args), v) ∈ t q → scratch c o (objs o) (rank q + 1) q args = .ok v

/-- Some property is cached. -/
def AnyProp (t : Tables ν) : Prop := ∃ q, q.isProp = true ∧ t q ≠ []

/-- The cached methods are only filled together with properties. -/
def MethodsOk (t : Tables ν) : Prop :=
  ∀ q, q.isProp = false → q ≠ .assignvals_log_message → t q ≠ [] → AnyProp t

theorem anyCached_iff (t : Tables ν) : anyCached t = true ↔ AnyProp t := by
  unfold anyCached AnyProp
  simp only [List.any_eq_true, Bool.and_eq_true, decide_eq_true_eq, List.length_pos_iff]
  constructor
  · rintro ⟨q, _, h⟩; exact ⟨q, h⟩
  · rintro ⟨q, h⟩; exact ⟨q, mem_cachedProps q, h⟩

/-- What a read guarantees. -/
structure ReadOk (c : Cls S B D F M ν) (rank : Name → Nat) (objs : Nat → Attrs S B D F M) (t t' : Tables ν) : Prop where
  coh : Coherent c rank objs t'
  any : AnyProp t → AnyProp t'
  meth : MethodsOk t → MethodsOk t'

theorem ReadOk.trans {c : Cls S B D F M ν} {rank : Name → Nat} {objs : Nat → Attrs S B D F M} {t t' t'' : Tables ν}
    (h : ReadOk c rank objs t t') (h' : ReadOk c rank objs t' t'') : ReadOk c rank objs t t'' :=
  ⟨h'.coh, fun x => h'.any (h.any x), fun x => h'.meth (h.meth x)⟩

theorem run_spec {c : Cls S B D F M ν} {rank : Name → Nat} {objs : Nat → Attrs S B D F M} {n : Nat}
    (rd : Name → List String → Tables ν → Except PyErr ν × Tables ν) (sp : Name → List String → Except PyErr ν)
    (hrd : ∀ q args t, rank q < n → Coherent c rank objs t → (rd q args t).1 = sp q args ∧ ReadOk c rank objs t (rd q args t).2 ∧
      (∀ v, (rd q args t).1 = .ok v → q.isProp = true → AnyProp (rd q args t).2))
    (p : Prog ν) (hb : p.Below rank n) (t : Tables ν) (ht : Coherent c rank objs t) :
    (p.run rd t).1 = p.eval sp ∧ ReadOk c rank objs t (p.run rd t).2 ∧
      (p.AsksProp → ∀ v, (p.run rd t).1 = .ok v → AnyProp (p.run rd t).2) := by
  induction p generalizing t with
  | ret v => exact ⟨rfl, ⟨ht, id, id⟩, fun h => h.elim⟩
  | raise e => exact ⟨rfl, ⟨ht, id, id⟩, fun _ v h => by cases h⟩
  | ask q args k ih =>
    obtain ⟨h1, h2, h3⟩ := hrd q args t hb.1 ht
    obtain ⟨i1, i2, i3⟩ := ih (rd q args t).1 (hb.2 _) (rd q args t).2 h2.coh
    simp only [Prog.run, Prog.eval]
    refine ⟨by rw [i1, h1], h2.trans i2, ?_⟩
    intro ha v hv
    rcases hr : (rd q args t).1 with e | w
    · rw [hr] at i3 hv
      exact i3 (ha.2 e) v hv
    · rw [hr] at i2 i3 hv
      rcases ha.1 with hp | hk
      · exact i2.any (h3 w hr hp)
      · exact i3 (hk w) v hv

theorem read_spec {c : Cls S B D F M ν} {rank : Name → Nat} (hc : Valid c rank) (objs : Nat → Attrs S B D F M) (o : Nat) :
    ∀ (fuel : Nat) (q : Name) (args : List String) (t : Tables ν), rank q < fuel → Coherent c rank objs t →
      (read c o (objs o) fuel q args t).1 = scratch c o (objs o) (rank q + 1) q args ∧
      ReadOk c rank objs t (read c o (objs o) fuel q args t).2 ∧
      (∀ v, (read c o (objs o) fuel q args t).1 = .ok v → q.isProp = true → AnyProp (read c o (objs o) fuel q args t).2) := by
  intro fuel
  induction fuel with
  | zero => intro q args t h; omega
  | succ fuel ih =>
    intro q args t hf ht
    have key := run_spec (n := rank q) (objs := objs) (read c o (objs o) fuel)
      (fun q' args' => scratch c o (objs o) (rank q' + 1) q' args')
      (fun q' args' t' hq' ht' => ih q' args' t' (by omega) ht') (c.body q o args (objs o)) (hc.below q o args (objs o)) t ht
    obtain ⟨k1, k2, k3⟩ := key
    have hs : scratch c o (objs o) (rank q + 1) q args = (c.body q o args (objs o)).eval
        (fun q' args' => scratch c o (objs o) (rank q' + 1) q' args') := by
      simp only [scratch]
      exact eval_congr _ (hc.below q o args (objs o)) fun q' args' hq' => scratch_fuel hc o (objs o) (rank q) q' args' hq'
    rw [hs]
    simp only [read]
    cases hl : lookup (t q) (o, args) with
    | some v =>
      simp only
      have hm := mem_of_lookup hl
      have hv := ht q o args v hm
      have hsub : ∀ q' e, e ∈ update t q (touch (t q) (o, args)) q' ↔ e ∈ t q' := by
        intro q' e
        unfold update
        split
        · rename_i h; rw [mem_touch, h]
        · rfl
      have hany : ∀ q', update t q (touch (t q) (o, args)) q' ≠ [] ↔ t q' ≠ [] := by
        intro q'
        constructor
        · intro h
          obtain ⟨e, he⟩ := List.exists_mem_of_ne_nil _ h
          exact List.ne_nil_of_mem ((hsub q' e).1 he)
        · intro h
          obtain ⟨e, he⟩ := List.exists_mem_of_ne_nil _ h
          exact List.ne_nil_of_mem ((hsub q' e).2 he)
      have hap : AnyProp (update t q (touch (t q) (o, args))) ↔ AnyProp t := by
        unfold AnyProp
        exact exists_congr fun q' => by rw [hany]
      refine ⟨by rw [← hs, hv], ⟨?_, hap.2, ?_⟩, ?_⟩
      · intro q' o' args' v' h'
        exact ht q' o' args' v' ((hsub q' _).1 h')
      · intro hm' q' h1 h2 h3
        exact hap.2 (hm' q' h1 h2 ((hany q').1 h3))
      · intro _ _ hp
        exact ⟨q, hp, by rw [hany]; exact List.ne_nil_of_mem hm⟩
    | none =>
      simp only
      cases hr : (c.body q o args (objs o)).run (read c o (objs o) fuel) t with
      | mk r t' =>
        rw [hr] at k1 k2 k3
        simp only at k1 k2 k3
        cases r with
        | error e =>
          simp only
          exact ⟨k1, k2, fun v h => by cases h⟩
        | ok v =>
          simp only
          have hne : ∀ q', t' q' ≠ [] → update t' q (insert (t' q) (o, args) v) q' ≠ [] := by
            intro q' h
            unfold update
            split
            · exact insert_ne_nil _ _ _
            · exact h
          have hqn : update t' q (insert (t' q) (o, args) v) q ≠ [] := by
            simp only [update, if_true]
            exact insert_ne_nil _ _ _
          have hanyImp : AnyProp t' → AnyProp (update t' q (insert (t' q) (o, args) v)) := by
            rintro ⟨q', h1, h2⟩; exact ⟨q', h1, hne q' h2⟩
          refine ⟨k1, ⟨?_, fun h => hanyImp (k2.any h), ?_⟩, fun _ _ hp => ⟨q, hp, hqn⟩⟩
          · intro q' o' args' v' h'
            unfold update at h'
            split at h'
            · rename_i e
              subst e
              rcases mem_insert h' with h'' | h''
              · cases h''
                rw [hs, ← k1]
              · exact k2.coh q' o' args' v' h''
            · exact k2.coh q' o' args' v' h'
          · intro hm q' h1 h2 h3
            by_cases e : q' = q
            · subst e
              apply hanyImp
              refine k3 ?_ v rfl
              cases q' with
              | set_model => exact hc.set_model _ _ _
              | meandt_interp_assigns => exact hc.interp _ _ _
              | assignvals_log_message => exact absurd rfl h2
              | _ => simp [Name.isProp] at h1
            · have : t' q' ≠ [] := by
                simp only [update, if_neg e] at h3
                exact h3
              exact hanyImp (k2.meth hm q' h1 h2 this)

theorem lookup_touch {l : List (Key × ν)} {k : Key} {v : ν} (h : lookup l k = some v) : lookup (touch l k) k = some v := by
  unfold lookup touch at *
  rw [List.find?_append, List.find?_filter]
  rw [Option.map_eq_some_iff] at h
  obtain ⟨e, he, rfl⟩ := h
  simp [he]

theorem lookup_insert {l : List (Key × ν)} {k : Key} {v : ν} :
    lookup (insert l k v) k = some ((lookup l k).getD v) := by
  unfold insert
  split
  · rename_i h
    obtain ⟨w, hw⟩ := Option.isSome_iff_exists.1 h
    rw [hw]; rfl
  · rename_i h
    rw [Option.not_isSome_iff_eq_none] at h
    rw [h]
    simp [lookup, maxsize]

/-- After a successful read the value is in the table. -/
theorem lookup_read {c : Cls S B D F M ν} {rank : Name → Nat} (hc : Valid c rank) (objs : Nat → Attrs S B D F M) (o : Nat)
    (fuel : Nat) (q : Name) (args : List String) (t : Tables ν) (hf : rank q < fuel) (ht : Coherent c rank objs t) (v : ν)
    (h : (read c o (objs o) fuel q args t).1 = .ok v) :
    lookup ((read c o (objs o) fuel q args t).2 q) (o, args) = some v := by
  have hsp := read_spec hc objs o fuel q args t hf ht
  obtain ⟨n, rfl⟩ : ∃ n, fuel = n + 1 := ⟨fuel - 1, by omega⟩
  simp only [read] at h hsp ⊢
  cases hl : lookup (t q) (o, args) with
  | some w =>
    simp only [hl] at h ⊢
    cases h
    simp only [update, if_true]
    exact lookup_touch hl
  | none =>
    simp only [hl] at h hsp ⊢
    cases hr : (c.body q o args (objs o)).run (read c o (objs o) n) t with
    | mk r t' =>
      rw [hr] at h hsp
      cases r with
      | error e => cases h
      | ok w =>
        simp only at h hsp ⊢
        cases h
        have hco := hsp.2.1.coh
        simp only [update, if_true]
        rw [lookup_insert]
        congr 1
        cases hl' : lookup (t' q) (o, args) with
        | none => rfl
        | some w =>
          have hmem : ((o, args), w) ∈ update t' q (insert (t' q) (o, args) v) q := by
            simp only [update, if_true]
            have : lookup (insert (t' q) (o, args) v) (o, args) = some w := by rw [lookup_insert, hl']; rfl
            exact mem_of_lookup this
          have := hco q o args w hmem
          rw [← hsp.1] at this
          cases this
          rfl

theorem clear_coherent {c : Cls S B D F M ν} {rank : Name → Nat} (hc : Valid c rank) (objs objs' : Nat → Attrs S B D F M)
    (t : Tables ν) (ht : Coherent c rank objs t) (hm : MethodsOk t) : Coherent c rank objs' (clear t) ∧ MethodsOk (clear t) := by
  unfold clear
  by_cases h : anyCached t = true
  · rw [if_pos h]
    constructor
    · intro q o args v hv
      simp [mem_cachedProps] at hv
    · intro q _ _ h3
      simp [mem_cachedProps] at h3
  · rw [if_neg h]
    rw [anyCached_iff] at h
    refine ⟨?_, hm⟩
    intro q o args v hv
    have hne := List.ne_nil_of_mem hv
    have hq : q = .assignvals_log_message := by
      by_contra hq
      cases hp : q.isProp with
      | true => exact h ⟨q, hp, hne⟩
      | false => exact h (hm q hp hq hne)
    subst hq
    obtain ⟨w, hw⟩ := hc.message
    have := ht _ o args v hv
    simp only [scratch, hw, Prog.eval] at this ⊢
    exact this

end RT1.Cache
