import Verif.Model.Defdict
import Verif.Lemmas.General
import Mathlib.Data.List.Nodup
import Mathlib.Tactic.IntervalCases
import Mathlib.Logic.Function.Basic

/-!
# Properties C30-C34: definition containers
-/

namespace RT1.Defdict

/-! ## C33: access to a variable by attribute, name and position -/

/-- The three ways to write a property. -/
inductive Write
  | attr (p : Prop6) (x : Val)
  | name (p : Prop6) (x : Val)
  | pos (i : ℤ) (x : Val)

/-- Execute a write; a failing write leaves the variable as it is. -/
def Var.write (v : Var) : Write → Var
  | .attr p x => v.set p x
  | .name p x => match v.setName p.name x with | .ok v' => v' | .error _ => v
  | .pos i x => match v.setPos i x with | .ok v' => v' | .error _ => v

/-- Specification: the properties a successful write assigns, as function of the written value.  Positions count from the
end if negative; position 3 takes a pair of one-element sequences and assigns both bounds. -/
def Write.assigns : Write → List (Prop6 × Val)
  | .attr p x => [(p, x)]
  | .name p x => [(p, x)]
  | .pos i x =>
    if i = 0 ∨ i = -5 then [(.fitQ, x)]
    else if i = 1 ∨ i = -4 then [(.val, x)]
    else if i = 2 ∨ i = -3 then [(.freq, x)]
    else if i = 4 ∨ i = -1 then [(.interpQ, x)]
    else if i = 3 ∨ i = -2 then
      match x with
      | .tup [.list [a], .list [b]] => [(.minval, a), (.maxval, b)]
      | .tup [.list [a], .tup [b]] => [(.minval, a), (.maxval, b)]
      | .tup [.tup [a], .list [b]] => [(.minval, a), (.maxval, b)]
      | .tup [.tup [a], .tup [b]] => [(.minval, a), (.maxval, b)]
      | .list [.list [a], .list [b]] => [(.minval, a), (.maxval, b)]
      | .list [.list [a], .tup [b]] => [(.minval, a), (.maxval, b)]
      | .list [.tup [a], .list [b]] => [(.minval, a), (.maxval, b)]
      | .list [.tup [a], .tup [b]] => [(.minval, a), (.maxval, b)]
      | _ => []
    else []

/-- Specification: value of a property after a history, the last value assigned to it or else the initial one. -/
def lastValue (p : Prop6) (init : Val) (ws : List Write) : Val :=
  ((ws.flatMap Write.assigns).filter (fun a => a.1 = p)).getLast?.elim init Prod.snd

theorem get_set (v : Var) (p q : Prop6) (x : Val) : (v.set p x).get q = if q = p then x else v.get q := by
  cases p <;> cases q <;> rfl

theorem ofName_name (p : Prop6) : Prop6.ofName p.name = some p := by cases p <;> rfl

theorem ofName_eq {s : String} {p : Prop6} (h : Prop6.ofName s = some p) : s = p.name := by
  unfold Prop6.ofName at h
  split_ifs at h <;> cases h <;> assumption

theorem pyIndex5 {α : Type} (a b c d e : α) (i : ℤ) : pyIndex [a, b, c, d, e] i =
    if i = 0 ∨ i = -5 then .ok a else if i = 1 ∨ i = -4 then .ok b else if i = 2 ∨ i = -3 then .ok c
    else if i = 3 ∨ i = -2 then .ok d else if i = 4 ∨ i = -1 then .ok e else .error .indexError := by
  by_cases h : -5 ≤ i ∧ i < 5
  · obtain ⟨h1, h2⟩ := h
    interval_cases i <;> simp [pyIndex]
  · unfold pyIndex
    have h' : i < -5 ∨ 5 ≤ i := by omega
    simp only [List.length_cons, List.length_nil]
    rw [dif_neg]
    · rw [if_neg (by omega), if_neg (by omega), if_neg (by omega), if_neg (by omega), if_neg (by omega)]
    · split <;> omega

/-- Effect of one write on all properties. -/
theorem write_spec (v : Var) (w : Write) (q : Prop6) : (v.write w).get q = lastValue q (v.get q) [w] := by
  cases w with
  | attr p x => by_cases h : q = p <;> simp [Var.write, get_set, lastValue, Write.assigns, h, eq_comm]
  | name p x =>
    by_cases h : q = p <;> simp [Var.write, Var.setName, ofName_name, get_set, lastValue, Write.assigns, h, eq_comm]
  | pos i x =>
    simp only [Var.write, Var.setPos, slots, pyIndex5, lastValue, List.flatMap_singleton, Write.assigns]
    by_cases h0 : i = 0 ∨ i = -5
    · simp only [if_pos h0]
      by_cases h : q = .fitQ <;> simp [bind, Except.bind, pure, Except.pure, get_set, h, eq_comm]
    by_cases h1 : i = 1 ∨ i = -4
    · simp only [if_neg h0, if_pos h1]
      by_cases h : q = .val <;> simp [bind, Except.bind, pure, Except.pure, get_set, h, eq_comm]
    by_cases h2 : i = 2 ∨ i = -3
    · simp only [if_neg h0, if_neg h1, if_pos h2]
      by_cases h : q = .freq <;> simp [bind, Except.bind, pure, Except.pure, get_set, h, eq_comm]
    by_cases h3 : i = 3 ∨ i = -2
    · have h4 : ¬ (i = 4 ∨ i = -1) := by omega
      simp only [if_neg h0, if_neg h1, if_neg h2, if_pos h3, if_neg h4]
      have key : ∀ a b : Val, ((v.set .minval a).set .maxval b).get q =
          (([(Prop6.minval, a), (Prop6.maxval, b)].filter fun z => z.1 = q).getLast?.elim (v.get q) Prod.snd) := by
        intro a b
        cases q <;> simp [get_set]
      simp only [bind, Except.bind]
      rcases x with _ | s | l | l
      · simp [unpackMima, unpack2, bind, Except.bind]
      · simp [unpackMima, unpack2, bind, Except.bind]
      all_goals
        rcases l with _ | ⟨a, _ | ⟨b, _ | ⟨c, l⟩⟩⟩
        · simp [unpackMima, unpack2, bind, Except.bind]
        · simp [unpackMima, unpack2, bind, Except.bind]
        · rcases a with _ | s | la | la
          · simp [unpackMima, unpack2, unpack1, bind, Except.bind]
          · simp [unpackMima, unpack2, unpack1, bind, Except.bind]
          all_goals
            rcases la with _ | ⟨a1, _ | ⟨a2, la⟩⟩
            · simp [unpackMima, unpack2, unpack1, bind, Except.bind]
            · rcases b with _ | s | lb | lb
              · simp [unpackMima, unpack2, unpack1, bind, Except.bind]
              · simp [unpackMima, unpack2, unpack1, bind, Except.bind]
              all_goals
                rcases lb with _ | ⟨b1, _ | ⟨b2, lb⟩⟩
                · simp [unpackMima, unpack2, unpack1, bind, Except.bind]
                · simpa [unpackMima, unpack2, unpack1, bind, Except.bind, pure, Except.pure] using key a1 b1
                · simp [unpackMima, unpack2, unpack1, bind, Except.bind]
            · simp [unpackMima, unpack2, unpack1, bind, Except.bind]
        · simp [unpackMima, unpack2, bind, Except.bind]
    by_cases h4 : i = 4 ∨ i = -1
    · simp only [if_neg h0, if_neg h1, if_neg h2, if_neg h3, if_pos h4]
      by_cases h : q = .interpQ <;> simp [bind, Except.bind, pure, Except.pure, get_set, h, eq_comm]
    simp only [if_neg h0, if_neg h1, if_neg h2, if_neg h3, if_neg h4]
    simp [bind, Except.bind]

theorem lastValue_cons (p : Prop6) (init : Val) (w : Write) (ws : List Write) :
    lastValue p init (w :: ws) = lastValue p (lastValue p init [w]) ws := by
  simp only [lastValue, List.flatMap_cons, List.flatMap_nil, List.append_nil, List.filter_append, List.getLast?_append]
  cases ((ws.flatMap Write.assigns).filter fun a => decide (a.1 = p)).getLast? <;> rfl

/-- C33: after any sequence of writes through any of the three access paths every property has the value written last
(and properties that were not written keep their initial value). -/
theorem C33_history (v : Var) (ws : List Write) (p : Prop6) : (ws.foldl Var.write v).get p = lastValue p (v.get p) ws := by
  induction ws generalizing v with
  | nil => rfl
  | cons w ws ih => rw [List.foldl_cons, ih, write_spec, ← lastValue_cons]

/-- C33: reading by name agrees with reading the attribute. -/
theorem C33_read_name (v : Var) (p : Prop6) : v.getName p.name = .ok (v.get p) := by
  simp [Var.getName, ofName_name]

/-- C33: reading by position agrees with reading the attributes; other positions raise IndexError. -/
theorem C33_read_pos (v : Var) (i : ℤ) : v.getPos i =
    if i = 0 ∨ i = -5 then .ok (v.get .fitQ) else if i = 1 ∨ i = -4 then .ok (v.get .val)
    else if i = 2 ∨ i = -3 then .ok (v.get .freq)
    else if i = 3 ∨ i = -2 then .ok (.tup [.list [v.get .minval], .list [v.get .maxval]])
    else if i = 4 ∨ i = -1 then .ok (v.get .interpQ) else .error .indexError := by
  simp only [Var.getPos, Var.toList, pyIndex5]; rfl

/-- C33: names that are no property are rejected for reading and writing. -/
theorem C33_unknown_name (v : Var) (key : String) (h : ∀ p : Prop6, key ≠ p.name) (x : Val) :
    v.getName key = .error .attributeError ∧ v.setName key x = .error .attributeError := by
  have : Prop6.ofName key = none := by
    cases h' : Prop6.ofName key with
    | none => rfl
    | some p => exact absurd (ofName_eq h') (h p)
  simp [Var.getName, Var.setName, this]

example : ([Write.pos 3 (.tup [.list [.atom "0"], .list [.atom "5"]]), .name .maxval (.atom "2"), .attr .freq (.atom "D")].foldl
    Var.write Var.default).getPos (-2) = .ok (.tup [.list [.atom "0"], .list [.atom "2"]]) := by
  rfl

/-! ## C30: ordered map -/

/-- Specification: an ordered map, the pairs in order of insertion. -/
abbrev OMap := List (String × Var)

def OMap.keys (m : OMap) : List String := m.map Prod.fst

/-- Put a definition: in place if the name is present, else at the end. -/
def OMap.put (m : OMap) (n : String) (v : Var) : OMap :=
  if n ∈ m.keys then m.map (fun kv => if kv.1 = n then (n, v) else kv) else m ++ [(n, v)]

/-- Remove a name. -/
def OMap.del (m : OMap) (n : String) : OMap := m.filter fun kv => kv.1 ≠ n

/-- The defdict `s` represents the ordered map `m`. -/
def Rep (s : DD) (m : OMap) : Prop := m.keys.Nodup ∧ s.names = m.keys ∧ ∀ n, s.vars n = m.lookup n

/-- Specification of the operations: new map, and whether the operation succeeds. -/
def OMap.step (m : OMap) : Op → OMap × Except PyErr Unit
  | .add n v => (m.put n v, .ok ())
  | .remove n => if n ∈ m.keys then (m.del n, .ok ()) else (m, .error .attributeError)
  | .assign n x =>
    if n.startsWith "_" ∨ n ∈ m.keys then (m, .ok ())
    else match x with
      | .dict d => match Var.ofKeywords d with
        | .ok v => (m.put n v, .ok ())
        | .error e => (m, .error e)
      | .list l => match Var.ofPositional l with
        | .ok v => (m.put n v, .ok ())
        | .error e => (m, .error e)
      | .other => (m, .error .attributeError)
  | .writeAttr n p x => match m.lookup n with
    | none => (m, .error .attributeError)
    | some v => (m.put n (v.set p x), .ok ())
  | .writeName n key x => match m.lookup n with
    | none => (m, .error .attributeError)
    | some v => match v.setName key x with
      | .ok v' => (m.put n v', .ok ())
      | .error e => (m, .error e)
  | .writePos n i x => match m.lookup n with
    | none => (m, .error .attributeError)
    | some v => match v.setPos i x with
      | .ok v' => (m.put n v', .ok ())
      | .error e => (m, .error e)

def OMap.run (m : OMap) (ops : List Op) : OMap := ops.foldl (fun m o => (m.step o).1) m

theorem lookup_none_iff {m : OMap} {n : String} : m.lookup n = none ↔ n ∉ m.keys := by
  simp only [OMap.keys, List.lookup_eq_none_iff, List.mem_map, not_exists, not_and, bne_iff_ne]
  exact ⟨fun h x hx e => h x hx e.symm, fun h x hx e => h x hx e.symm⟩

theorem lookup_some_mem {m : OMap} {n : String} {v : Var} (h : m.lookup n = some v) : n ∈ m.keys := by
  by_contra h'
  rw [lookup_none_iff.2 h'] at h
  cases h

theorem keys_put (m : OMap) (n : String) (v : Var) :
    (m.put n v).keys = if n ∈ m.keys then m.keys else m.keys ++ [n] := by
  unfold OMap.put
  split
  · simp only [OMap.keys, List.map_map]
    apply List.map_congr_left
    intro kv _
    simp only [Function.comp]
    split <;> simp_all
  · simp [OMap.keys]

theorem lookup_put (m : OMap) (n k : String) (v : Var) :
    (m.put n v).lookup k = if k = n then some v else m.lookup k := by
  unfold OMap.put
  split
  · rename_i h
    induction m with
    | nil => simp [OMap.keys] at h
    | cons kv m ih =>
      obtain ⟨k', v'⟩ := kv
      by_cases hk : k' = n
      · subst hk
        by_cases hkk : k = k'
        · subst hkk; simp
        · simp only [List.map_cons, if_true]
          rw [List.lookup_cons, List.lookup_cons, if_neg hkk]
          simp only [beq_eq_false_iff_ne.2 hkk]
          by_cases hm : k' ∈ OMap.keys m
          · rw [ih hm, if_neg hkk]
          · have : (m.map fun kv => if kv.1 = k' then (k', v) else kv) = m := by
              conv_rhs => rw [← List.map_id m]
              apply List.map_congr_left
              intro a ha
              have : a.1 ≠ k' := by
                rintro rfl
                exact hm (List.mem_map.2 ⟨a, ha, rfl⟩)
              simp [this]
            rw [this]
      · have hm : n ∈ OMap.keys m := by
          simp only [OMap.keys, List.map_cons, List.mem_cons] at h
          rcases h with h | h
          · exact absurd h.symm hk
          · exact h
        simp only [List.map_cons, if_neg hk]
        rw [List.lookup_cons, List.lookup_cons, ih hm]
        by_cases hkk : k = k'
        · subst hkk; simp [hk]
        · simp [beq_eq_false_iff_ne.2 hkk]
  · rename_i h
    rw [List.lookup_append]
    by_cases hk : k = n
    · subst hk
      rw [lookup_none_iff.2 h]; simp
    · rw [if_neg hk]
      cases m.lookup k <;> simp [List.lookup_cons, beq_eq_false_iff_ne.2 hk]

theorem lookup_del (m : OMap) (n k : String) : (m.del n).lookup k = if k = n then none else m.lookup k := by
  unfold OMap.del
  induction m with
  | nil => simp
  | cons kv m ih =>
    obtain ⟨k', v'⟩ := kv
    by_cases hk : k' = n
    · subst hk
      rw [List.filter_cons_of_neg (by simp), ih]
      by_cases hkk : k = k'
      · simp [hkk]
      · rw [List.lookup_cons]; simp [beq_eq_false_iff_ne.2 hkk, hkk]
    · rw [List.filter_cons_of_pos (by simpa using hk), List.lookup_cons, List.lookup_cons, ih]
      by_cases hkk : k = k'
      · subst hkk; simp [hk]
      · simp [beq_eq_false_iff_ne.2 hkk]

theorem keys_del {m : OMap} (hn : m.keys.Nodup) (n : String) : (m.del n).keys = m.keys.erase n := by
  rw [hn.erase_eq_filter]
  unfold OMap.del OMap.keys
  rw [List.filter_map]
  congr 1
  apply List.filter_congr
  intro kv _
  by_cases h : kv.1 = n <;> simp [h]

theorem rep_put {s : DD} {m : OMap} (h : Rep s m) (n : String) (v : Var) : Rep (s.addVariable n v) (m.put n v) := by
  obtain ⟨h1, h2, h3⟩ := h
  refine ⟨?_, ?_, fun k => ?_⟩
  · rw [keys_put]
    split
    · exact h1
    · rename_i hn
      exact List.nodup_append.2 ⟨h1, by simp, by rintro a ha b hb rfl; simp at hb; exact hn (hb ▸ ha)⟩
  · rw [keys_put]
    simp only [DD.addVariable, h2]
  · simp only [DD.addVariable, lookup_put, h3]

theorem rep_update {s : DD} {m : OMap} (h : Rep s m) (n : String) (r : Var → Except PyErr Var) :
    let out := (match m.lookup n with
      | none => (m, (.error .attributeError : Except PyErr Unit))
      | some v => match r v with
        | .ok v' => (m.put n v', .ok ())
        | .error e => (m, .error e))
    Rep (s.update n r).1 out.1 ∧ (s.update n r).2 = out.2 := by
  have h3 := h.2.2 n
  cases hm : m.lookup n with
  | none =>
    rw [hm] at h3
    simp [DD.update, DD.getitem, h3, h]
  | some v =>
    rw [hm] at h3
    simp only [DD.update, DD.getitem, h3]
    cases hr : r v with
    | error e => simp [h]
    | ok v' =>
      simp only [and_true]
      have hmem := lookup_some_mem hm
      obtain ⟨a, b, c⟩ := rep_put h n v'
      refine ⟨a, ?_, fun k => ?_⟩
      · rw [keys_put, if_pos hmem]; exact h.2.1
      · rw [lookup_put, ← h.2.2 k]

/-- One operation on the defdict corresponds to the operation on the ordered map, including the error. -/
theorem step_refines {s : DD} {m : OMap} (h : Rep s m) (o : Op) :
    Rep (s.step o).1 (m.step o).1 ∧ (s.step o).2 = (m.step o).2 := by
  obtain ⟨h1, h2, h3⟩ := h
  cases o with
  | add n v => exact ⟨rep_put ⟨h1, h2, h3⟩ n v, rfl⟩
  | remove n =>
    simp only [DD.step, DD.removeVariable, OMap.step]
    by_cases hn : n ∈ m.keys
    · rw [if_pos hn]
      have : ∃ v, s.vars n = some v := by
        cases hv : s.vars n with
        | some v => exact ⟨v, rfl⟩
        | none => rw [h3] at hv; exact absurd hn (lookup_none_iff.1 hv)
      obtain ⟨v, hv⟩ := this
      simp only [hv, and_true]
      refine ⟨?_, ?_, fun k => ?_⟩
      · rw [keys_del h1]; exact h1.erase n
      · rw [keys_del h1]; simp [h2, hn]
      · simp only [lookup_del, h3]
    · rw [if_neg hn]
      have : s.vars n = none := by rw [h3]; exact lookup_none_iff.2 hn
      simp only [this, and_true]
      refine ⟨h1, by simp [h2, hn], h3⟩
  | assign n x =>
    simp only [DD.step, DD.setattr, OMap.step]
    by_cases hc : n.startsWith "_" ∨ n ∈ m.keys
    · rw [if_pos hc, if_neg (by rw [h2]; tauto)]
      exact ⟨⟨h1, h2, h3⟩, rfl⟩
    · rw [if_neg hc, if_pos (by rw [h2]; tauto)]
      cases x with
      | list l =>
        simp only
        cases Var.ofPositional l with
        | ok v => exact ⟨rep_put ⟨h1, h2, h3⟩ n v, rfl⟩
        | error e => exact ⟨⟨h1, h2, h3⟩, rfl⟩
      | dict d =>
        simp only
        cases Var.ofKeywords d with
        | ok v => exact ⟨rep_put ⟨h1, h2, h3⟩ n v, rfl⟩
        | error e => exact ⟨⟨h1, h2, h3⟩, rfl⟩
      | other => exact ⟨⟨h1, h2, h3⟩, rfl⟩
  | writeAttr n p x =>
    exact rep_update ⟨h1, h2, h3⟩ n fun v => .ok (v.set p x)
  | writeName n key x => exact rep_update ⟨h1, h2, h3⟩ n fun v => v.setName key x
  | writePos n i x => exact rep_update ⟨h1, h2, h3⟩ n fun v => v.setPos i x

/-- C30: after any history of operations the defdict represents the ordered map obtained by the specification. -/
theorem C30_refines (ops : List Op) : Rep (DD.empty.run ops) (OMap.run [] ops) := by
  have : ∀ (s : DD) (m : OMap), Rep s m → Rep (s.run ops) (m.run ops) := by
    induction ops with
    | nil => intro s m h; exact h
    | cons o ops ih => intro s m h; exact ih _ _ (step_refines h o).1
  exact this _ _ ⟨by simp [OMap.keys], by simp [OMap.keys, DD.empty], fun n => rfl⟩

/-- C30: after any history an operation fails exactly if it fails on the ordered map, with the same error. -/
theorem C30_results (ops : List Op) (o : Op) : ((DD.empty.run ops).step o).2 = ((OMap.run [] ops).step o).2 :=
  (step_refines (C30_refines ops) o).2

/-- C30: iteration lists every name once, and exactly the names that can be looked up. -/
theorem C30_iteration (ops : List Op) :
    let s := DD.empty.run ops
    s.names.Nodup ∧ ∀ n, n ∈ s.names ↔ ∃ v, s.getitem n = .ok v := by
  obtain ⟨h1, h2, h3⟩ := C30_refines ops
  refine ⟨by rw [h2]; exact h1, fun n => ?_⟩
  rw [h2]
  unfold DD.getitem
  rw [h3]
  cases hl : (OMap.run [] ops).lookup n with
  | none => simp [lookup_none_iff.1 hl]
  | some v => simp [lookup_some_mem hl]

/-- The name an operation refers to. -/
def Op.target : Op → String
  | .add n _ => n
  | .remove n => n
  | .assign n _ => n
  | .writeAttr n _ _ => n
  | .writeName n _ _ => n
  | .writePos n _ _ => n

/-- C30: an operation never changes the definition of another name. -/
theorem C30_frame (s : DD) (o : Op) (n : String) (h : o.target ≠ n) : (s.step o).1.getitem n = s.getitem n := by
  have hn : n ≠ o.target := fun e => h e.symm
  have hup : ∀ (t : String) (r : Var → Except PyErr Var), n ≠ t → (s.update t r).1.getitem n = s.getitem n := by
    intro t r ht
    unfold DD.update
    split
    · rfl
    · split
      · rfl
      · simp [DD.getitem, ht]
  cases o with
  | add t v => simp only [Op.target] at hn; simp [DD.step, DD.addVariable, DD.getitem, hn]
  | remove t =>
    simp only [Op.target] at hn
    simp only [DD.step, DD.removeVariable]
    split <;> simp [DD.getitem, hn]
  | assign t x =>
    simp only [Op.target] at hn
    simp only [DD.step, DD.setattr]
    split
    · cases x with
      | list l => simp only; split <;> simp [DD.addVariable, DD.getitem, hn]
      | dict d => simp only; split <;> simp [DD.addVariable, DD.getitem, hn]
      | other => rfl
    · rfl
  | writeAttr t p x => exact hup _ _ hn
  | writeName t k x => exact hup _ _ hn
  | writePos t i x => exact hup _ _ hn

/-- C30: lookup returns the last definition added for the name. -/
theorem C30_last_definition (s : DD) (n : String) (v : Var) (ops : List Op) (h : ∀ o ∈ ops, o.target ≠ n) :
    ((s.step (.add n v)).1.run ops).getitem n = .ok v := by
  have : ∀ (s : DD), (s.run ops).getitem n = s.getitem n := by
    induction ops with
    | nil => intro s; rfl
    | cons o ops ih =>
      intro s
      have := ih (fun o' ho' => h o' (by simp [ho'])) (s.step o).1
      rw [← C30_frame s o n (h o (by simp)), ← this]; rfl
  rw [this]
  simp [DD.step, DD.addVariable, DD.getitem]

/-- C30: redefining a name keeps its position; a new name is appended. -/
theorem C30_order (ops : List Op) (n : String) (v : Var) :
    ((DD.empty.run ops).step (.add n v)).1.names =
      if n ∈ (DD.empty.run ops).names then (DD.empty.run ops).names else (DD.empty.run ops).names ++ [n] := rfl

/-- C30: lookup and removal of an absent name fail and change nothing. -/
theorem C30_absent (ops : List Op) (n : String) (h : n ∉ (DD.empty.run ops).names) :
    (DD.empty.run ops).getitem n = .error .attributeError ∧
      ((DD.empty.run ops).step (.remove n)).2 = .error .attributeError ∧
      ((DD.empty.run ops).step (.remove n)).1 = DD.empty.run ops := by
  have hi := (C30_iteration ops).2 n
  have hv : (DD.empty.run ops).vars n = none := by
    cases hv : (DD.empty.run ops).vars n with
    | none => rfl
    | some v => exact absurd (hi.2 ⟨v, by simp [DD.getitem, hv]⟩) h
  refine ⟨by simp [DD.getitem, hv], by simp [DD.step, DD.removeVariable, hv], ?_⟩
  simp [DD.step, DD.removeVariable, hv, h]

example : (DD.empty.run [.add "a" .default, .add "b" .default, .remove "a", .add "a" .default, .remove "c"]).names = ["b", "a"] := by
  decide

/-! ## C31: round trip with lists -/

theorem fromList_toList (v : Var) : Var.fromList v.toList = .ok v := by
  simp [Var.fromList, Var.toList, defaultList, unpackMima, unpack2, unpack1, bind, Except.bind, pure, Except.pure]

theorem foldlM_entries (d : List (String × Def)) (vs : List Var) (s : DD)
    (h : List.Forall₂ (fun kv v => ∀ s : DD, s.addEntry kv.1 kv.2 = .ok (s.addVariable kv.1 v)) d vs) :
    d.foldlM (fun s kv => s.addEntry kv.1 kv.2) s =
      .ok ((d.map Prod.fst).zip vs |>.foldl (fun s kv => s.addVariable kv.1 kv.2) s) := by
  induction h generalizing s with
  | nil => rfl
  | cons hd _ ih => simp only [List.foldlM_cons, hd, List.map_cons, List.zip_cons_cons, List.foldl_cons, bind, Except.bind, ih]

/-- Building a defdict from distinct names gives the ordered map with exactly these entries. -/
theorem rep_build (l : List (String × Var)) (hn : (l.map Prod.fst).Nodup) :
    Rep (l.foldl (fun s kv => s.addVariable kv.1 kv.2) DD.empty) l := by
  have gen : ∀ (l : List (String × Var)) (s : DD) (m : OMap), Rep s m → (OMap.keys m ++ l.map Prod.fst).Nodup →
      Rep (l.foldl (fun s kv => s.addVariable kv.1 kv.2) s) (m ++ l) := by
    intro l
    induction l with
    | nil => intro s m h _; simpa using h
    | cons kv l ih =>
      intro s m h hn
      have hnot : kv.1 ∉ OMap.keys m := by
        intro hm
        have := (List.nodup_append.1 hn).2.2 _ hm kv.1 (by simp)
        exact this rfl
      have hp : m.put kv.1 kv.2 = m ++ [kv] := by simp [OMap.put, hnot]
      have := ih (s.addVariable kv.1 kv.2) (m ++ [kv]) (hp ▸ rep_put h kv.1 kv.2) (by
        simpa [OMap.keys] using hn)
      simpa using this
  have := gen l DD.empty [] ⟨by simp [OMap.keys], by simp [OMap.keys, DD.empty], fun n => rfl⟩ (by simpa [OMap.keys] using hn)
  simpa using this

theorem toDictList_rep {s : DD} {m : OMap} (h : Rep s m) : s.toDictList = .ok (m.map fun kv => (kv.1, kv.2.toList)) := by
  obtain ⟨h1, h2, h3⟩ := h
  unfold DD.toDictList
  rw [h2]
  have : ∀ l : OMap, (∀ kv ∈ l, m.lookup kv.1 = some kv.2) →
      (l.map Prod.fst).mapM (fun n => (do return (n, (← s.getitem n).toList) : Except PyErr (String × List Val))) =
        .ok (l.map fun kv => (kv.1, kv.2.toList)) := by
    intro l hl
    induction l with
    | nil => rfl
    | cons kv l ih =>
      have e : s.getitem kv.1 = .ok kv.2 := by unfold DD.getitem; rw [h3, hl kv (by simp)]
      rw [List.map_cons, List.mapM_cons, ih fun x hx => hl x (by simp [hx]), e]
      rfl
  refine this m fun kv hkv => ?_
  clear * - h1 hkv
  induction m with
  | nil => cases hkv
  | cons a m ih =>
    simp only [OMap.keys, List.map_cons, List.nodup_cons] at h1
    rcases List.mem_cons.1 hkv with rfl | hkv
    · rw [List.lookup_cons, beq_self_eq_true]
    · have : kv.1 ≠ a.1 := by
        intro e
        exact h1.1 (e ▸ List.mem_map.2 ⟨kv, hkv, rfl⟩)
      rw [List.lookup_cons]
      simp only [beq_eq_false_iff_ne.2 this]
      exact ih h1.2 hkv

/-- C31: for every dict of complete definitions `from_dict(d)` succeeds and `to_dict` returns `d`. -/
theorem C31_from_to (d : List (String × List Val)) (hkeys : (d.map Prod.fst).Nodup)
    (hd : ∀ kv ∈ d, ∃ a b c lo hi e, kv.2 = [a, b, c, .tup [.list [lo], .list [hi]], e]) :
    ∃ s, DD.fromDict (d.map fun kv => (kv.1, .list kv.2)) = .ok s ∧ s.toDictList = .ok d := by
  have : ∃ m : OMap, d = m.map fun kv => (kv.1, kv.2.toList) := by
    clear hkeys
    induction d with
    | nil => exact ⟨[], rfl⟩
    | cons kv d ih =>
      obtain ⟨m, hm⟩ := ih fun x hx => hd x (by simp [hx])
      obtain ⟨a, b, c, lo, hi, e, h⟩ := hd kv (by simp)
      exact ⟨(kv.1, ⟨a, b, c, lo, hi, e⟩) :: m, by rw [List.map_cons, ← hm]; simp [Var.toList, ← h]⟩
  obtain ⟨m, rfl⟩ := this
  have hk : (m.map Prod.fst).Nodup := by simpa [Function.comp_def] using hkeys
  refine ⟨_, ?_, toDictList_rep (rep_build m hk)⟩
  unfold DD.fromDict
  rw [foldlM_entries _ (m.map Prod.snd)]
  · simp [Function.comp_def]
    congr 1
    rw [List.zip_map']
    simp
  · rw [List.map_map, List.forall₂_map_left_iff, List.forall₂_map_right_iff, List.forall₂_same]
    intro kv _ s
    simp [DD.addEntry, Function.comp, fromList_toList, bind, Except.bind, pure, Except.pure]

/-- C31: exporting a defdict (reached by any history) and importing the result reproduces its variables: same order, same
definitions. -/
theorem C31_to_from (ops : List Op) :
    let s := DD.empty.run ops
    ∃ d s', s.toDictList = .ok d ∧ DD.fromDict (d.map fun kv => (kv.1, .list kv.2)) = .ok s' ∧
      s'.names = s.names ∧ s'.vars = s.vars := by
  have h := C30_refines ops
  refine ⟨_, (OMap.run [] ops).foldl (fun s kv => s.addVariable kv.1 kv.2) DD.empty, toDictList_rep h, ?_, ?_⟩
  · unfold DD.fromDict
    rw [foldlM_entries _ ((OMap.run [] ops).map Prod.snd)]
    · simp [Function.comp_def]
      congr 1
      rw [List.zip_map']
      simp
    · rw [List.map_map, List.forall₂_map_left_iff, List.forall₂_map_right_iff, List.forall₂_same]
      intro kv _ s
      simp [DD.addEntry, Function.comp, fromList_toList, bind, Except.bind, pure, Except.pure]
  · have h' := rep_build (OMap.run [] ops) h.1
    exact ⟨by rw [h'.2.1, h.2.1], by ext1 n; rw [h'.2.2, h.2.2]⟩

/-- C31: a list with fewer than 5 elements is completed with `None`. -/
theorem C31_incomplete (l : List Val) :
    (l.length < 4 → ∃ v, Var.fromList l = .ok v ∧ v.fitQ = l[0]?.getD .none ∧ v.val = l[1]?.getD .none ∧
      v.freq = l[2]?.getD .none ∧ v.minval = .none ∧ v.maxval = .none ∧ v.interpQ = .none) ∧
    (5 < l.length → Var.fromList l = .error .valueError) := by
  constructor
  · intro h
    rcases l with _ | ⟨a, _ | ⟨b, _ | ⟨c, _ | ⟨d, l⟩⟩⟩⟩
    · exact ⟨_, rfl, rfl, rfl, rfl, rfl, rfl, rfl⟩
    · exact ⟨_, rfl, rfl, rfl, rfl, rfl, rfl, rfl⟩
    · exact ⟨_, rfl, rfl, rfl, rfl, rfl, rfl, rfl⟩
    · exact ⟨_, rfl, rfl, rfl, rfl, rfl, rfl, rfl⟩
    · simp at h; omega
  · intro h
    rcases l with _ | ⟨a, _ | ⟨b, _ | ⟨c, _ | ⟨d, _ | ⟨e, _ | ⟨f, l⟩⟩⟩⟩⟩⟩
    all_goals first | (simp at h; done) | simp [Var.fromList, defaultList]

/-- C31: a list with 4 elements gets `None` for `interpQ`. -/
theorem C31_incomplete_four (a b c lo hi : Val) :
    Var.fromList [a, b, c, .tup [.list [lo], .list [hi]]] = .ok ⟨a, b, c, lo, hi, .none⟩ := rfl

example : ∃ s, DD.fromDict [("omega", .list [.atom "True", .atom "0.2", .none, .tup [.list [.atom "0"], .list [.atom "1"]], .atom "False"])] = .ok s ∧
    s.toDictList = .ok [("omega", [.atom "True", .atom "0.2", .none, .tup [.list [.atom "0"], .list [.atom "1"]], .atom "False"])] :=
  C31_from_to [("omega", _)] (by simp) (by simp)

/-! ## C32: dict-style export -/

/-- Negation of C32: the dict-style export of a defdict with at least one variable always raises AttributeError. -/
theorem C32_export_fails (ops : List Op) (h : (DD.empty.run ops).names ≠ []) :
    (DD.empty.run ops).toDictDict = .error .attributeError := by
  unfold DD.toDictDict
  have hi := (C30_iteration ops).2
  cases hn : (DD.empty.run ops).names with
  | nil => exact absurd hn h
  | cons n ns =>
    obtain ⟨v, hv⟩ := (hi n).1 (by simp [hn])
    rw [List.mapM_cons, hv]
    rfl

theorem fromDict_props (v0 : Var) (a b c lo hi e : Val) :
    v0.fromDict [("fitQ", a), ("val", b), ("freq", c), ("minval", lo), ("maxval", hi), ("interpQ", e)] =
      .ok ⟨a, b, c, lo, hi, e⟩ := by
  simp [Var.fromDict, Var.setattr, Prop6.ofName, Var.set, bind, Except.bind, pure, Except.pure]

/-- The half of C32 that holds: importing a dict of six properties per variable gives exactly these definitions.
Missing: the export that would produce such a dict. -/
theorem C32_import_partial (m : OMap) (hn : m.keys.Nodup) :
    ∃ s, DD.fromDict (m.map fun kv => (kv.1, .dict [("fitQ", kv.2.fitQ), ("val", kv.2.val), ("freq", kv.2.freq),
      ("minval", kv.2.minval), ("maxval", kv.2.maxval), ("interpQ", kv.2.interpQ)])) = .ok s ∧ Rep s m := by
  refine ⟨_, ?_, rep_build m hn⟩
  unfold DD.fromDict
  rw [foldlM_entries _ (m.map Prod.snd)]
  · simp [Function.comp_def]
    congr 1
    rw [List.zip_map']
    simp
  · rw [List.forall₂_map_left_iff, List.forall₂_map_right_iff, List.forall₂_same]
    intro kv _ s
    simp [DD.addEntry, fromDict_props, bind, Except.bind, pure, Except.pure]

example : (DD.empty.run [.add "omega" .default]).toDictDict = .error .attributeError := by
  apply C32_export_fails
  decide

/-! ## C34: definition by attribute assignment -/

theorem ofKeywords_eq (d : List (String × Val)) (v : Var)
    (hd : ∀ kv ∈ d, ∃ p : Prop6, kv.1 = p.name) :
    d.foldlM (fun v kv => match Prop6.ofName kv.1 with
      | some p => .ok (v.set p kv.2)
      | none => .error .typeError) v = v.fromDict d := by
  unfold Var.fromDict
  induction d generalizing v with
  | nil => rfl
  | cons kv d ih =>
    obtain ⟨p, hp⟩ := hd kv (by simp)
    rw [List.foldlM_cons, List.foldlM_cons]
    simp only [Var.setattr, hp, ofName_name, bind, Except.bind]
    exact ih _ fun x hx => hd x (by simp [hx])

/-- C34, new names and dict definitions: assigning a dict of properties is the same as `from_dict`, the rest of the
defdict is unchanged.  Missing: lists (`C34_list_fails`) and redefinitions (`C34_redefinition_fails`). -/
theorem C34_new_dict_partial (s : DD) (n : String) (d : List (String × Val)) (hn : n ∉ s.names) (hu : n.startsWith "_" = false)
    (hd : ∀ kv ∈ d, ∃ p : Prop6, kv.1 = p.name) :
    ∃ v, Var.default.fromDict d = .ok v ∧ s.setattr n (.dict d) = (s.addVariable n v, .ok ()) ∧
      DD.fromDict [(n, .dict d)] = .ok (DD.empty.addVariable n v) := by
  have hok : ∀ (d : List (String × Val)) (v : Var), (∀ kv ∈ d, ∃ p : Prop6, kv.1 = p.name) → ∃ v', v.fromDict d = .ok v' := by
    intro d
    induction d with
    | nil => intro v _; exact ⟨v, rfl⟩
    | cons kv d ih =>
      intro v h
      obtain ⟨p, hp⟩ := h kv (by simp)
      obtain ⟨v', hv'⟩ := ih (v.set p kv.2) fun x hx => h x (by simp [hx])
      refine ⟨v', ?_⟩
      unfold Var.fromDict at hv' ⊢
      rw [List.foldlM_cons]
      simp only [Var.setattr, hp, ofName_name, bind, Except.bind]
      exact hv'
  obtain ⟨v, hv⟩ := hok d .default hd
  refine ⟨v, hv, ?_, ?_⟩
  · have : Var.ofKeywords d = .ok v := by rw [← hv]; exact ofKeywords_eq d .default hd
    simp [DD.setattr, hn, hu, this]
  · simp [DD.fromDict, DD.addEntry, hv, bind, Except.bind, pure, Except.pure]

/-- C34: a value that is neither list nor dict is rejected for a new name and the defdict is unchanged. -/
theorem C34_reject (s : DD) (n : String) (hn : n ∉ s.names) (hu : n.startsWith "_" = false) :
    s.setattr n .other = (s, .error .attributeError) := by
  simp [DD.setattr, hn, hu]

/-- C34: unknown keys are rejected by the assignment and the defdict is unchanged. -/
theorem C34_unknown_key (s : DD) (n key : String) (x : Val) (hn : n ∉ s.names) (hu : n.startsWith "_" = false)
    (hk : ∀ p : Prop6, key ≠ p.name) : s.setattr n (.dict [(key, x)]) = (s, .error .typeError) := by
  have : Prop6.ofName key = none := by
    cases h' : Prop6.ofName key with
    | none => rfl
    | some p => exact absurd (ofName_eq h') (hk p)
  simp [DD.setattr, hn, hu, Var.ofKeywords, this, bind, Except.bind]

theorem sizeOf_ne {x : Val} {y : Val} (h : sizeOf x < sizeOf y) : x ≠ y := fun e => by subst e; omega

/-- Negation of C34 for lists: whenever both ways of defining a variable from a list succeed, they give different
definitions (the positional arguments of `add_variable` are `fitQ, val, freq, minval, maxval, interpQ`, while the list
format has the pair of bounds at position 3). -/
theorem C34_list_fails (l : List Val) (v v' : Var) (h : Var.ofPositional l = .ok v) (h' : Var.fromList l = .ok v') : v ≠ v' := by
  rcases l with _ | ⟨a, _ | ⟨b, _ | ⟨c, _ | ⟨d, _ | ⟨e, _ | ⟨f, l⟩⟩⟩⟩⟩⟩
  · cases h; cases h'; simp [Var.default]
  · cases h; cases h'; simp [Var.default]
  · cases h; cases h'; simp [Var.default]
  · cases h; cases h'; simp [Var.default]
  all_goals
    first
    | (exfalso
       have := (C31_incomplete (a :: b :: c :: d :: e :: f :: l)).2 (by simp)
       rw [this] at h'; cases h'; done)
    | (simp only [Var.fromList, defaultList, List.length_cons, List.length_nil, List.drop, List.cons_append,
         List.nil_append, List.append_nil, bind, Except.bind, pure, Except.pure] at h'
       cases h
       split at h'
       · cases h'
       · rename_i vv hm
         cases h'
         intro heq
         have hmin : d = vv.1 := by injection heq
         have hlt : sizeOf vv.1 < sizeOf d := by
           simp only [unpackMima, bind, Except.bind, pure, Except.pure] at hm
           split at hm
           · cases hm
           · rename_i ab hab
             have h1 : sizeOf ab.1 < sizeOf d := by
               unfold unpack2 at hab
               split at hab <;> cases hab <;> simp <;> omega
             split at hm
             · cases hm
             · rename_i x hx
               have h2 : sizeOf x < sizeOf ab.1 := by
                 unfold unpack1 at hx
                 split at hx <;> cases hx <;> simp_all <;> omega
               split at hm
               · cases hm
               · cases hm
                 simp only
                 omega
         exact sizeOf_ne hlt hmin.symm)

/-- The list format used by `from_dict` is accepted by the assignment, but the bounds end up in `minval` and the
interpolation flag in `maxval`. -/
theorem C34_list_misaligned (s : DD) (n : String) (hn : n ∉ s.names) (hu : n.startsWith "_" = false) (a b c lo hi e : Val) :
    s.setattr n (.list [a, b, c, .tup [.list [lo], .list [hi]], e]) =
      (s.addVariable n ⟨a, b, c, .tup [.list [lo], .list [hi]], e, .atom "False"⟩, .ok ()) := by
  simp [DD.setattr, hn, hu, Var.ofPositional, Var.default]

/-- Negation of C34 for redefinitions: assigning to an existing name leaves all definitions unchanged (and is not
reported as error). -/
theorem C34_redefinition_fails (s : DD) (n : String) (x : Def) (hn : n ∈ s.names) :
    (s.setattr n x).1.vars = s.vars ∧ (s.setattr n x).1.names = s.names ∧ (s.setattr n x).2 = .ok () := by
  simp [DD.setattr, hn]

example : ((DD.empty.run [.add "omega" .default, .assign "omega" (.dict [("val", .atom "0.1")])]).getitem "omega") = .ok .default := by
  have h := (C34_redefinition_fails (DD.empty.addVariable "omega" .default) "omega" (.dict [("val", .atom "0.1")])
    (by simp [DD.addVariable, DD.empty])).1
  simp only [DD.run, List.foldl_cons, List.foldl_nil, DD.step, DD.getitem, h]
  simp [DD.addVariable]

end RT1.Defdict
