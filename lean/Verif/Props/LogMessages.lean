import Verif.Model.LogMessages
import Verif.Lemmas.Config

/-!
# C122: log messages are delivered completely
-/

namespace RT1.LogMsg
open General Config

/-! ### formatters -/

theorem joinLines_eq : ∀ l : List Str, joinLines l = join '\n' l
  | [] => rfl
  | [_] => rfl
  | a :: b :: l => by rw [joinLines, join, joinLines_eq (b :: l)] <;> simp

theorem join_cons2 (s t : Str) (r : List Str) : join '\n' (s :: t :: r) = s ++ '\n' :: join '\n' (t :: r) := by
  rw [join]; simp

/-- Specification: lines after the first one are indented, except blank lines. -/
def shifted (ws : Char → Bool) (l : Str) : Str := if l.all ws then l else List.replicate 51 ' ' ++ l

theorem indent_free {ws : Char → Bool} {l : Str} (h : '\n' ∉ l) : indent ws pad l = shifted ws l := by
  unfold indent
  rw [splitChar_free h]
  rfl

theorem indent_cons {ws : Char → Bool} {l r : Str} (h : '\n' ∉ l) :
    indent ws pad (l ++ '\n' :: r) = shifted ws l ++ '\n' :: indent ws pad r := by
  unfold indent
  rw [splitChar_append h]
  obtain ⟨a, t, e⟩ := List.exists_cons_of_ne_nil (splitChar_ne_nil '\n' r)
  rw [e]
  rfl

theorem split_first (s : Str) : '\n' ∉ s ∨ ∃ l r, '\n' ∉ l ∧ s = l ++ '\n' :: r := by
  induction s with
  | nil => left; simp
  | cons c s ih =>
    by_cases hc : c = '\n'
    · subst hc; right; exact ⟨[], s, by simp, rfl⟩
    · rcases ih with h | ⟨l, r, h1, h2⟩
      · left; simp [h, Ne.symm hc]
      · right; exact ⟨c :: l, r, by simp [h1, Ne.symm hc], by rw [h2]; rfl⟩

theorem shifted_blank {ws : Char → Bool} {l : Str} (h : l.all ws = true) : shifted ws l = l := by
  unfold shifted; rw [if_pos h]

theorem indent_blank {ws : Char → Bool} {w : Str} (h : ∀ c ∈ w, ws c = true) : indent ws pad w = w := by
  rcases split_first w with h1 | ⟨l, r, h1, rfl⟩
  · rw [indent_free h1, shifted_blank (List.all_eq_true.mpr h)]
  · rw [indent_cons h1, shifted_blank (List.all_eq_true.mpr fun c hc => h c (by simp [hc])),
      indent_blank fun c hc => h c (by simp [hc])]
  termination_by w.length
  decreasing_by subst_vars; simp; omega

/-- Trailing whitespace is not changed; the text before it keeps its last character. -/
theorem indent_append {ws : Char → Bool} (t : Str) (c : Char) (hc : ws c = false) (hnl : ws '\n' = true) {w : Str}
    (hw : ∀ c ∈ w, ws c = true) :
    indent ws pad (t ++ [c] ++ w) = indent ws pad (t ++ [c]) ++ w ∧ ∃ x, indent ws pad (t ++ [c]) = x ++ [c] := by
  have hcn : c ≠ '\n' := by rintro rfl; rw [hnl] at hc; cases hc
  rcases split_first t with h1 | ⟨l, r, h1, rfl⟩
  · have hfree : '\n' ∉ t ++ [c] := by simp [h1, Ne.symm hcn]
    have hnb : ∀ v : Str, (t ++ [c] ++ v).all ws = false := by
      intro v
      rw [List.all_eq_false]
      exact ⟨c, by simp, by simp [hc]⟩
    have e0 : shifted ws (t ++ [c]) = List.replicate 51 ' ' ++ (t ++ [c]) := by
      unfold shifted; rw [if_neg]; have := hnb []; rw [List.append_nil] at this; simp [this]
    refine ⟨?_, List.replicate 51 ' ' ++ t, by rw [indent_free hfree, e0, List.append_assoc]⟩
    rcases split_first w with h2 | ⟨l2, r2, h2, rfl⟩
    · rw [indent_free (by simp [h1, h2, Ne.symm hcn]), indent_free hfree, e0]
      unfold shifted
      rw [if_neg (by rw [hnb w]; simp)]
      simp
    · rw [show t ++ [c] ++ (l2 ++ '\n' :: r2) = (t ++ [c] ++ l2) ++ '\n' :: r2 by simp,
        indent_cons (by simp [h1, h2, Ne.symm hcn]), indent_free hfree, e0, indent_blank fun c hc => hw c (by simp [hc])]
      unfold shifted
      rw [if_neg (by rw [hnb l2]; simp)]
      simp
  · obtain ⟨i1, x, i2⟩ := indent_append r c hc hnl hw
    refine ⟨?_, shifted ws l ++ '\n' :: x, ?_⟩
    · rw [show l ++ '\n' :: r ++ [c] ++ w = l ++ '\n' :: (r ++ [c] ++ w) by simp, indent_cons h1, i1,
        show l ++ '\n' :: r ++ [c] = l ++ '\n' :: (r ++ [c]) by simp, indent_cons h1]
      simp
    · rw [show l ++ '\n' :: r ++ [c] = l ++ '\n' :: (r ++ [c]) by simp, indent_cons h1, i2]
      simp
  termination_by t.length
  decreasing_by subst_vars; simp; omega

theorem dropWhile_all {p : Char → Bool} {a b : Str} (h : ∀ c ∈ a, p c = true) : (a ++ b).dropWhile p = b.dropWhile p := by
  induction a with
  | nil => rfl
  | cons x a ih =>
    rw [List.cons_append, List.dropWhile_cons_of_pos (h x (by simp))]
    exact ih fun c hc => h c (by simp [hc])

/-- Specification: whitespace. -/
def IsSpace (ws : Char → Bool) : Prop := ws ' ' = true ∧ ws '\n' = true

/-- The lines of the text of a handler are the lines of the record, except for whitespace at the end; all lines after the first
one are indented. `b` and `c` are the first and the last character that are no whitespace (texts with one character: see the
second statement). -/
theorem format_lines (ws : Char → Bool) (hs : IsSpace ws) (f : Fmt) (hf : f ≠ .other) (m : Msg) (hl : f = .colored → m.level ∈ formats)
    (b c : Char) (t w : Str) (hb : ws b = false) (hc : ws c = false) (hw : ∀ x ∈ w, ws x = true)
    (ht : m.text = t ++ [c] ++ w) (hh : (t ++ [c]).head? = some b) :
    ∃ out, format ws f m = .ok out ∧ ∃ l ls, splitChar '\n' (t ++ [c]) = l :: ls ∧
      splitChar '\n' out = l :: ls.map (shifted ws) := by
  have hfmt : format ws f m = .ok (strip ws (indent ws pad m.text)) := by
    cases f with
    | plain => rfl
    | colored => unfold format; rw [if_pos (hl rfl)]
    | other => exact absurd rfl hf
  refine ⟨_, hfmt, ?_⟩
  obtain ⟨i1, x, i2⟩ := indent_append t c hc hs.2 hw
  have hsplit : ∃ l ls, splitChar '\n' (t ++ [c]) = l :: ls := by
    obtain ⟨a, r, e⟩ := List.exists_cons_of_ne_nil (splitChar_ne_nil '\n' (t ++ [c]))
    exact ⟨a, r, e⟩
  obtain ⟨l, ls, hsp⟩ := hsplit
  obtain ⟨hj, hfree⟩ := splitChar_spec '\n' (t ++ [c])
  rw [hsp] at hj hfree
  refine ⟨l, ls, hsp, ?_⟩
  have hbn : b ≠ '\n' := by rintro rfl; rw [hs.2] at hb; cases hb
  have hlhead : ∃ l', l = b :: l' := by
    cases ls with
    | nil =>
      rw [join] at hj
      rw [← hj] at hh
      cases l with
      | nil => simp at hh
      | cons y l' => simp at hh; exact ⟨l', by rw [hh]⟩
    | cons l2 ls =>
      rw [join_cons2] at hj
      rw [← hj] at hh
      cases l with
      | nil => simp at hh; exact absurd hh.symm hbn
      | cons y l' => simp at hh; exact ⟨l', by rw [hh]⟩
  obtain ⟨l', rfl⟩ := hlhead
  have hind : indent ws pad (t ++ [c]) = List.replicate 51 ' ' ++ join '\n' ((b :: l') :: ls.map (shifted ws)) := by
    unfold indent
    rw [hsp, joinLines_eq, List.map_cons]
    have hnb : (b :: l').all ws = false := by rw [List.all_eq_false]; exact ⟨b, by simp, by simp [hb]⟩
    rw [if_neg (by simp [hnb])]
    cases ls with
    | nil => rfl
    | cons l2 ls =>
      rw [List.map_cons, join_cons2, List.map_cons, join_cons2]
      rw [List.append_assoc]
      rfl
  have hstrip : strip ws (indent ws pad m.text) = join '\n' ((b :: l') :: ls.map (shifted ws)) := by
    rw [ht, i1]
    have hd : (indent ws pad (t ++ [c]) ++ w).dropWhile ws = join '\n' ((b :: l') :: ls.map (shifted ws)) ++ w := by
      rw [hind, List.append_assoc, dropWhile_all (by intro y hy; rw [List.eq_of_mem_replicate hy]; exact hs.1)]
      have : ∃ r, join '\n' ((b :: l') :: ls.map (shifted ws)) = b :: r := by
        cases ls with
        | nil => exact ⟨l', rfl⟩
        | cons l2 ls => rw [List.map_cons, join_cons2]; exact ⟨_, rfl⟩
      obtain ⟨r, hr⟩ := this
      rw [hr, List.cons_append, List.dropWhile_cons_of_neg (by simp [hb])]
    unfold strip
    rw [hd, List.reverse_append, dropWhile_all (by intro y hy; exact hw y (by simpa using hy))]
    have hlast : ∃ x', join '\n' ((b :: l') :: ls.map (shifted ws)) = x' ++ [c] := by
      have h2 : List.replicate 51 ' ' ++ join '\n' ((b :: l') :: ls.map (shifted ws)) = x ++ [c] := by rw [← hind, i2]
      have hne : join '\n' ((b :: l') :: ls.map (shifted ws)) ≠ [] := by
        cases ls with
        | nil => simp [join]
        | cons l2 ls => rw [List.map_cons, join_cons2]; simp
      have := congrArg List.getLast? h2
      rw [List.getLast?_append_of_ne_nil _ hne] at this
      rw [List.getLast?_append_of_ne_nil _ (by simp)] at this
      obtain ⟨ys, hys⟩ := List.getLast?_eq_some_iff.mp this
      exact ⟨ys, hys⟩
    obtain ⟨x', hx'⟩ := hlast
    rw [hx', List.reverse_append, List.reverse_singleton, List.singleton_append, List.dropWhile_cons_of_neg (by simp [hc])]
    simp
  rw [hstrip]
  refine splitChar_join (by simp) ?_
  intro y hy
  rcases List.mem_cons.mp hy with rfl | hy
  · exact hfree _ (by simp)
  · obtain ⟨z, hz, rfl⟩ := List.mem_map.mp hy
    have := hfree z (by simp [hz])
    unfold shifted
    split
    · exact this
    · simp [this]

/-- C122: see `format_lines`; every text with a first character that is no whitespace (time or color) is of this form. -/
theorem C122_format (ws : Char → Bool) (hs : IsSpace ws) (f : Fmt) (hf : f ≠ .other) (m : Msg)
    (hl : f = .colored → m.level ∈ [10, 20, 21, 30, 40, 50]) (b : Char) (hb : ws b = false) (hh : m.text.head? = some b) :
    ∃ body blank out l ls, m.text = body ++ blank ∧ (∀ x ∈ blank, ws x = true) ∧ format ws f m = .ok out ∧
      splitChar '\n' body = l :: ls ∧
      splitChar '\n' out = l :: ls.map fun x => if x.all ws then x else List.replicate 51 ' ' ++ x := by
  have hdec : ∀ s : Str, (∃ x ∈ s, ws x = false) → ∃ t c w, s = t ++ [c] ++ w ∧ ws c = false ∧ ∀ x ∈ w, ws x = true := by
    intro s
    induction s with
    | nil => rintro ⟨x, hx, -⟩; cases hx
    | cons y s ih =>
      intro h
      by_cases h' : ∃ x ∈ s, ws x = false
      · obtain ⟨t, c, w, e, h1, h2⟩ := ih h'
        exact ⟨y :: t, c, w, by rw [e]; rfl, h1, h2⟩
      · refine ⟨[], y, s, rfl, ?_, ?_⟩
        · obtain ⟨x, hx, hxw⟩ := h
          rcases List.mem_cons.mp hx with rfl | hx
          · exact hxw
          · exact absurd ⟨x, hx, hxw⟩ h'
        · intro x hx
          by_contra hc
          exact h' ⟨x, hx, by simpa using hc⟩
  have hmem : b ∈ m.text := List.mem_of_mem_head? hh
  obtain ⟨t, c, w, e, h1, h2⟩ := hdec m.text ⟨b, hmem, hb⟩
  have hh' : (t ++ [c]).head? = some b := by
    rw [e] at hh
    cases t with
    | nil => simpa using hh
    | cons y t => simpa using hh
  obtain ⟨out, o1, l, ls, o2, o3⟩ := format_lines ws hs f hf m (fun hc => by
    have := hl hc; simp only [formats, List.mem_cons, List.not_mem_nil, or_false] at this ⊢; tauto) b c t w hb h1 h2 e hh'
  exact ⟨t ++ [c], w, out, l, ls, e, h2, o1, o2, o3⟩

example : IsSpace (fun c => c == ' ' || c == '\n') ∧ (fun c => c == ' ' || c == '\n') '2' = false := by
  refine ⟨⟨?_, ?_⟩, ?_⟩ <;> decide

/-! ### histories -/

/-- The names that an operation changes. -/
def Op.named : Op → Option String
  | .setLevel _ n _ => some n
  | .start _ _ n _ _ => some n
  | .stop _ n _ => some n
  | _ => none

/-- Do the loggers above "rt1" have handlers during an operation? -/
def Op.root : Op → Bool
  | .setup r => r
  | .msg _ => false
  | .setLevel r _ _ => r
  | .start r _ _ _ _ => r
  | .stop r _ _ => r

/-- Specification: the messages that an operation issues (`n`: number of handlers with a name). -/
def issued (n : String → Nat) : Op → List Msg
  | .msg m => [m]
  | .start _ _ _ _ note => [⟨10, note⟩]
  | .stop _ name note => List.replicate (n name) ⟨10, note⟩
  | _ => []

/-- Number of handlers with a name. -/
def named (s : St) (n : String) : Nat := (s.hs.filter fun h => decide (h.name = some n)).length

/-- Specification: all messages of a history. -/
def trace (ws : Char → Bool) (colored : Bool) : St → List Op → List Msg
  | _, [] => []
  | s, op :: ops => issued (named s) op ++ trace ws colored (apply ws colored s op) ops

/-- The handlers are distinct, and new handlers have written nothing. -/
structure Inv (s : St) : Prop where
  nodup : (s.hs.map Hand.id).Nodup
  lt : ∀ h ∈ s.hs, h.id < s.next
  fresh : ∀ i, s.next ≤ i → s.out i = []

theorem log_frame (ws : Char → Bool) (m : Msg) (s : St) :
    (log ws m s).hs = s.hs ∧ (log ws m s).level = s.level ∧ (log ws m s).next = s.next := by
  unfold log; split <;> exact ⟨rfl, rfl, rfl⟩

theorem filter_id {hs : List Hand} (hn : (hs.map Hand.id).Nodup) {h : Hand} (hm : h ∈ hs) :
    (hs.filter fun x => decide (x.id = h.id)) = [h] := by
  induction hs with
  | nil => cases hm
  | cons x hs ih =>
    rw [List.map_cons, List.nodup_cons] at hn
    rcases List.mem_cons.mp hm with rfl | hm'
    · rw [List.filter_cons_of_pos (by simp), List.filter_eq_nil_iff.mpr]
      intro y hy
      have : y.id ≠ h.id := fun e => hn.1 (List.mem_map.mpr ⟨y, hy, e⟩)
      simp [this]
    · have : x.id ≠ h.id := fun e => hn.1 (List.mem_map.mpr ⟨h, hm', e.symm⟩)
      rw [List.filter_cons_of_neg (by simp [this]), ih hn.2 hm']

theorem log_out {ws : Char → Bool} {m : Msg} {s : St} (hi : Inv s) {h : Hand} (hm : h ∈ s.hs) :
    (log ws m s).out h.id = s.out h.id ++ if s.level ≤ m.level then emit ws h m else [] := by
  unfold log
  split
  · show s.out h.id ++ _ = _
    rw [filter_id hi.nodup hm]
    simp
  · simp

theorem log_inv {ws : Char → Bool} {m : Msg} {s : St} (hi : Inv s) : Inv (log ws m s) := by
  obtain ⟨h1, h2, h3⟩ := log_frame ws m s
  refine ⟨by rw [h1]; exact hi.nodup, by rw [h1, h3]; exact hi.lt, ?_⟩
  intro i h
  rw [h3] at h
  unfold log
  split
  · show s.out i ++ _ = _
    rw [hi.fresh i h, List.filter_eq_nil_iff.mpr]
    · rfl
    · intro x hx
      have := hi.lt x hx
      have : x.id ≠ i := by omega
      simp [this]
  · exact hi.fresh i h

theorem setup_inv {root colored : Bool} {s : St} (hi : Inv s) : Inv (setup root colored s) := by
  unfold setup
  split
  · exact hi
  · refine ⟨by simp, by simp, ?_⟩
    intro i h
    exact hi.fresh i (by simp at h; omega)

theorem setup_of_mem {root colored : Bool} {s : St} {h : Hand} (hm : h ∈ s.hs) : setup root colored s = s := by
  unfold setup
  rw [if_pos]
  have : s.hs ≠ [] := List.ne_nil_of_mem hm
  cases hh : s.hs with
  | nil => exact absurd hh this
  | cons _ _ => rfl

theorem setFirst_spec {name : String} {level : Nat} {hs hs' : List Hand} (e : setFirst name level hs = some hs') :
    ∃ a h b, hs = a ++ h :: b ∧ h.name = some name ∧ (∀ x ∈ a, x.name ≠ some name) ∧ hs' = a ++ { h with level := level } :: b := by
  induction hs generalizing hs' with
  | nil => cases e
  | cons x hs ih =>
    unfold setFirst at e
    split at e
    next hx =>
      cases e
      exact ⟨[], x, hs, rfl, hx, by simp, rfl⟩
    next hx =>
      cases e2 : setFirst name level hs with
      | none => rw [e2] at e; cases e
      | some r =>
        rw [e2] at e; cases e
        obtain ⟨a, h, b, h1, h2, h3, h4⟩ := ih e2
        refine ⟨x :: a, h, b, by rw [h1]; rfl, h2, ?_, by rw [h4]; rfl⟩
        intro y hy
        rcases List.mem_cons.mp hy with rfl | hy
        · exact hx
        · exact h3 y hy

theorem setFirst_none {name : String} {level : Nat} {hs : List Hand} :
    setFirst name level hs = none ↔ ∀ x ∈ hs, x.name ≠ some name := by
  induction hs with
  | nil => simp [setFirst]
  | cons x hs ih =>
    unfold setFirst
    split
    next hx => simp [hx]
    next hx => simp [hx, ih]

theorem start_inv {ws : Char → Bool} {root colored : Bool} {dir : List String} {name : String} {level : Nat} {note : Str} {s : St}
    (hi : Inv s) : Inv (startFile ws root colored dir name level note s) := by
  unfold startFile
  have hs := setup_inv (root := root) (colored := colored) hi
  refine log_inv ⟨?_, ?_, ?_⟩
  · show (((setup root colored s).hs ++ [_]).map Hand.id).Nodup
    rw [List.map_append, List.nodup_append]
    refine ⟨hs.nodup, by simp, ?_⟩
    intro a ha b hb
    obtain ⟨x, hx, rfl⟩ := List.mem_map.mp ha
    have := hs.lt x hx
    simp at hb
    omega
  · intro h hh
    show h.id < (setup root colored s).next + 1
    rcases List.mem_append.mp hh with hh | hh
    · have := hs.lt h hh; omega
    · simp at hh; subst hh; simp
  · intro i h
    exact hs.fresh i (by have : (setup root colored s).next + 1 ≤ i := h; omega)

/-- One step of `stopFile`. -/
theorem stop_fold (ws : Char → Bool) (note : Str) (l : List Hand) (s : St) (hi : Inv s) :
    let r := l.foldl (fun s h => log ws ⟨10, note⟩ { s with hs := s.hs.filter fun h' => decide (h'.id ≠ h.id) }) s
    Inv r ∧ r.level = s.level ∧ (∀ h ∈ r.hs, h ∈ s.hs) ∧ ∀ h ∈ s.hs, (∀ x ∈ l, x.id ≠ h.id) → h ∈ r.hs ∧
      r.out h.id = s.out h.id ++ ((List.replicate l.length (⟨10, note⟩ : Msg)).filter fun m => decide (s.level ≤ m.level)).flatMap (emit ws h) := by
  induction l generalizing s with
  | nil => exact ⟨hi, rfl, fun h x => x, fun h x _ => ⟨x, by simp⟩⟩
  | cons x l ih =>
    have hi2 : Inv { s with hs := s.hs.filter fun h' => decide (h'.id ≠ x.id) } := by
      refine ⟨?_, fun h hh => hi.lt h (List.mem_filter.mp hh).1, hi.fresh⟩
      exact (List.filter_sublist.map Hand.id).nodup hi.nodup
    obtain ⟨f1, f2, f3⟩ := log_frame ws ⟨10, note⟩ { s with hs := s.hs.filter fun h' => decide (h'.id ≠ x.id) }
    obtain ⟨i1, i2, i3, i4⟩ := ih (log ws ⟨10, note⟩ { s with hs := s.hs.filter fun h' => decide (h'.id ≠ x.id) }) (log_inv hi2)
    refine ⟨i1, by rw [List.foldl_cons, i2, f2], ?_, ?_⟩
    · intro h hh
      have := i3 h hh
      rw [f1] at this
      exact (List.mem_filter.mp this).1
    · intro h hh hx
      have hmem : h ∈ s.hs.filter fun h' => decide (h'.id ≠ x.id) :=
        List.mem_filter.mpr ⟨hh, by simpa using (hx x (by simp)).symm⟩
      obtain ⟨j1, j2⟩ := i4 h (by rw [f1]; exact hmem) fun y hy => hx y (by simp [hy])
      refine ⟨j1, ?_⟩
      rw [List.foldl_cons, j2, log_out hi2 hmem, f2, List.length_cons, List.replicate_succ]
      by_cases hl : s.level ≤ 10
      · rw [List.filter_cons_of_pos (by simpa using hl), if_pos (by simpa using hl), List.flatMap_cons, List.append_assoc]
      · rw [List.filter_cons_of_neg (by simpa using hl), if_neg (by simpa using hl), List.append_nil]

theorem apply_inv (ws : Char → Bool) (colored : Bool) {s : St} (hi : Inv s) (op : Op) : Inv (apply ws colored s op) := by
  cases op with
  | setup root => exact setup_inv hi
  | msg m => exact log_inv hi
  | setLevel root n l =>
    unfold apply setLevel
    dsimp only
    have hs := setup_inv (root := root) (colored := colored) hi
    cases e : setFirst n l (setup root colored s).hs with
    | none => simp only [e]; exact hs
    | some hs' =>
      simp only [e]
      obtain ⟨a, h, b, h1, h2, h3, h4⟩ := setFirst_spec e
      have hid : hs'.map Hand.id = (setup root colored s).hs.map Hand.id := by rw [h4, h1]; simp
      refine ⟨by show (hs'.map Hand.id).Nodup; rw [hid]; exact hs.nodup, ?_, hs.fresh⟩
      intro x hx
      have : x.id ∈ hs'.map Hand.id := List.mem_map.mpr ⟨x, hx, rfl⟩
      rw [hid] at this
      obtain ⟨y, hy, e⟩ := List.mem_map.mp this
      rw [← e]
      exact hs.lt y hy
  | start root d n l note => exact start_inv hi
  | stop root n note => exact (stop_fold ws note _ _ (setup_inv hi)).1

/-- One operation that does not change the handler. -/
theorem apply_out (ws : Char → Bool) (colored : Bool) {s : St} (hi : Inv s) {h : Hand} (hm : h ∈ s.hs) (op : Op)
    (hn : ∀ n, op.named = some n → h.name ≠ some n) :
    h ∈ (apply ws colored s op).hs ∧ (apply ws colored s op).level = s.level ∧
      (apply ws colored s op).out h.id =
        s.out h.id ++ ((issued (named s) op).filter fun m => decide (s.level ≤ m.level)).flatMap (emit ws h) := by
  cases op with
  | setup root =>
    unfold apply
    dsimp only
    rw [setup_of_mem hm]
    exact ⟨hm, rfl, by simp [issued]⟩
  | msg m =>
    obtain ⟨f1, f2, f3⟩ := log_frame ws m s
    refine ⟨by unfold apply; rw [f1]; exact hm, f2, ?_⟩
    unfold apply
    dsimp only
    rw [log_out hi hm]
    unfold issued
    split <;> simp_all
  | setLevel root n l =>
    unfold apply setLevel
    dsimp only
    rw [setup_of_mem hm]
    cases e : setFirst n l s.hs with
    | none => exact ⟨hm, rfl, by simp [issued]⟩
    | some hs' =>
      obtain ⟨a, x, b, h1, h2, h3, h4⟩ := setFirst_spec e
      refine ⟨?_, rfl, by simp [issued]⟩
      show h ∈ hs'
      rw [h4]
      rw [h1] at hm
      rcases List.mem_append.mp hm with hm | hm
      · exact List.mem_append_left _ hm
      · rcases List.mem_cons.mp hm with rfl | hm
        · exact absurd h2 (hn n rfl)
        · exact List.mem_append_right _ (List.mem_cons_of_mem _ hm)
  | start root d n l note =>
    have hi2 := start_inv (ws := ws) (root := root) (colored := colored) (dir := d) (name := n) (level := l) (note := note) hi
    unfold apply startFile
    dsimp only
    rw [setup_of_mem hm]
    obtain ⟨f1, f2, f3⟩ := log_frame ws ⟨10, note⟩ { s with hs := s.hs ++ [⟨s.next, some n, some d, l, .plain⟩], next := s.next + 1 }
    have hm2 : h ∈ s.hs ++ [(⟨s.next, some n, some d, l, .plain⟩ : Hand)] := List.mem_append_left _ hm
    refine ⟨by rw [f1]; exact hm2, f2, ?_⟩
    have hi3 : Inv { s with hs := s.hs ++ [⟨s.next, some n, some d, l, .plain⟩], next := s.next + 1 } := by
      refine ⟨?_, ?_, fun i h => hi.fresh i (by have : s.next + 1 ≤ i := h; omega)⟩
      · have := hi2.nodup
        unfold startFile at this
        rw [setup_of_mem hm, f1] at this
        exact this
      · have := hi2.lt
        unfold startFile at this
        rw [setup_of_mem hm, f1, f3] at this
        exact this
    rw [log_out hi3 hm2]
    unfold issued
    show s.out h.id ++ (if s.level ≤ 10 then _ else _) = _
    split <;> simp_all
  | stop root n note =>
    unfold apply stopFile
    dsimp only
    rw [setup_of_mem hm]
    obtain ⟨i1, i2, i3, i4⟩ := stop_fold ws note (s.hs.filter fun h => decide (h.name = some n)) s hi
    obtain ⟨j1, j2⟩ := i4 h hm (by
      intro x hx e
      obtain ⟨hx1, hx2⟩ := List.mem_filter.mp hx
      have hx2 : x.name = some n := by simpa using hx2
      have : x = h := List.inj_on_of_nodup_map hi.nodup hx1 hm e
      exact hn n rfl (this ▸ hx2))
    exact ⟨j1, i2, j2⟩

theorem run_inv (ws : Char → Bool) (colored : Bool) {s : St} (hi : Inv s) (ops : List Op) : Inv (run ws colored s ops) := by
  induction ops generalizing s with
  | nil => exact hi
  | cons op ops ih => exact ih (apply_inv ws colored hi op)

/-- Whole histories. -/
theorem run_out (ws : Char → Bool) (colored : Bool) {s : St} (hi : Inv s) {h : Hand} (hm : h ∈ s.hs) (ops : List Op)
    (hn : ∀ op ∈ ops, ∀ n, op.named = some n → h.name ≠ some n) :
    h ∈ (run ws colored s ops).hs ∧ (run ws colored s ops).level = s.level ∧
      (run ws colored s ops).out h.id =
        s.out h.id ++ ((trace ws colored s ops).filter fun m => decide (s.level ≤ m.level)).flatMap (emit ws h) := by
  induction ops generalizing s with
  | nil => exact ⟨hm, rfl, by simp [trace, run]⟩
  | cons op ops ih =>
    obtain ⟨a1, a2, a3⟩ := apply_out ws colored hi hm op (hn op (by simp))
    obtain ⟨b1, b2, b3⟩ := ih (apply_inv ws colored hi op) a1 fun o ho => hn o (by simp [ho])
    refine ⟨b1, b2.trans a2, ?_⟩
    show (run ws colored (apply ws colored s op) ops).out h.id = _
    rw [b3, a3, a2, trace, List.filter_append, List.flatMap_append, List.append_assoc]

/-- The logger before rt1 is imported: effective level of the parents, no handlers. -/
def start0 (lvl : Nat) : St := ⟨lvl, [], 0, fun _ => []⟩

theorem inv0 (lvl : Nat) : Inv (start0 lvl) := ⟨List.nodup_nil, by simp [start0], fun _ _ => rfl⟩

/-- Without other handlers the level is 10 as soon as there are handlers. -/
theorem level10 (ws : Char → Bool) (colored : Bool) {s : St} (hi : Inv s) (h0 : s.hs ≠ [] → s.level = 10) (op : Op)
    (hr : op.root = false) : ((apply ws colored s op).hs ≠ [] → (apply ws colored s op).level = 10) := by
  have hset : (setup false colored s).hs ≠ [] ∧ (setup false colored s).level = 10 := by
    unfold setup
    cases hh : s.hs with
    | nil => simp
    | cons a b => simp [hh]; exact h0 (by simp [hh])
  cases op with
  | setup root => cases hr; exact fun _ => hset.2
  | msg m =>
    obtain ⟨f1, f2, f3⟩ := log_frame ws m s
    unfold apply
    dsimp only
    rw [f1, f2]; exact h0
  | setLevel root n l =>
    cases hr
    intro _
    unfold apply setLevel
    dsimp only
    cases e : setFirst n l (setup false colored s).hs with
    | none => exact hset.2
    | some hs' => exact hset.2
  | start root d n l note =>
    cases hr
    intro _
    unfold apply startFile
    dsimp only
    exact (log_frame ws _ _).2.1.trans hset.2
  | stop root n note =>
    cases hr
    intro _
    exact (stop_fold ws note _ _ (setup_inv hi)).2.1.trans hset.2

theorem level10_run (ws : Char → Bool) (colored : Bool) {s : St} (hi : Inv s) (h0 : s.hs ≠ [] → s.level = 10) (ops : List Op)
    (hr : ∀ op ∈ ops, op.root = false) : ((run ws colored s ops).hs ≠ [] → (run ws colored s ops).level = 10) := by
  induction ops generalizing s with
  | nil => exact h0
  | cons op ops ih =>
    exact ih (apply_inv ws colored hi op) (level10 ws colored hi h0 op (hr op (by simp))) fun o ho => hr o (by simp [ho])

theorem plain_map (ws : Char → Bool) (h : Hand) (hp : h.fmt = .plain) (hl : 10 ≤ h.level) (l : List Msg) :
    List.Forall₂ (fun m t => format ws .plain m = .ok t) (l.filter fun m => decide (h.level ≤ m.level))
      ((l.filter fun m => decide (10 ≤ m.level)).flatMap (emit ws h)) := by
  induction l with
  | nil => exact .nil
  | cons m l ih =>
    by_cases h1 : h.level ≤ m.level
    · rw [List.filter_cons_of_pos (by simpa using h1), List.filter_cons_of_pos (by simp; omega), List.flatMap_cons]
      have he : emit ws h m = [strip ws (indent ws pad m.text)] := by
        unfold emit
        rw [if_pos h1, hp]
        rfl
      rw [he]
      exact .cons rfl ih
    · rw [List.filter_cons_of_neg (by simpa using h1)]
      by_cases h2 : 10 ≤ m.level
      · rw [List.filter_cons_of_pos (by simpa using h2), List.flatMap_cons]
        have he : emit ws h m = [] := by unfold emit; exact if_neg h1
        rw [he]
        exact ih
      · rw [List.filter_cons_of_neg (by simpa using h2)]
        exact ih

/-- C122 (log-file): after `start_log_to_file`, the file contains the messages of the rest of the history with at least the level of
the handler, completely, in order and once, whatever happens to other handlers before and after.  Missing: handlers of other loggers
(`Op.root`), operations for the same name. -/
theorem C122_file_partial (ws : Char → Bool) (colored : Bool) (lvl : Nat) (pre ops : List Op) (dir : List String) (name : String)
    (level : Nat) (hl : 10 ≤ level) (note : Str) (hpre : ∀ op ∈ pre, op.root = false)
    (hops : ∀ op ∈ ops, op.named ≠ some name) :
    let s := run ws colored (start0 lvl) (pre ++ [.start false dir name level note])
    ∃ h, s.hs.getLast? = some h ∧ h ∈ (run ws colored s ops).hs ∧ h.name = some name ∧ h.dir = some dir ∧
      List.Forall₂ (fun m t => format ws .plain m = .ok t)
        ((⟨10, note⟩ :: trace ws colored s ops).filter fun m => decide (level ≤ m.level)) ((run ws colored s ops).out h.id) := by
  intro s
  have hi0 := run_inv ws colored (inv0 lvl) pre
  have hl0 := level10_run ws colored (inv0 lvl) (by simp [start0]) pre hpre
  have es : s = startFile ws false colored dir name level note (run ws colored (start0 lvl) pre) := by
    show run _ _ _ (pre ++ [_]) = _
    unfold run
    rw [List.foldl_append]
    rfl
  have hlev : s.level = 10 := by
    have h1 := level10 ws colored hi0 hl0 (.start false dir name level note) rfl
    rw [es]
    refine h1 ?_
    show (startFile ws false colored dir name level note _).hs ≠ []
    unfold startFile
    rw [(log_frame ws _ _).1]
    simp
  have hi : Inv s := by rw [es]; exact start_inv hi0
  have hset := setup_inv (root := false) (colored := colored) hi0
  let q := setup false colored (run ws colored (start0 lvl) pre)
  let h : Hand := ⟨q.next, some name, some dir, level, .plain⟩
  have hhs : s.hs = q.hs ++ [h] := by
    rw [es]; unfold startFile; rw [(log_frame ws _ _).1]
  have hm : h ∈ s.hs := by rw [hhs]; simp
  have hout0 : s.out h.id = emit ws h ⟨10, note⟩ := by
    have hi1 : Inv { q with hs := q.hs ++ [h], next := q.next + 1 } := by
      have e1 := log_frame ws ⟨10, note⟩ { q with hs := q.hs ++ [h], next := q.next + 1 }
      refine ⟨?_, ?_, fun i hh => hset.fresh i (by have : q.next + 1 ≤ i := hh; show q.next ≤ i; omega)⟩
      · have := hi.nodup; rw [hhs] at this; exact this
      · intro x hx
        have := hi.lt x (by rw [hhs]; exact hx)
        rw [es] at this
        unfold startFile at this
        rw [(log_frame ws _ _).2.2] at this
        exact this
    have e2 : s.out h.id = (log ws ⟨10, note⟩ { q with hs := q.hs ++ [h], next := q.next + 1 }).out h.id := by rw [es]; rfl
    rw [e2, log_out hi1 (h := h) (by simp)]
    have e3 : q.level = 10 := by
      rw [es] at hlev
      unfold startFile at hlev
      rw [(log_frame ws _ _).2.1] at hlev
      exact hlev
    show q.out q.next ++ (if q.level ≤ 10 then _ else _) = _
    rw [hset.fresh q.next (le_refl _), if_pos (by omega), List.nil_append]
  obtain ⟨r1, r2, r3⟩ := run_out ws colored hi hm ops (by
    intro op ho n hn e
    have : n = name := (Option.some.inj e).symm
    exact hops op ho (this ▸ hn))
  refine ⟨h, by rw [hhs]; simp, r1, rfl, rfl, ?_⟩
  rw [r3, hout0, hlev]
  have := plain_map ws h rfl hl (⟨10, note⟩ :: trace ws colored s ops)
  rw [List.filter_cons_of_pos (p := fun m : Msg => decide (10 ≤ m.level)) (by simp), List.flatMap_cons] at this
  exact this

example : (∀ op ∈ [Op.setup false, .msg ⟨10, ['a']⟩], op.root = false) ∧
    ∀ op ∈ [Op.msg ⟨30, ['b']⟩, .start false [] "other" 10 ['c'], .stop false "other" ['d']], op.named ≠ some "rt1_filehandler" := by
  constructor <;> simp [Op.root, Op.named]

/-- C122 (console): after the import, the console shows exactly the messages with level 21 or more, in order, as long as no operation
addresses the console handler; with colors, this is restricted to the six levels of the documentation. -/
theorem C122_console_partial (ws : Char → Bool) (colored : Bool) (lvl : Nat) (ops : List Op)
    (hops : ∀ op ∈ ops, op.named ≠ some "rt1_consolehandler") :
    let s := run ws colored (start0 lvl) [.setup false]
    let shown := (trace ws colored s ops).filter fun m => decide (21 ≤ m.level)
    (run ws colored s ops).out 0 = (shown.filter fun m => !colored || decide (m.level ∈ [21, 30, 40, 50])).flatMap fun m =>
        (format ws .plain m).toOption.toList := by
  intro s shown
  have hi := run_inv ws colored (inv0 lvl) [.setup false]
  let h : Hand := ⟨0, some "rt1_consolehandler", none, 21, if colored then .colored else .plain⟩
  obtain ⟨r1, r2, r3⟩ := run_out ws colored hi (h := h) (by show h ∈ [h]; simp) ops (by
    intro op ho n hn e
    have : n = "rt1_consolehandler" := (Option.some.inj e).symm
    exact hops op ho (this ▸ hn))
  have r3 : (run ws colored s ops).out 0 = [] ++ ((trace ws colored s ops).filter fun m => decide (10 ≤ m.level)).flatMap (emit ws h) := r3
  rw [r3, List.nil_append]
  show _ = (((trace ws colored s ops).filter _).filter _).flatMap _
  generalize trace ws colored s ops = l
  induction l with
  | nil => rfl
  | cons m l ih =>
    by_cases h1 : 21 ≤ m.level
    · rw [List.filter_cons_of_pos (by simp; omega), List.flatMap_cons, ih, List.filter_cons_of_pos (p := fun m : Msg => decide (21 ≤ m.level)) (by simpa using h1)]
      have he : emit ws h m = match format ws h.fmt m with
          | .ok s => [s]
          | .error _ => [] := by unfold emit; exact if_pos h1
      cases colored with
      | false =>
        rw [List.filter_cons_of_pos (by simp), List.flatMap_cons, he]
        rfl
      | true =>
        by_cases h2 : m.level ∈ [21, 30, 40, 50]
        · rw [List.filter_cons_of_pos (by simpa using h2), List.flatMap_cons, he]
          have h3 : m.level ∈ formats := by simp [formats] at h2 ⊢; omega
          have : format ws h.fmt m = format ws .plain m := by
            show (if m.level ∈ formats then _ else _) = _
            rw [if_pos h3]; rfl
          rw [this]
          rfl
        · rw [List.filter_cons_of_neg (by simpa using h2), he]
          have h3 : m.level ∉ formats := by simp [formats] at h2 ⊢; omega
          have : format ws h.fmt m = .error .typeError := by
            show (if m.level ∈ formats then _ else _) = _
            rw [if_neg h3]
          rw [this]
          rfl
    · rw [List.filter_cons_of_neg (p := fun m : Msg => decide (21 ≤ m.level)) (by simpa using h1)]
      by_cases h2 : 10 ≤ m.level
      · rw [List.filter_cons_of_pos (by simpa using h2), List.flatMap_cons, ih]
        have : emit ws h m = [] := by unfold emit; exact if_neg h1
        rw [this, List.nil_append]
      · rw [List.filter_cons_of_neg (by simpa using h2)]
        exact ih

/-- C122: a message with another level (e.g. `log.log(25, …)`) is not shown on a colored console. -/
theorem C122_level_fails (ws : Char → Bool) (text : Str) :
    (run ws true (start0 30) [.setup false, .msg ⟨25, text⟩]).out 0 = [] := rfl

/-- C122: if the root logger has handlers when rt1 is imported (`logging.basicConfig`, notebooks, pytest), there is no console handler,
the level is the one of the root logger (WARNING), and progress messages are written nowhere, not even to a log-file with level DEBUG;
`set_log_handler_level` raises IndexError. -/
theorem C122_root_fails (ws : Char → Bool) (colored : Bool) (dir : List String) (note text : Str) (l : Nat) :
    (∀ i, (run ws colored (start0 30) [.setup true, .start true dir "rt1_filehandler" 10 note, .msg ⟨21, text⟩]).out i = []) ∧
      setLevel true colored "rt1_consolehandler" l (run ws colored (start0 30) [.setup true]) = .error .indexError :=
  ⟨fun _ => rfl, rfl⟩

/-- C122 (levels): `set_log_handler_level` raises IndexError iff there is no handler with the name, and changes the first handler with
the name only. -/
theorem C122_set_level (root colored : Bool) (name : String) (level : Nat) (s : St) (hs : s.hs ≠ []) :
    ((∀ h ∈ s.hs, h.name ≠ some name) → setLevel root colored name level s = .error .indexError) ∧
    ∀ a h b, s.hs = a ++ h :: b → h.name = some name → (∀ x ∈ a, x.name ≠ some name) →
      setLevel root colored name level s =
        .ok { s with hs := a ++ ⟨h.id, h.name, h.dir, level, h.fmt⟩ :: b } := by
  obtain ⟨h0, hm0⟩ := List.exists_mem_of_ne_nil _ hs
  constructor
  · intro hn
    unfold setLevel
    rw [setup_of_mem hm0]
    simp only [setFirst_none.mpr hn]
  · intro a h b e1 e2 e3
    unfold setLevel
    rw [setup_of_mem hm0]
    have : setFirst name level s.hs = some (a ++ { h with level := level } :: b) := by
      rw [e1]
      clear e1
      induction a with
      | nil => simp [setFirst, e2]
      | cons x a ih =>
        rw [List.cons_append, setFirst, if_neg (e3 x (by simp)), ih fun y hy => e3 y (by simp [hy])]
        rfl
    simp only [this]

example : ∃ s : St, s.hs = [⟨0, some "rt1_consolehandler", none, 21, .plain⟩, ⟨1, some "rt1_filehandler", some [], 10, .plain⟩] ∧ s.hs ≠ [] :=
  ⟨⟨10, _, 2, fun _ => []⟩, rfl, by simp⟩

/-! ### processing runs -/

/-- C122 (processing): the log-file of a processing run contains the records before the first None with at least the level of the
listener, in the order of the queue. -/
theorem C122_listener (ws : Char → Bool) (level : Nat) (before : List Msg) (after : List (Option Msg)) :
    List.Forall₂ (fun m t => format ws .plain m = .ok t) (before.filter fun m => decide (level ≤ m.level))
      (listener ws level (before.map some ++ none :: after)) := by
  induction before with
  | nil => exact .nil
  | cons m l ih =>
    rw [List.map_cons, List.cons_append, listener]
    by_cases h1 : level ≤ m.level
    · rw [List.filter_cons_of_pos (by simpa using h1)]
      unfold emit
      rw [if_pos h1]
      exact .cons rfl ih
    · rw [List.filter_cons_of_neg (by simpa using h1)]
      unfold emit
      rw [if_neg h1]
      exact ih

/-! ### removal of the results -/

/-- What the loop leaves: the handler after a removed handler is skipped. -/
def sweep (P : Hand → Bool) : List Hand → List Hand
  | [] => []
  | [x] => if P x then [] else [x]
  | x :: y :: l => if P x then y :: sweep P l else x :: sweep P (y :: l)

theorem removeLoop_eq (P : Hand → Bool) (pre rest : List Hand) (closed : List Nat) :
    (removeLoop P pre.length (pre ++ rest) closed).1 = pre ++ sweep P rest := by
  match rest with
  | [] =>
    rw [removeLoop]
    split
    · simp [sweep]
    · next h => simp at h
  | [x] =>
    rw [removeLoop]
    have e : (pre ++ [x])[pre.length]? = some x := by simp
    split
    · next h => rw [e] at h; cases h
    · next y h =>
      rw [e] at h; cases h
      by_cases hx : P x = true
      · rw [if_pos hx, sweep, if_pos hx]
        have e2 : (pre ++ [x]).eraseIdx pre.length = pre := by
          rw [List.eraseIdx_append_of_length_le (le_refl _)]; simp
        rw [e2, removeLoop]
        split
        · simp
        · next h => simp at h
      · rw [if_neg hx, sweep, if_neg hx]
        have := removeLoop_eq P (pre ++ [x]) [] (closed ++ [x.id])
        rw [List.length_append, List.append_nil] at this
        rw [show pre.length + 1 = pre.length + [x].length from rfl, this]
        simp [sweep]
  | x :: y :: l =>
    rw [removeLoop]
    have e : (pre ++ x :: y :: l)[pre.length]? = some x := by simp
    split
    · next h => rw [e] at h; cases h
    · next z h =>
      rw [e] at h; cases h
      by_cases hx : P x = true
      · rw [if_pos hx, sweep, if_pos hx]
        have e2 : (pre ++ x :: y :: l).eraseIdx pre.length = (pre ++ [y]) ++ l := by
          rw [List.eraseIdx_append_of_length_le (le_refl _)]; simp
        have := removeLoop_eq P (pre ++ [y]) l (closed ++ [x.id])
        rw [List.length_append] at this
        rw [e2, show pre.length + 1 = pre.length + [y].length from rfl, this]
        simp
      · rw [if_neg hx, sweep, if_neg hx]
        have := removeLoop_eq P (pre ++ [x]) (y :: l) (closed ++ [x.id])
        rw [List.length_append, List.append_assoc] at this
        rw [show pre.length + 1 = pre.length + [x].length from rfl]
        rw [show pre ++ x :: y :: l = pre ++ ([x] ++ y :: l) from rfl, this]
        simp
  termination_by rest.length

theorem sweep_filter (P : Hand → Bool) : ∀ l : List Hand, l.IsChain (fun x y => ¬ (P x = true ∧ P y = true)) →
    sweep P l = l.filter fun x => !P x
  | [], _ => rfl
  | [x], _ => by unfold sweep; by_cases h : P x = true <;> simp [h]
  | x :: y :: l, hc => by
    have hc1 := List.isChain_cons_cons.mp hc
    unfold sweep
    by_cases h : P x = true
    · have hy : ¬ P y = true := fun hy => hc1.1 ⟨h, hy⟩
      rw [if_pos h, List.filter_cons_of_neg (by simp [h]), List.filter_cons_of_pos (by simp [hy]), sweep_filter P l hc1.2.tail]
    · rw [if_neg h, List.filter_cons_of_pos (by simp [h]), sweep_filter P (y :: l) hc1.2]

theorem sweep_sub (P : Hand → Bool) : ∀ l : List Hand, (sweep P l).Sublist l ∧ (l.filter fun x => !P x).Sublist (sweep P l)
  | [] => ⟨.slnil, .slnil⟩
  | [x] => by unfold sweep; by_cases h : P x = true <;> simp [h]
  | x :: y :: l => by
    unfold sweep
    by_cases h : P x = true
    · obtain ⟨a, b⟩ := sweep_sub P l
      rw [if_pos h, List.filter_cons_of_neg (by simp [h])]
      refine ⟨.cons _ (.cons_cons _ a), ?_⟩
      by_cases hy : P y = true
      · rw [List.filter_cons_of_neg (by simp [hy])]; exact .cons _ b
      · rw [List.filter_cons_of_pos (by simp [hy])]; exact .cons_cons _ b
    · obtain ⟨a, b⟩ := sweep_sub P (y :: l)
      rw [if_neg h, List.filter_cons_of_pos (by simp [h])]
      exact ⟨.cons_cons _ a, .cons_cons _ b⟩

/-- Specification: a handler that writes a file in the folder "cfg" of the results. -/
def WritesCfg (dump : List String) (h : Hand) : Prop := h.dir = some (dump ++ ["cfg"])

instance (dump : List String) (h : Hand) : Decidable (WritesCfg dump h) := by unfold WritesCfg; infer_instance

theorem inCfg_eq (dump : List String) (h : Hand) : inCfg true dump h = decide (WritesCfg dump h) := by
  rw [Bool.eq_iff_iff, decide_eq_true_iff]
  unfold inCfg WritesCfg
  cases hd : h.dir with
  | none => simp
  | some d => simp

/-- C122 (removal): the handlers that do not write into the removed folder are kept in any case; if all handlers with files in the
results write into the folder "cfg" and no two of them follow each other, the call succeeds and removes exactly these handlers.
Missing: see the two theorems below. -/
theorem C122_remove_partial (dump : List String) (level : Nat) (hs : List Hand) :
    ((hs.filter fun h => decide (¬ WritesCfg dump h)).Sublist (removeDump true dump level hs).1 ∧ (removeDump true dump level hs).1.Sublist hs) ∧
    (hs.IsChain (fun x y => ¬ (WritesCfg dump x ∧ WritesCfg dump y)) →
      (∀ h ∈ hs, ∀ d, h.dir = some d → dump <+: d → WritesCfg dump h) →
      removeDump true dump level hs = (hs.filter fun h => decide (¬ WritesCfg dump h), .ok ())) := by
  have e1 : (removeDump true dump level hs).1 = sweep (inCfg true dump) hs := by
    have := removeLoop_eq (inCfg true dump) [] hs []
    exact this
  have e2 : (fun h => decide (¬ WritesCfg dump h)) = fun h => !inCfg true dump h := by
    funext h; rw [inCfg_eq]; simp
  refine ⟨?_, ?_⟩
  · rw [e1, e2]; exact (sweep_sub _ hs).symm
  · intro hc hf
    have e3 : sweep (inCfg true dump) hs = hs.filter fun h => decide (¬ WritesCfg dump h) := by
      rw [e2]
      refine sweep_filter _ hs (hc.imp ?_)
      intro x y hxy
      rw [inCfg_eq, inCfg_eq]
      simpa using hxy
    have e4 : (removeLoop (inCfg true dump) 0 hs []).1 = hs.filter fun h => decide (¬ WritesCfg dump h) := by
      rw [← e3, ← e1]; rfl
    unfold removeDump
    simp only [e4]
    rw [if_neg]
    intro hb
    rw [List.any_eq_true] at hb
    obtain ⟨x, hx, hb⟩ := hb
    obtain ⟨hx1, hx2⟩ := List.mem_filter.mp hx
    cases hd : x.dir with
    | none => simp [hd] at hb
    | some d =>
      simp only [hd, Bool.and_eq_true] at hb
      have := hf x hx1 d hd (List.isPrefixOf_iff_prefix.mp hb.1.1.1)
      simp [this] at hx2

example : [(⟨0, none, none, 21, .plain⟩ : Hand), ⟨1, none, some ["d", "cfg"], 10, .plain⟩, ⟨2, none, some ["e"], 10, .plain⟩].IsChain
    (fun x y => ¬ (WritesCfg ["d"] x ∧ WritesCfg ["d"] y)) := by
  simp [WritesCfg]

/-- C122: of two such handlers in succession, the second one is kept; writing the message about the removal then raises nothing only
because this handler was not closed: its file does not exist any more. -/
theorem C122_remove_two_fails (dump : List String) (level : Nat) (a b : Hand) (ha : WritesCfg dump a) (hb : WritesCfg dump b) :
    (removeDump true dump level [a, b]).1 = [b] ∧ ∃ h ∈ (removeDump true dump level [a, b]).1, WritesCfg dump h := by
  have := removeLoop_eq (inCfg true dump) [] [a, b] []
  suffices hh : (removeDump true dump level [a, b]).1 = [b] from ⟨hh, b, by rw [hh]; simp, hb⟩
  refine Eq.trans this ?_
  unfold sweep
  rw [if_pos (by rw [inCfg_eq]; simpa using ha)]
  rfl

/-- C122: a log-file elsewhere in the folder of the results (`start_log_to_file(dumppath / "x.log")`) makes the call fail after the
folder was removed (FileNotFoundError). -/
theorem C122_remove_file_fails (dump : List String) (h : Hand) (hd : h.dir = some dump) (hl : h.level ≤ 21) (cfg : Bool) :
    removeDump cfg dump 10 [h] = ([h], .error .osError) := by
  have hin : inCfg cfg dump h = false := by
    unfold inCfg
    rw [hd]
    have : dump ≠ dump ++ ["cfg"] := fun e => by
      have := congrArg List.length e
      simp at this
    simp [this]
  have e : removeLoop (inCfg cfg dump) 0 [h] [] = ([h], [h.id]) := by
    rw [removeLoop]
    simp only [List.getElem?_cons_zero, hin]
    rw [if_neg (by simp), removeLoop]
    rfl
  unfold removeDump
  simp only [e]
  rw [if_pos]
  simp [hd, hl]

example : ∃ h : Hand, h.dir = some ["results"] ∧ h.level ≤ 21 := ⟨⟨0, none, some ["results"], 10, .plain⟩, rfl, by simp⟩

end RT1.LogMsg
