import Verif.Model.Ids
import Verif.Lemmas.Dict
import Verif.Props.General

/-!
# ID normalisation (C44), numeric IDs (C48), selection of the missing IDs (C49)
-/

namespace RT1.Ids
open General

variable (u : Chars)

/-! ## C44 -/

/-- Specification: a valid python identifier that is not a keyword. -/
def IsIdentifier (s : Str) : Prop :=
  (∃ c cs, s = c :: cs ∧ u.start c = true ∧ ∀ x ∈ cs, u.cont x = true) ∧ s ∉ keywords

theorem isidentifier_iff (s : Str) : isidentifier u s = true ↔ IsIdentifier u s := by
  unfold isidentifier IsIdentifier
  cases s with
  | nil => simp [strIsIdentifier]
  | cons c cs =>
    simp only [strIsIdentifier, List.contains_iff_mem, List.cons.injEq]
    by_cases h1 : u.start c = true ∧ ∀ x ∈ cs, u.cont x = true
    · have : (u.start c && cs.all u.cont) = true := by simpa using h1
      rw [this]
      by_cases h2 : (c :: cs) ∈ keywords
      · simp [h2]
      · simp only [Bool.not_true, Bool.false_eq_true, if_false, h2, not_false_eq_true, and_true, true_iff]
        exact ⟨c, cs, ⟨rfl, rfl⟩, h1⟩
    · have : (u.start c && cs.all u.cont) = false := by
        rw [Bool.eq_false_iff]
        intro h
        apply h1
        simpa using h
      rw [this]
      simp only [Bool.not_false, if_true, Bool.false_eq_true, false_iff]
      rintro ⟨⟨c', cs', ⟨rfl, rfl⟩, h⟩, _⟩
      exact h1 h

open Classical in
/-- Specification: the normalised ID. -/
noncomputable def normalised (s : Str) : Str := if IsIdentifier u s then s else RT1_ ++ s

theorem fitsID_eq (v : Val) : fitsID u v = normalised u v.toStr := by
  unfold fitsID normalised
  by_cases h : IsIdentifier u v.toStr
  · rw [if_pos h, (isidentifier_iff u _).2 h]; rfl
  · have : isidentifier u v.toStr = false := by
      rw [Bool.eq_false_iff]; exact fun h' => h ((isidentifier_iff u _).1 h')
    rw [if_neg h, this]; rfl

/-- C44: the ID of a fit, the ID in the result database and the ID used to find existing results are the given ID if it is a
valid identifier and `RT1_` + ID otherwise. -/
theorem C44_normalise (v : Val) (a : Arg) (ha : a.get? keyID = some v) :
    fitsID u v = normalised u v.toStr ∧ hdfGetID u v = normalised u v.toStr ∧
      extractID u a = .ok (normalised u v.toStr) := by
  refine ⟨fitsID_eq u v, fitsID_eq u v, ?_⟩
  have h := fitsID_eq u v
  unfold fitsID at h
  unfold extractID featureID Dict.getItem
  rw [ha]
  exact congrArg Except.ok h

/-- `RT1_` + ID is a valid identifier exactly if all characters of the ID are allowed in identifiers. -/
theorem rt1_identifier (s : Str) : IsIdentifier u (RT1_ ++ s) ↔ ∀ c ∈ s, u.cont c = true := by
  constructor
  · rintro ⟨⟨c, cs, e, _, h⟩, _⟩ x hx
    simp only [RT1_, List.cons_append, List.nil_append, List.cons.injEq] at e
    apply h x
    rw [← e.2]; simp [hx]
  · intro h
    refine ⟨⟨'R', ['T', '1', '_'] ++ s, rfl, u.start_R, ?_⟩, ?_⟩
    · intro x hx
      simp only [List.mem_append, List.mem_cons, List.not_mem_nil, or_false] at hx
      rcases hx with (rfl | rfl | rfl) | hx
      · exact u.cont_T
      · exact u.cont_1
      · exact u.cont_us
      · exact h x hx
    · intro hm
      have : ∀ k ∈ keywords, k.head? ≠ some 'R' := by decide +kernel
      exact this _ hm rfl

theorem normalised_pos {s : Str} (h : IsIdentifier u s) : normalised u s = s := if_pos h

theorem normalised_neg {s : Str} (h : ¬ IsIdentifier u s) : normalised u s = RT1_ ++ s := if_neg h

/-- C44: normalising twice is the same as normalising once exactly if the ID is an identifier or consists of characters
allowed in identifiers (e.g. numbers, keywords). -/
theorem C44_idempotent_partial (s : Str) :
    normalised u (normalised u s) = normalised u s ↔ IsIdentifier u s ∨ ∀ c ∈ s, u.cont c = true := by
  by_cases h : IsIdentifier u s
  · simp [normalised_pos u h, h]
  · rw [normalised_neg u h]
    by_cases h2 : ∀ c ∈ s, u.cont c = true
    · rw [normalised_pos u ((rt1_identifier u s).2 h2)]
      exact ⟨fun _ => .inr h2, fun _ => rfl⟩
    · rw [normalised_neg u fun h' => h2 ((rt1_identifier u s).1 h')]
      simp only [h, h2, or_self, iff_false]
      intro e
      have := congrArg List.length e
      simp [RT1_] at this
      omega

/-- C44: a normalised ID is a valid identifier exactly in the same cases. -/
theorem C44_valid_partial (s : Str) : IsIdentifier u (normalised u s) ↔ IsIdentifier u s ∨ ∀ c ∈ s, u.cont c = true := by
  by_cases h : IsIdentifier u s
  · simp [normalised_pos u h, h]
  · rw [normalised_neg u h, rt1_identifier]
    simp [h]

/-- C44: the full statement fails: an ID with another character is prefixed again when a fit is loaded from the database
(the loaded fit has a different ID than the fit that was stored). -/
theorem C44_loaded_fails : loadedID u (.str "a-b".toList) = "RT1_RT1_a-b".toList ∧
    fitsID u (.str "a-b".toList) = "RT1_a-b".toList := by
  have h1 : ¬ IsIdentifier u "a-b".toList := by
    rintro ⟨⟨c, cs, e, _, h⟩, _⟩
    have e' : ['a', '-', 'b'] = c :: cs := e
    simp only [List.cons.injEq] at e'
    have := h '-' (by rw [← e'.2]; simp)
    rw [u.cont_minus] at this
    simp at this
  have h2 : ¬ IsIdentifier u (RT1_ ++ "a-b".toList) := by
    rw [rt1_identifier]
    intro h
    have := h '-' (by decide)
    rw [u.cont_minus] at this
    simp at this
  have e : fitsID u (.str "a-b".toList) = RT1_ ++ "a-b".toList := by
    rw [fitsID_eq, normalised, if_neg]; · rfl
    exact h1
  refine ⟨?_, e⟩
  have e2 : hdfGetID u (.str "a-b".toList) = RT1_ ++ "a-b".toList := e
  rw [loadedID, e2, fitsID_eq, normalised, if_neg]; · rfl
  exact h2

/-- C44: a loaded fit has the ID of the stored fit if all characters are allowed in identifiers. -/
theorem C44_loaded_partial (v : Val) (h : IsIdentifier u v.toStr ∨ ∀ c ∈ v.toStr, u.cont c = true) :
    loadedID u v = fitsID u v := by
  have e : hdfGetID u v = normalised u v.toStr := fitsID_eq u v
  rw [loadedID, fitsID_eq, fitsID_eq, e]
  exact (C44_idempotent_partial u _).2 h

/-- C44: two different IDs have the same normalised ID only if one of them is `RT1_` + the other one (a valid identifier
and not a valid identifier, respectively). -/
theorem C44_collision_iff (s t : Str) : normalised u s = normalised u t ↔
    s = t ∨ (s = RT1_ ++ t ∧ IsIdentifier u s ∧ ¬ IsIdentifier u t) ∨ (t = RT1_ ++ s ∧ IsIdentifier u t ∧ ¬ IsIdentifier u s) := by
  unfold normalised
  by_cases hs : IsIdentifier u s <;> by_cases ht : IsIdentifier u t
  · simp [hs, ht]
  · simp only [hs, ht, if_true, if_false, not_true, not_false_eq_true, and_true, and_false, or_false, true_and]
    constructor
    · intro h; exact .inr h
    · rintro (rfl | h)
      · exact absurd hs ht
      · exact h
  · simp only [hs, ht, if_true, if_false, not_true, not_false_eq_true, and_true, and_false, true_and, false_and, false_or]
    constructor
    · intro h; exact .inr h.symm
    · rintro (rfl | h)
      · exact absurd ht hs
      · exact h.symm
  · simp only [hs, ht, if_false, false_and, and_false, or_false, List.append_cancel_left_eq]

/-- C44: IDs that do not start with `RT1_` stay different. -/
theorem C44_distinct_partial (s t : Str) (hs : ¬ RT1_ <+: s) (ht : ¬ RT1_ <+: t) (h : normalised u s = normalised u t) :
    s = t := by
  rcases (C44_collision_iff u s t).1 h with h | ⟨h, _⟩ | ⟨h, _⟩
  · exact h
  · exact absurd ⟨t, h.symm⟩ hs
  · exact absurd ⟨s, h.symm⟩ ht

/-- C44: the full statement fails: the IDs `1` and `RT1_1` are the same after normalisation. -/
theorem C44_collision_fails : fitsID u (.int 1) = fitsID u (.str "RT1_1".toList) := by
  rw [fitsID_eq, fitsID_eq, C44_collision_iff]
  right; right
  have e : (Val.str "RT1_1".toList).toStr = RT1_ ++ (Val.int 1).toStr := rfl
  refine ⟨e, ?_, ?_⟩
  · rw [e, rt1_identifier]
    intro c hc
    have : c ∈ ['1'] := hc
    simp only [List.mem_singleton] at this
    rw [this]; exact u.cont_1
  · rintro ⟨⟨c, cs, e, h, _⟩, _⟩
    have e' : ['1'] = c :: cs := e
    simp only [List.cons.injEq] at e'
    rw [← e'.1, u.start_1] at h
    simp at h

theorem takeWhile_all {p : Char → Bool} {l : Str} (h : ∀ c ∈ l, p c = true) : l.takeWhile p = l := by
  induction l with
  | nil => rfl
  | cons c l ih =>
    rw [List.takeWhile_cons_of_pos (h c List.mem_cons_self), ih fun c hc => h c (List.mem_cons_of_mem _ hc)]

theorem stem_eq {s : Str} (h1 : '/' ∉ s) (h2 : '.' ∉ s) : stem s = s := by
  unfold stem
  have e1 : (s.reverse.takeWhile fun c => c ≠ '/') = s.reverse := by
    apply takeWhile_all
    intro c hc
    simp only [decide_eq_true_eq]
    rintro rfl
    exact h1 (List.mem_reverse.1 hc)
  rw [e1, List.reverse_reverse]
  apply takeWhile_all
  intro c hc
  simp only [decide_eq_true_eq]
  rintro rfl
  exact h2 hc

/-- C44: the default getter of `_check_IDs` and `mask_existing_HDF_IDs` agrees for IDs without `/` and `.`. -/
theorem C44_default_getter_partial (v : Val) (a : Arg) (ha : a.get? keyID = some v) (h1 : '/' ∉ v.toStr)
    (h2 : '.' ∉ v.toStr) : defaultGetID u a = extractID u a := by
  unfold defaultGetID extractID featureID Dict.getItem
  rw [ha]
  simp only [bind, Except.bind, stem_eq h1 h2]

/-- C44: the full statement fails for this getter: the ID `1.5` is found under `RT1_1` instead of `RT1_1.5`. -/
theorem C44_default_getter_fails : ∃ a : Arg, defaultGetID u a = .ok "RT1_1".toList ∧ extractID u a = .ok "RT1_1.5".toList := by
  refine ⟨[(keyID, .str "1.5".toList)], ?_, ?_⟩
  · have h : strIsIdentifier u ['1'] = false := by simp [strIsIdentifier, u.start_1]
    have e : stem "1.5".toList = ['1'] := by decide +kernel
    unfold defaultGetID Dict.getItem
    have hg : Dict.get? [(keyID, Val.str "1.5".toList)] keyID = some (.str "1.5".toList) := by decide +kernel
    rw [hg]
    simp only [bind, Except.bind, Val.toStr, e, isidentifier, h]
    rfl
  · have h : strIsIdentifier u ['1', '.', '5'] = false := by simp [strIsIdentifier, u.start_1]
    unfold extractID featureID Dict.getItem
    have hg : Dict.get? [(keyID, Val.str "1.5".toList)] keyID = some (.str ['1', '.', '5']) := by decide +kernel
    rw [hg]
    simp only [bind, Except.bind, Val.toStr, isidentifier, h]
    rfl

/-- The ASCII part of the identifier characters. -/
def ascii : Chars where
  start c := c.isAlpha || c == '_'
  cont c := c.isAlphanum || c == '_'
  start_cont c h := by
    simp only [Bool.or_eq_true] at h ⊢
    rcases h with h | h
    · left; simp [Char.isAlphanum, h]
    · exact .inr h
  start_R := by decide
  cont_T := by decide
  cont_1 := by decide
  cont_us := by decide
  start_1 := by decide
  start_a := by decide
  cont_minus := by decide

example : fitsID ascii (.int 42) = "RT1_42".toList ∧ fitsID ascii (.str "site_1".toList) = "site_1".toList ∧
    fitsID ascii (.str "class".toList) = "RT1_class".toList := by decide +kernel

/-! ## C48 -/

theorem findMissing_fresh (lst : List Int) (i : Nat) : findMissing lst i ∉ lst := by
  unfold findMissing
  split
  · rename_i h
    exact ((mem_missing lst _).1 (List.getElem_mem h)).2.2.2
  · intro hm
    have := maxID_ge lst _ hm
    omega

theorem findMissing_strictMono (lst : List Int) : StrictMono (findMissing lst) := by
  apply strictMono_nat_of_lt_succ
  intro i
  unfold findMissing
  by_cases h1 : i + 1 < (missingIDs lst).length
  · rw [dif_pos (by omega), dif_pos h1]
    exact List.pairwise_iff_getElem.1 (missing_sorted lst) _ _ _ _ (by omega)
  · by_cases h2 : i < (missingIDs lst).length
    · rw [dif_pos h2, dif_neg h1]
      have := ((mem_missing lst _).1 (List.getElem_mem h2)).2.2.1
      omega
    · rw [dif_neg h2, dif_neg h1]
      omega

theorem withNum_get (a : Arg) (n : Int) (k : Str) :
    (withNum a n).get? k = if k = keyNum then some (.int n) else a.get? k := Dict.get?_set a keyNum (.int n) k

/-- The general form of the result: the selected arguments with fresh numbers. -/
theorem checkIDs_form {getID : Arg → Except PyErr Str} {db : DB} {args sel : List Arg}
    (h : checkIDs u getID db args = .ok sel) :
    ∃ (chosen : List Arg) (f : Nat → Int), sel = chosen.zipIdx.map (fun p => withNum p.1 (f p.2)) ∧ chosen.Sublist args ∧
      StrictMono f ∧ (∀ i, f i ∉ db.content.map Prod.fst) ∧ (db = .noFile → chosen = args ∧ ∀ i, f i = i) := by
  cases db with
  | noFile =>
    refine ⟨args, fun i => (i : Int), (Except.ok.inj h).symm, List.Sublist.refl _, fun _ _ h => Int.ofNat_lt.2 h, ?_, ?_⟩
    · intro i; simp [DB.content]
    · intro _; exact ⟨rfl, fun _ => rfl⟩
  | noTable => simp [checkIDs] at h
  | rows r =>
    simp only [checkIDs] at h
    cases hm : args.mapM getID with
    | error e => rw [hm] at h; simp [bind, Except.bind] at h
    | ok ids =>
      rw [hm] at h
      simp only [bind, Except.bind] at h
      refine ⟨_, findMissing (r.map Prod.fst), (Except.ok.inj h).symm, ?_, findMissing_strictMono _, ?_, by simp⟩
      · have h2 := (mapM_ok_iff _ _ _).1 hm
        have hl : args.length = ids.length := h2.length_eq
        have : ((args.zip (ids.map fun i => decide (i ∈ r.map fun e => hdfGetID u e.2))).map Prod.fst) = args :=
          List.map_fst_zip (by simp [hl])
        conv => rhs; rw [← this]
        exact List.filter_sublist.map _
      · intro i; exact findMissing_fresh _ i

/-- C48: for all argument lists and all database contents the assigned numbers are pairwise distinct and distinct from all
numbers in the database; without database they are 0, 1, …. -/
theorem C48_numbers {getID : Arg → Except PyErr Str} {db : DB} {args sel : List Arg}
    (h : checkIDs u getID db args = .ok sel) :
    ∃ ns : List Int, sel.map (fun a => a.get? keyNum) = ns.map (fun n => some (.int n)) ∧ ns.Nodup ∧
      (∀ n ∈ ns, n ∉ db.content.map Prod.fst) ∧
      (db = .noFile → ns = (List.range args.length).map Int.ofNat) := by
  obtain ⟨chosen, f, rfl, _, hf, hfresh, hno⟩ := checkIDs_form u h
  refine ⟨(List.range chosen.length).map f, ?_, ?_, ?_, ?_⟩
  · have e : (List.range chosen.length).map (fun i => some (Val.int (f i))) =
        chosen.zipIdx.map (fun p => some (Val.int (f p.2))) := by
      rw [List.range_eq_range', ← List.zipIdx_map_snd 0 chosen, List.map_map] <;> rfl
    simp only [List.map_map]
    change _ = (List.range chosen.length).map (fun i => some (Val.int (f i)))
    rw [e]
    apply List.map_congr_left
    intro p _
    simp [withNum_get]
  · exact (List.nodup_range).map hf.injective
  · intro n hn
    obtain ⟨i, _, rfl⟩ := List.mem_map.1 hn
    exact hfresh i
  · intro hdb
    obtain ⟨rfl, hi⟩ := hno hdb
    apply List.map_congr_left
    intro i _
    exact hi i

example : checkIDs ascii (extractID ascii) (.rows [(0, .str "a".toList), (2, .int 7)])
    [[(keyID, .int 7)], [(keyID, .str "b".toList)], [(keyID, .str "c".toList)]] =
    .ok [[(keyID, .str "b".toList), (keyNum, .int 1)], [(keyID, .str "c".toList), (keyNum, .int 3)]] := by decide +kernel

/-! ## C49 -/

/-- Specification: the (normalised) ID of an argument. -/
def idOf (a : Arg) : Option Str := (a.get? keyID).map (hdfGetID u)

/-- Specification: the ID of the argument is listed in the database. -/
def Known (r : List Row) (a : Arg) : Prop := ∃ e ∈ r, idOf u a = some (hdfGetID u e.2)

theorem extractID_eq (a : Arg) : extractID u a = match idOf u a with | some i => .ok i | none => .error .keyError := by
  unfold extractID featureID Dict.getItem idOf
  cases a.get? keyID <;> rfl

open Classical in
theorem checkIDs_rows {r : List Row} {args sel : List Arg} (h : checkIDs u (extractID u) (.rows r) args = .ok sel) :
    sel = ((args.filter fun a => ¬ Known u r a).zipIdx.map fun p => withNum p.1 (findMissing (r.map Prod.fst) p.2)) ∧
      ∀ a ∈ args, (idOf u a).isSome := by
  simp only [checkIDs] at h
  cases hm : args.mapM (extractID u) with
  | error e => rw [hm] at h; simp [bind, Except.bind] at h
  | ok ids =>
    rw [hm] at h
    simp only [bind, Except.bind] at h
    have h2 := (mapM_ok_iff _ _ _).1 hm
    have hid : ∀ a i, extractID u a = .ok i → idOf u a = some i := by
      intro a i hi
      rw [extractID_eq] at hi
      cases hio : idOf u a with
      | none => rw [hio] at hi; simp at hi
      | some j => rw [hio] at hi; rw [Except.ok.inj hi]
    constructor
    · rw [← Except.ok.inj h]
      congr 1
      congr 1
      clear h hm
      induction h2 with
      | nil => rfl
      | @cons a i args ids h1 h2 ih =>
        have hk : Known u r a ↔ i ∈ r.map fun e => hdfGetID u e.2 := by
          unfold Known
          rw [hid a i h1, List.mem_map]
          constructor
          · rintro ⟨e, he, h⟩; exact ⟨e, he, (Option.some.inj h).symm⟩
          · rintro ⟨e, he, rfl⟩; exact ⟨e, he, rfl⟩
        simp only [List.map_cons, List.zip_cons_cons]
        by_cases hq : i ∈ r.map fun e => hdfGetID u e.2
        · rw [List.filter_cons_of_neg (by simp only [decide_eq_true hq]; simp),
            List.filter_cons_of_neg (by simp only [decide_eq_true_eq, not_not]; exact hk.2 hq)]
          exact ih
        · rw [List.filter_cons_of_pos (by simp only [decide_eq_false hq]; simp),
            List.filter_cons_of_pos (by simp only [decide_eq_true_eq]; exact fun h => hq (hk.1 h))]
          simp only [List.map_cons]
          rw [ih]
    · intro a ha
      have : ∀ {args : List Arg} {ids : List Str}, List.Forall₂ (fun a b => extractID u a = .ok b) args ids →
          ∀ a ∈ args, (idOf u a).isSome := by
        intro args ids h
        induction h with
        | nil => simp
        | cons h1 _ ih =>
          intro a ha
          rcases List.mem_cons.1 ha with rfl | ha
          · rw [hid _ _ h1]; rfl
          · exact ih a ha
      exact this h2 a ha

open Classical in
/-- C49: the selected arguments are exactly those whose ID is not yet in the database, in input order, with their original
content (apart from the added numeric ID). -/
theorem C49_selection {r : List Row} {args sel : List Arg} (h : checkIDs u (extractID u) (.rows r) args = .ok sel) :
    List.Forall₂ (fun a b => ∀ k, k ≠ keyNum → Dict.get? b k = Dict.get? a k) (args.filter fun a => ¬ Known u r a) sel := by
  obtain ⟨rfl, _⟩ := checkIDs_rows u h
  rw [List.forall₂_map_right_iff, List.forall₂_iff_zip]
  refine ⟨by simp, ?_⟩
  intro a p hap k hk
  have hz : ∀ (l : List Arg) n (a : Arg) (p : Arg × Nat), (a, p) ∈ l.zip (l.zipIdx n) → p.1 = a := by
    intro l
    induction l with
    | nil => simp
    | cons x l ih =>
      intro n a p hp
      simp only [List.zipIdx_cons, List.zip_cons_cons, List.mem_cons] at hp
      rcases hp with hp | hp
      · obtain ⟨rfl, rfl⟩ := Prod.mk.inj hp; rfl
      · exact ih _ a p hp
  rw [withNum_get, if_neg hk, hz _ _ _ _ hap]

/-- C49: without database everything is selected. -/
theorem C49_selection_all {args sel : List Arg} (h : checkIDs u (extractID u) .noFile args = .ok sel) :
    List.Forall₂ (fun a b => ∀ k, k ≠ keyNum → Dict.get? b k = Dict.get? a k) args sel := by
  obtain rfl := Except.ok.inj h
  rw [List.forall₂_map_right_iff, List.forall₂_iff_zip]
  refine ⟨by simp, ?_⟩
  intro a p hap k hk
  have hz : ∀ (l : List Arg) n (a : Arg) (p : Arg × Nat), (a, p) ∈ l.zip (l.zipIdx n) → p.1 = a := by
    intro l
    induction l with
    | nil => simp
    | cons x l ih =>
      intro n a p hp
      simp only [List.zipIdx_cons, List.zip_cons_cons, List.mem_cons] at hp
      rcases hp with hp | hp
      · obtain ⟨rfl, rfl⟩ := Prod.mk.inj hp; rfl
      · exact ih _ a p hp
  rw [withNum_get, if_neg hk, hz _ _ _ _ hap]

/-- C49: the selection fails exactly if the database has no table `reader_arg`, or an argument has no ID. -/
theorem C49_error (db : DB) (args : List Arg) : (∃ e, checkIDs u (extractID u) db args = .error e) ↔
    db = .noTable ∨ (∃ r, db = .rows r) ∧ ∃ a ∈ args, a.get? keyID = none := by
  cases db with
  | noFile => simp [checkIDs]
  | noTable => simp [checkIDs]
  | rows r =>
    simp only [reduceCtorEq, false_or, DB.rows.injEq, exists_eq', true_and]
    constructor
    · rintro ⟨e, he⟩
      by_contra hall
      push Not at hall
      have hok : ∃ ids, args.mapM (extractID u) = .ok ids := by
        rw [mapM_isOk_iff]
        intro a ha
        obtain ⟨v, hv⟩ := Option.ne_none_iff_exists'.1 (hall a ha)
        rw [extractID_eq, idOf, hv]
        exact ⟨_, rfl⟩
      obtain ⟨ids, hids⟩ := hok
      simp [checkIDs, hids, bind, Except.bind] at he
    · rintro ⟨a, ha, hn⟩
      cases hc : checkIDs u (extractID u) (.rows r) args with
      | error e => exact ⟨e, rfl⟩
      | ok sel =>
        have := (checkIDs_rows u hc).2 a ha
        rw [idOf, hn] at this
        simp at this

/-- Specification: the argument can be stored in a table (no sequences of a length other than 1). -/
def Tabular (a : Arg) : Prop := ∀ e ∈ a, ∀ l s, e.2 = Val.seq l s → l = 1

theorem mem_set {a : Arg} {k : Str} {v : Val} {e : Str × Val} (h : e ∈ Dict.set a k v) : e = (k, v) ∨ e ∈ a := by
  induction a with
  | nil => simp [Dict.set] at h; exact .inl h
  | cons x a ih =>
    simp only [Dict.set] at h
    split_ifs at h
    · rcases List.mem_cons.1 h with h | h
      · exact .inl h
      · exact .inr (List.mem_cons_of_mem _ h)
    · rcases List.mem_cons.1 h with h | h
      · exact .inr (by rw [h]; exact List.mem_cons_self)
      · rcases ih h with h | h
        · exact .inl h
        · exact .inr (List.mem_cons_of_mem _ h)

theorem rowOf_withNum {a : Arg} (ht : Tabular a) (n : Int) : rowOf (withNum a n) = (a.get? keyID).map fun v => (n, v) := by
  unfold rowOf
  rw [withNum_get, withNum_get, if_pos rfl, if_neg (by decide)]
  cases a.get? keyID with
  | none => rfl
  | some v =>
    simp only [Option.map_some]
    rw [if_neg]
    intro hany
    obtain ⟨e, he, h⟩ := List.any_eq_true.1 hany
    rcases mem_set he with rfl | he
    · simp at h
    · cases hv : e.2 with
      | seq l s => rw [hv] at h; have := ht e he l s hv; simp [this] at h
      | str _ => rw [hv] at h; simp at h
      | int _ => rw [hv] at h; simp at h
      | other _ => rw [hv] at h; simp at h

/-- The rows of the selected arguments. -/
theorem rows_selected {chosen : List Arg} (ht : ∀ a ∈ chosen, Tabular a) (f : Nat → Int) (n : Nat) :
    ((chosen.zipIdx n).map fun p => withNum p.1 (f p.2)).filterMap rowOf =
      (chosen.zipIdx n).filterMap fun p => (p.1.get? keyID).map fun v => (f p.2, v) := by
  rw [List.filterMap_map]
  apply List.filterMap_congr
  intro p hp
  have : p.1 ∈ chosen := by
    have := List.mem_map_of_mem (f := Prod.fst) hp
    rwa [List.zipIdx_map_fst] at this
  exact rowOf_withNum (ht p.1 this) (f p.2)

theorem rows_ids (chosen : List Arg) (f : Nat → Int) (n : Nat) :
    (((chosen.zipIdx n).filterMap fun p => (p.1.get? keyID).map fun v => (f p.2, v)).map fun e => hdfGetID u e.2) =
      chosen.filterMap (idOf u) := by
  induction chosen generalizing n with
  | nil => rfl
  | cons a l ih =>
    simp only [List.zipIdx_cons, List.filterMap_cons, idOf]
    cases a.get? keyID with
    | none => simpa [idOf] using ih (n + 1)
    | some v => simpa [idOf] using ih (n + 1)

theorem rows_nums (chosen : List Arg) (f : Nat → Int) (n : Nat) :
    (((chosen.zipIdx n).filterMap fun p => (p.1.get? keyID).map fun v => (f p.2, v)).map Prod.fst).Sublist
      ((List.range' n chosen.length).map f) := by
  induction chosen generalizing n with
  | nil => simp
  | cons a l ih =>
    simp only [List.zipIdx_cons, List.filterMap_cons, List.length_cons, List.range'_succ, List.map_cons]
    cases a.get? keyID with
    | none => exact (ih (n + 1)).cons _
    | some v => simpa using (ih (n + 1)).cons_cons (f n)

/-- C49, for argument lists without duplicated IDs: whatever the history of (interrupted) runs was, no ID and no number is
stored twice. -/
theorem C49_history_partial {h : List (List Arg)} {db : DB} (hh : History u h db)
    (hargs : ∀ args ∈ h, (args.filterMap (idOf u)).Nodup ∧ ∀ a ∈ args, Tabular a) :
    (db.content.map fun e => hdfGetID u e.2).Nodup ∧ (db.content.map Prod.fst).Nodup := by
  induction hh with
  | start => simp [DB.content]
  | @run h args db db' _ hr ih =>
    obtain ⟨i1, i2⟩ := ih fun args ha => hargs args (List.mem_cons_of_mem _ ha)
    obtain ⟨hn, ht⟩ := hargs args List.mem_cons_self
    obtain ⟨sel, stored, done, hsel, hsub, hperm, hdb, _⟩ := hr
    obtain ⟨chosen, f, rfl, hch, hf, hfresh, _⟩ := checkIDs_form u hsel
    rw [rows_selected (fun a ha => ht a (hch.subset ha))] at hsub
    -- IDs and numbers of the new rows
    have hids : (done.map fun e => hdfGetID u e.2).Nodup := by
      rw [(hperm.map _).nodup_iff]
      refine (hsub.map _).nodup ?_
      rw [rows_ids]
      exact (hch.filterMap _).nodup hn
    have hnums : (done.map Prod.fst).Nodup := by
      rw [(hperm.map _).nodup_iff]
      refine ((hsub.map _).trans (rows_nums chosen f 0)).nodup ?_
      exact (List.nodup_range').map hf.injective
    have hfreshn : ∀ x ∈ db.content.map Prod.fst, ∀ y ∈ done.map Prod.fst, x ≠ y := by
      rintro x hx y hy rfl
      have : x ∈ (List.range' 0 chosen.length).map f :=
        ((hsub.map Prod.fst).trans (rows_nums chosen f 0)).subset ((hperm.map Prod.fst).mem_iff.1 hy)
      obtain ⟨i, _, rfl⟩ := List.mem_map.1 this
      exact hfresh i hx
    have hfreshi : ∀ x ∈ db.content.map (fun e => hdfGetID u e.2), ∀ y ∈ done.map (fun e => hdfGetID u e.2), x ≠ y := by
      rintro x hx y hy rfl
      have hm : x ∈ chosen.filterMap (idOf u) := by
        rw [← rows_ids u chosen f 0]
        exact (hsub.map _).subset ((hperm.map _).mem_iff.1 hy)
      obtain ⟨a, ha, hid⟩ := List.mem_filterMap.1 hm
      cases hd : db with
      | noFile => rw [hd] at hx; simp [DB.content] at hx
      | noTable => rw [hd] at hx; simp [DB.content] at hx
      | rows r =>
        rw [hd] at hx hsel
        obtain ⟨hs, _⟩ := checkIDs_rows u hsel
        -- the chosen arguments are not known
        have hlen : chosen.zipIdx.length = _ := rfl
        obtain ⟨e, he, rfl⟩ := List.mem_map.1 hx
        have hz : a ∈ chosen := ha
        obtain ⟨i, hi, hia⟩ := List.getElem_of_mem ha
        have e1 : (chosen.zipIdx.map fun p => withNum p.1 (f p.2))[i]? = some (withNum a (f i)) := by
          rw [List.getElem?_map, List.getElem?_zipIdx, List.getElem?_eq_getElem hi, hia]; simp
        rw [hs, List.getElem?_map, List.getElem?_zipIdx] at e1
        classical
        cases hb : (args.filter fun a => ¬ Known u r a)[i]? with
        | none => rw [hb] at e1; simp at e1
        | some b =>
          rw [hb] at e1
          simp only [Option.map_some, Option.some.injEq] at e1
          have hbm := List.mem_of_getElem? hb
          have hnk : ¬ Known u r b := by simpa using (List.mem_filter.1 hbm).2
          apply hnk
          refine ⟨e, he, ?_⟩
          have hg := congrArg (fun a : Arg => Dict.get? a keyID) e1
          simp only [withNum_get] at hg
          rw [if_neg (by decide), if_neg (by decide)] at hg
          unfold idOf at hid ⊢
          rw [hg]; exact hid
    rw [hdb, List.map_append, List.map_append, List.nodup_append, List.nodup_append]
    exact ⟨⟨i1, hids, hfreshi⟩, i2, hnums, hfreshn⟩

/-- C49: if everything that was selected has been stored, a further run with the same arguments selects nothing. -/
theorem C49_complete {args sel : List Arg} {db : DB} {r' done : List Row} (ht : ∀ a ∈ args, Tabular a)
    (hid : ∀ a ∈ args, (a.get? keyID).isSome) (hsel : checkIDs u (extractID u) db args = .ok sel)
    (hdone : done.Perm (sel.filterMap rowOf)) (hr : r' = db.content ++ done) :
    checkIDs u (extractID u) (.rows r') args = .ok [] := by
  cases hc : checkIDs u (extractID u) (.rows r') args with
  | error e =>
    rcases (C49_error u (.rows r') args).1 ⟨e, hc⟩ with h | ⟨_, a, ha, h⟩
    · simp at h
    · have := hid a ha; rw [h] at this; simp at this
  | ok sel' =>
    obtain ⟨rfl, _⟩ := checkIDs_rows u hc
    classical
    have hall : ∀ a ∈ args, Known u r' a := by
      intro a ha
      obtain ⟨v, hv⟩ := Option.isSome_iff_exists.1 (hid a ha)
      have hnew : ∀ (chosen : List Arg) (f : Nat → Int), sel = chosen.zipIdx.map (fun p => withNum p.1 (f p.2)) →
          chosen.Sublist args → a ∈ chosen → Known u r' a := by
        intro chosen f hs hch hac
        have hm : hdfGetID u v ∈ (sel.filterMap rowOf).map fun e => hdfGetID u e.2 := by
          rw [hs, rows_selected fun a ha => ht a (hch.subset ha), rows_ids]
          exact List.mem_filterMap.2 ⟨a, hac, by rw [idOf, hv]; rfl⟩
        obtain ⟨e, he, hee⟩ := List.mem_map.1 hm
        refine ⟨e, by rw [hr]; exact List.mem_append_right _ (hdone.mem_iff.2 he), ?_⟩
        rw [idOf, hv, hee]; rfl
      cases hd : db with
      | noTable => rw [hd] at hsel; simp [checkIDs] at hsel
      | noFile =>
        rw [hd] at hsel
        exact hnew args (fun i => (i : Int)) (Except.ok.inj hsel).symm (List.Sublist.refl _) ha
      | rows r =>
        rw [hd] at hsel hr
        by_cases hk : Known u r a
        · obtain ⟨e, he, h⟩ := hk
          exact ⟨e, by rw [hr]; exact List.mem_append_left _ he, h⟩
        · obtain ⟨hs, _⟩ := checkIDs_rows u hsel
          exact hnew _ _ hs List.filter_sublist (List.mem_filter.2 ⟨ha, by simpa using hk⟩)
    have : (args.filter fun a => ¬ Known u r' a) = [] := by
      rw [List.filter_eq_nil_iff]
      intro a ha
      simpa using hall a ha
    rw [this]; rfl

/-- C49: the full statement fails: an ID that occurs twice in the arguments is processed and stored twice. -/
theorem C49_duplicates_fails : ∃ args db, History ascii [args] db ∧
    ¬ (db.content.map fun e => hdfGetID ascii e.2).Nodup := by
  refine ⟨[[(keyID, .int 1)], [(keyID, .int 1)]], .rows [(0, .int 1), (1, .int 1)],
    .run .start ⟨_, _, _, rfl, List.Sublist.refl _, List.Perm.refl _, by decide +kernel, by simp⟩, by decide +kernel⟩

/-- C49: the full statement fails: if a reader-argument contains a list, the number is stored instead of the ID, so the
argument is selected again by every further run. -/
theorem C49_sequence_fails : ∃ (args : List Arg) (sel : List Arg) (done : List Row),
    checkIDs ascii (extractID ascii) .noFile args = .ok sel ∧ done = sel.filterMap rowOf ∧ sel ≠ [] ∧
    (done.map fun e => hdfGetID ascii e.2) = ["RT1_0".toList] ∧
    ∃ sel', checkIDs ascii (extractID ascii) (.rows done) args = .ok sel' ∧ sel'.length = sel.length :=
  ⟨[[(keyID, .str "site".toList), ("bands".toList, .seq 2 "[1, 2]".toList)]], _, _, rfl, rfl, by decide +kernel,
    by decide +kernel, _, rfl, by decide +kernel⟩

/-- C49: three interrupted runs: an arbitrary subset is stored each time. -/
example : History ascii [[[(keyID, .int 1)], [(keyID, .int 2)], [(keyID, .int 3)]], [[(keyID, .int 1)], [(keyID, .int 2)]]]
    (.rows [(1, .int 2), (2, .int 3), (0, .int 1)]) := by
  refine .run (db := .rows [(1, .int 2)]) (.run .start ⟨_, [(1, .int 2)], [(1, .int 2)], rfl, by decide +kernel,
    List.Perm.refl _, by decide +kernel, by simp⟩) ⟨_, [(0, .int 1), (2, .int 3)], [(2, .int 3), (0, .int 1)], rfl,
      by decide +kernel, by decide +kernel, by decide +kernel, by simp⟩

end RT1.Ids
