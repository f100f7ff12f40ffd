import Verif.Model.ResultPlots
import Verif.Props.Intermediate

/-!
# Properties of `plot.results` and `plot.single_results` (C126)
-/

namespace RT1.ResultPlots
open General Grouping Plots

variable {ι κ : Type} [DecidableEq ι] [DecidableEq κ]

/-- Specification: the observations with a given fit-group, in the order of the dataset. -/
def obs (gi : List κ) (k : κ) : List Nat := (List.range gi.length).filter fun i => decide (gi[i]? = some k)

/-! ## helpers -/

theorem mapM_ok_of {α β : Type} (f : α → Except PyErr β) (g : α → β) (l : List α) (h : ∀ a ∈ l, f a = .ok (g a)) : l.mapM f = .ok (l.map g) := by
  induction l with
  | nil => rfl
  | cons a l ih =>
    rw [List.mapM_cons, h a (List.mem_cons_self ..), ih fun b hb => h b (List.mem_cons_of_mem _ hb)]
    rfl

theorem mapM_err_of {α β : Type} (f : α → Except PyErr β) (e : PyErr) (l : List α) (h : ∀ a ∈ l, (∃ b, f a = .ok b) ∨ f a = .error e)
    (hx : ∃ a ∈ l, f a = .error e) : l.mapM f = .error e := by
  induction l with
  | nil =>
    obtain ⟨a, ha, -⟩ := hx
    cases ha
  | cons a l ih =>
    rw [List.mapM_cons]
    rcases h a (List.mem_cons_self ..) with ⟨b, hb⟩ | hb
    · rw [hb]
      have : l.mapM f = .error e := by
        refine ih (fun c hc => h c (List.mem_cons_of_mem _ hc)) ?_
        obtain ⟨c, hc, he⟩ := hx
        rcases List.mem_cons.1 hc with rfl | hc
        · rw [hb] at he
          cases he
        · exact ⟨c, hc, he⟩
      rw [this]
      rfl
    · rw [hb]
      rfl

theorem ok_bind {α β : Type} (a : α) (f : α → Except PyErr β) : (Except.ok a >>= f) = f a := rfl

theorem row_some {α : Type} (A : List α) (i : Nat) (r : α) (h : A[i]? = some r) : row A i = .ok r := by
  unfold row
  rw [h]

theorem row_none {α : Type} (A : List α) (i : Nat) (h : A.length ≤ i) : row A i = .error .indexError := by
  unfold row
  rw [List.getElem?_eq_none h]

theorem groupPos_obs (gi : List κ) : groupPos gi = (firsts gi).map (obs gi) := groupPos_filter gi

/-- The rows of the arrays of positions. -/
theorem rows_spec (gi : List κ) (I : List (List Nat)) (M : List (List Bool)) (h : rectangularize (groupPos gi) = .ok (I, M)) :
    I.length = (firsts gi).length ∧ M.length = (firsts gi).length ∧
    ∀ (m : Nat) (k : κ), (firsts gi)[m]? = some k → ∃ a b, I[m]? = some a ∧ M[m]? = some b ∧ a.length = b.length ∧
      unmaskRow a b = obs gi k ∧ ∀ i, i ∈ a ↔ i ∈ obs gi k := by
  obtain ⟨W, -, -, hl1, hl2, hrow⟩ := C20_rectangularize _ I M h
  have hl : (groupPos gi).length = (firsts gi).length := by rw [groupPos_obs, List.length_map]
  refine ⟨by omega, by omega, fun m k hk => ?_⟩
  have hm : m < (firsts gi).length := (List.getElem?_eq_some_iff.1 hk).1
  have hp : (groupPos gi)[m]? = some (obs gi k) := by rw [groupPos_obs, List.getElem?_map, hk]; rfl
  have hI : I[m]? = some (I[m]'(by omega)) := List.getElem?_eq_getElem _
  have hM : M[m]? = some (M[m]'(by omega)) := List.getElem?_eq_getElem _
  obtain ⟨a1, a2, a3, a4, a5⟩ := hrow m _ _ _ hp hI hM
  refine ⟨_, _, hI, hM, by omega, a3, fun i => ⟨fun hi => ?_, fun hi => ?_⟩⟩
  · obtain ⟨c, hc, rfl⟩ := List.getElem_of_mem hi
    by_cases hm' : (M[m]'(by omega))[c]? = some true
    · have := a5 c hm'
      rw [List.getElem?_eq_getElem hc] at this
      exact List.mem_of_getLast? this.symm
    · rw [← a3]
      refine List.mem_map.2 ⟨((I[m]'(by omega))[c], (M[m]'(by omega))[c]'(by omega)), ?_, rfl⟩
      rw [List.mem_filter]
      refine ⟨?_, ?_⟩
      · rw [List.mem_iff_getElem]
        exact ⟨c, by rw [List.length_zip]; omega, by rw [List.getElem_zip]⟩
      · rw [List.getElem?_eq_getElem (by omega)] at hm'
        simpa using hm'
  · rw [← a3, List.mem_map] at hi
    obtain ⟨p, hp, rfl⟩ := hi
    exact (List.of_mem_zip (List.mem_filter.1 hp).1).1

theorem unmaskRow_map {α β : Type} (f : α → β) (r : List α) (m : List Bool) : unmaskRow (r.map f) m = (unmaskRow r m).map f := by
  induction r generalizing m with
  | nil => rfl
  | cons a r ih =>
    cases m with
    | nil => rfl
    | cons b m =>
      have := ih m
      unfold unmaskRow at this ⊢
      cases b <;> simpa using this

theorem points_row {α : Type} (f g : Nat → α) (a : List Nat) (b : List Bool) :
    ((a.map f).zip (List.zipWith (fun v m => if m then none else some v) (a.map g) b)).filterMap (fun p => p.2.map fun v => (p.1, v)) =
      (unmaskRow a b).map fun i => (f i, g i) := by
  induction a generalizing b with
  | nil => rfl
  | cons i a ih =>
    cases b with
    | nil => rfl
    | cons c b =>
      have := ih b
      unfold unmaskRow at this ⊢
      cases c <;> simpa using this

/-! ## results -/

/-- Specification: a line shows the modelled values of the observations of a fit-group, the points are the measurements. -/
def ShowsLine (l : Line) (gi : List κ) (k : κ) (inc sig model : List ℝ) : Prop :=
  (∀ p, p ∈ l.x.zip l.y ↔ ∃ i ∈ obs gi k, p = (inc.getD i default, model.getD i default)) ∧
  (l.x.zip l.points).filterMap (fun p => p.2.map fun v => (p.1, v)) = (obs gi k).map fun i => (inc.getD i default, sig.getD i default)

/-- Specification: a line that shows the modelled values of the observations of a fit-group. -/
def ShowsStart (l : List ℝ × List ℝ) (gi : List κ) (k : κ) (inc model : List ℝ) : Prop :=
  ∀ p, p ∈ l.1.zip l.2 ↔ ∃ i ∈ obs gi k, p = (inc.getD i default, model.getD i default)

theorem zip_row (a : List Nat) (gi : List κ) (k : κ) (ha : ∀ i, i ∈ a ↔ i ∈ obs gi k) (x y : List ℝ) (p : ℝ × ℝ) :
    p ∈ (a.map fun i => x.getD i default).zip (a.map fun i => y.getD i default) ↔ ∃ i ∈ obs gi k, p = (x.getD i default, y.getD i default) := by
  rw [List.zip_map', List.mem_map]
  constructor
  · rintro ⟨i, hi, rfl⟩
    exact ⟨i, (ha i).1 hi, rfl⟩
  · rintro ⟨i, hi, rfl⟩
    exact ⟨i, (ha i).2 hi, rfl⟩

/-- Everything `results` computes, in terms of the positions of the observations. -/
theorem line_spec (gi : List κ) (I : List (List Nat)) (M : List (List Bool)) (h : rectangularize (groupPos gi) = .ok (I, M))
    (inc sig model : List ℝ) (s : List Nat) (i : Nat) :
    (i < (firsts gi).length ∧ i < s.length → ∃ l k, line (I.map (List.map fun i => inc.getD i default)) (I.map (List.map fun i => model.getD i default))
      (masked (I.map (List.map fun i => sig.getD i default)) M) s i = .ok l ∧ (firsts gi)[i]? = some k ∧ s[i]? = some l.label ∧
      ShowsLine l gi k inc sig model) ∧
    (¬ (i < (firsts gi).length ∧ i < s.length) → line (I.map (List.map fun i => inc.getD i default)) (I.map (List.map fun i => model.getD i default))
      (masked (I.map (List.map fun i => sig.getD i default)) M) s i = .error .indexError) := by
  obtain ⟨hI, hM, hrow⟩ := rows_spec gi I M h
  constructor
  · rintro ⟨h1, h2⟩
    obtain ⟨a, b, ha, hb, hl, hu, hmem⟩ := hrow i _ (List.getElem?_eq_getElem h1)
    refine ⟨⟨a.map fun i => inc.getD i default, a.map fun i => model.getD i default,
      List.zipWith (fun v m => if m then none else some v) (a.map fun i => sig.getD i default) b, s[i]⟩, (firsts gi)[i], ?_,
      List.getElem?_eq_getElem h1, List.getElem?_eq_getElem h2, ?_⟩
    · unfold line
      rw [row_some _ i _ (by rw [List.getElem?_map, ha]; rfl), row_some _ i _ (by rw [List.getElem?_map, ha]; rfl),
        row_some s i _ (List.getElem?_eq_getElem h2),
        row_some (masked _ M) i (List.zipWith (fun v m => if m then none else some v) (a.map fun i => sig.getD i default) b) (by
          unfold masked map2
          rw [List.getElem?_zipWith, List.getElem?_map, ha, hb]
          rfl)]
      rfl
    · refine ⟨zip_row a gi _ hmem inc model, ?_⟩
      dsimp only
      rw [points_row, hu]
  · intro hn
    unfold line
    by_cases h1 : i < (firsts gi).length
    · have h2 : s.length ≤ i := by omega
      rw [row_some _ i _ (List.getElem?_eq_getElem (by rw [List.length_map]; omega)), row_some _ i _ (List.getElem?_eq_getElem (by rw [List.length_map]; omega)),
        row_none s i h2]
      rfl
    · rw [row_none _ i (by rw [List.length_map]; omega)]
      rfl

theorem startLines_spec (gi : List κ) (I : List (List Nat)) (M : List (List Bool)) (h : rectangularize (groupPos gi) = .ok (I, M))
    (inc start : List ℝ) (s : List Nat) (hs : ∀ i ∈ s, i < (firsts gi).length) :
    ∃ r, startLines (I.map (List.map fun i => inc.getD i default)) (I.map (List.map fun i => start.getD i default)) s = .ok r ∧ r.length = s.length ∧
      ∀ (j i : Nat), s[j]? = some i → ∃ l k, r[j]? = some l ∧ (firsts gi)[i]? = some k ∧ ShowsStart l gi k inc start := by
  obtain ⟨hI, hM, hrow⟩ := rows_spec gi I M h
  have hr : ∀ (col : List ℝ) (i : Nat), i < (firsts gi).length → row (I.map (List.map fun i => col.getD i default)) i =
      .ok ((I.getD i []).map fun i => col.getD i default) := by
    intro col i hi
    apply row_some
    rw [List.getElem?_map, List.getD_eq_getElem?_getD, List.getElem?_eq_getElem (by omega)]
    rfl
  refine ⟨(s.map fun i => (I.getD i []).map fun i => inc.getD i default).zip (s.map fun i => (I.getD i []).map fun i => start.getD i default), ?_, ?_, ?_⟩
  · unfold startLines
    rw [mapM_ok_of _ (fun i => (I.getD i []).map fun i => start.getD i default) s fun i hi => hr start i (hs i hi)]
    rw [ok_bind, mapM_ok_of _ (fun j => (I.getD (s.getD j 0) []).map fun i => inc.getD i default)]
    · show Except.ok _ = _
      congr 2
      rw [List.length_map]
      have := range_getD s s.length rfl
      conv_rhs => rw [← this, List.map_map]
      rfl
    · intro j hj
      rw [List.mem_range, List.length_map] at hj
      have hj' : s[j]? = some s[j] := List.getElem?_eq_getElem hj
      rw [row_some s j _ hj']
      show row _ s[j] = _
      rw [hr inc _ (hs _ (List.getElem_mem hj)), List.getD_eq_getElem?_getD (l := s), hj']
      rfl
  · simp
  · intro j i hj
    have hi := hs i (List.mem_of_getElem? hj)
    obtain ⟨a, b, ha, hb, hl, hu, hmem⟩ := hrow i _ (List.getElem?_eq_getElem hi)
    refine ⟨((I.getD i []).map fun i => inc.getD i default, (I.getD i []).map fun i => start.getD i default), _, ?_, List.getElem?_eq_getElem hi, ?_⟩
    · rw [List.zip_map', List.getElem?_map, hj]
      rfl
    · intro p
      dsimp only
      rw [List.getD_eq_getElem?_getD, ha]
      exact zip_row a gi _ hmem inc start p

/-- A selection is accepted if its numbers are numbers of fit-groups that are smaller than the length of the selection. -/
def Accepted (n : Nat) (s : List Nat) : Prop := ∀ i ∈ s, i < n ∧ i < s.length

theorem results_eq (sel : Option (List Nat)) (legend : Bool) (start : Option (List ℝ)) (gi : List κ) (index : List ι) (inc sig model : List ℝ)
    (I : List (List Nat)) (M : List (List Bool)) (h : rectangularize (groupPos gi) = .ok (I, M)) (h1 : inc.length = gi.length)
    (h2 : sig.length = gi.length) (h3 : model.length = gi.length) :
    results sel legend start gi index inc sig model = (do
      let lines ← (selection (firsts gi).length sel).mapM (line (I.map (List.map fun i => inc.getD i default))
        (I.map (List.map fun i => model.getD i default)) (masked (I.map (List.map fun i => sig.getD i default)) M) (selection (firsts gi).length sel))
      let st ← startPart gi (I.map (List.map fun i => inc.getD i default)) (selection (firsts gi).length sel) start
      let b ← boxes (firsts gi).length (fitIndex gi index) (selection (firsts gi).length sel)
      return ⟨lines, st, legend && decide ((selection (firsts gi).length sel).length ≤ 20), b⟩) := by
  unfold results
  rw [getData_spec gi I M h sig h2, getData_spec gi I M h inc h1, getData_spec gi I M h model h3]
  have : (I.map (List.map fun i => sig.getD i default)).length = (firsts gi).length := by
    rw [List.length_map, (rows_spec gi I M h).1]
  simp only [ok_bind]
  rw [this]

/-- Each number of an accepted selection has a line with the modelled values and the measurements of its fit-group, and a line with
the results of the start-values; the label is the element of the selection at this number. -/
theorem results_core (sel : Option (List Nat)) (legend : Bool) (start : Option (List ℝ)) (gi : List κ) (hne : gi ≠ []) (u : List κ) (hu : IsEnum gi u)
    (index : List ι) (inc sig model : List ℝ) (h0 : index.length = gi.length) (h1 : inc.length = gi.length) (h2 : sig.length = gi.length)
    (h3 : model.length = gi.length) (h4 : ∀ v, start = some v → v.length = gi.length) (s : List Nat)
    (hs : s = (match sel with | none => List.range u.length | some s => s)) (hacc : Accepted u.length s) :
    ∃ fig, results sel legend start gi index inc sig model = .ok fig ∧ fig.lines.length = s.length ∧
      (∀ (j i : Nat), s[j]? = some i → ∃ l k, fig.lines[j]? = some l ∧ u[i]? = some k ∧ s[i]? = some l.label ∧ ShowsLine l gi k inc sig model) ∧
      (start = none → fig.start = []) ∧
      (∀ v, start = some v → fig.start.length = s.length ∧
        ∀ (j i : Nat), s[j]? = some i → ∃ l k, fig.start[j]? = some l ∧ u[i]? = some k ∧ ShowsStart l gi k inc v) ∧
      (fig.legend = true ↔ legend = true ∧ s.length ≤ 20) ∧
      (s.length < u.length → fig.boxes.map Prod.snd = s) ∧ (u.length ≤ s.length → fig.boxes = []) ∧
      boxes u.length (fitIndex gi index) s = .ok fig.boxes := by
  have hu' := isEnum_unique gi u hu
  subst hu'
  have hsel : selection (firsts gi).length sel = s := by cases sel <;> exact hs.symm
  obtain ⟨I, M, -, hI, -, -⟩ := idxAssigns_spec gi hne
  rw [results_eq sel legend start gi index inc sig model I M hI h1 h2 h3, hsel]
  have hline := line_spec gi I M hI inc sig model s
  obtain ⟨g, hg⟩ : ∃ g : Nat → Line, ∀ i ∈ s, line (I.map (List.map fun i => inc.getD i default)) (I.map (List.map fun i => model.getD i default))
      (masked (I.map (List.map fun i => sig.getD i default)) M) s i = .ok (g i) ∧ s[i]? = some (g i).label ∧
      ∃ k, (firsts gi)[i]? = some k ∧ ShowsLine (g i) gi k inc sig model := by
    have : ∀ i, ∃ l : Line, i ∈ s → line (I.map (List.map fun i => inc.getD i default)) (I.map (List.map fun i => model.getD i default))
      (masked (I.map (List.map fun i => sig.getD i default)) M) s i = .ok l ∧ s[i]? = some l.label ∧
      ∃ k, (firsts gi)[i]? = some k ∧ ShowsLine l gi k inc sig model := by
      intro i
      by_cases hi : i ∈ s
      · obtain ⟨l, k, e1, e2, e3, e4⟩ := (hline i).1 (hacc i hi)
        exact ⟨l, fun _ => ⟨e1, e3, k, e2, e4⟩⟩
      · exact ⟨⟨[], [], [], 0⟩, fun h => absurd h hi⟩
    choose g hg using this
    exact ⟨g, hg⟩
  rw [mapM_ok_of _ g s fun i hi => (hg i hi).1]
  obtain ⟨st, hst, hst0, hst1⟩ : ∃ st, startPart gi (I.map (List.map fun i => inc.getD i default)) s start = .ok st ∧ (start = none → st = []) ∧
      ∀ v, start = some v → st.length = s.length ∧
        ∀ (j i : Nat), s[j]? = some i → ∃ l k, st[j]? = some l ∧ (firsts gi)[i]? = some k ∧ ShowsStart l gi k inc v := by
    cases start with
    | none => exact ⟨[], rfl, fun _ => rfl, fun v hv => by cases hv⟩
    | some v =>
      obtain ⟨r, e1, e2, e3⟩ := startLines_spec gi I M hI inc v s fun i hi => (hacc i hi).1
      refine ⟨r, ?_, (fun h => by cases h), fun w hw => ?_⟩
      · unfold startPart
        dsimp only
        rw [getData_spec gi I M hI v (h4 v rfl)]
        exact e1
      · cases hw
        exact ⟨e2, e3⟩
  rw [hst]
  have hfl : (firsts gi).length ≤ (fitIndex gi index).length := by
    have := fitIndex_length gi hne index h0
    rwa [groupPos_obs, List.length_map] at this
  obtain ⟨b, hb, hb1, hb2⟩ : ∃ b, boxes (firsts gi).length (fitIndex gi index) s = .ok b ∧ (s.length < (firsts gi).length → b.map Prod.snd = s) ∧
      ((firsts gi).length ≤ s.length → b = []) := by
    unfold boxes
    split
    · next hlt =>
      have hne' : fitIndex gi index ≠ [] := by
        intro h
        rw [h] at hfl
        simp only [List.length_nil] at hfl
        omega
      refine ⟨_, mapM_ok_of _ (fun r => ((fitIndex gi index).getD r ((fitIndex gi index).head hne'), r)) s ?_, fun _ => ?_, fun h => by omega⟩
      · intro i hi
        have := (hacc i hi).1
        rw [row_some _ i _ (List.getElem?_eq_getElem (by omega))]
        rw [List.getD_eq_getElem?_getD, List.getElem?_eq_getElem (by omega)]
        rfl
      · rw [List.map_map]
        exact List.map_id s
    · next hlt => exact ⟨[], rfl, fun h => absurd h hlt, fun _ => rfl⟩
  rw [hb]
  refine ⟨_, rfl, by simp, ?_, hst0, hst1, by simp, hb1, hb2, rfl⟩
  intro j i hj
  obtain ⟨-, e2, k, e3, e4⟩ := hg i (List.mem_of_getElem? hj)
  exact ⟨g i, k, by rw [List.getElem?_map, hj]; rfl, e3, e2, e4⟩

/-- `plot.results`: each number of an accepted selection has a line with the modelled values and the measurements of its fit-group, and a line with
the results of the start-values; the label is the element of the selection at this number. -/
theorem C126_results (sel : Option (List Nat)) (legend : Bool) (start : Option (List ℝ)) (gi : List κ) (hne : gi ≠ []) (u : List κ) (hu : IsEnum gi u)
    (index : List ι) (inc sig model : List ℝ) (h0 : index.length = gi.length) (h1 : inc.length = gi.length) (h2 : sig.length = gi.length)
    (h3 : model.length = gi.length) (h4 : ∀ v, start = some v → v.length = gi.length) (s : List Nat)
    (hs : s = (match sel with | none => List.range u.length | some s => s)) (hacc : Accepted u.length s) :
    ∃ fig, results sel legend start gi index inc sig model = .ok fig ∧ fig.lines.length = s.length ∧
      (∀ (j i : Nat), s[j]? = some i → ∃ l k, fig.lines[j]? = some l ∧ u[i]? = some k ∧ s[i]? = some l.label ∧ ShowsLine l gi k inc sig model) ∧
      (start = none → fig.start = []) ∧
      (∀ v, start = some v → fig.start.length = s.length ∧
        ∀ (j i : Nat), s[j]? = some i → ∃ l k, fig.start[j]? = some l ∧ u[i]? = some k ∧ ShowsStart l gi k inc v) ∧
      (fig.legend = true ↔ legend = true ∧ s.length ≤ 20) ∧
      (s.length < u.length → fig.boxes.map Prod.snd = s) ∧ (u.length ≤ s.length → fig.boxes = []) := by
  obtain ⟨fig, e, e1, e2, e3, e4, e5, e6, e7, -⟩ := results_core sel legend start gi hne u hu index inc sig model h0 h1 h2 h3 h4 s hs hacc
  exact ⟨fig, e, e1, e2, e3, e4, e5, e6, e7⟩

/-- All other selections raise IndexError. -/
theorem C126_rejected (s : List Nat) (legend : Bool) (start : Option (List ℝ)) (gi : List κ) (hne : gi ≠ []) (u : List κ) (hu : IsEnum gi u)
    (index : List ι) (inc sig model : List ℝ) (h1 : inc.length = gi.length) (h2 : sig.length = gi.length)
    (h3 : model.length = gi.length) (hacc : ¬ Accepted u.length s) :
    results (some s) legend start gi index inc sig model = .error .indexError := by
  have hu' := isEnum_unique gi u hu
  subst hu'
  obtain ⟨I, M, -, hI, -, -⟩ := idxAssigns_spec gi hne
  rw [results_eq (some s) legend start gi index inc sig model I M hI h1 h2 h3]
  have hline := line_spec gi I M hI inc sig model s
  have : s.mapM (line (I.map (List.map fun i => inc.getD i default)) (I.map (List.map fun i => model.getD i default))
      (masked (I.map (List.map fun i => sig.getD i default)) M) s) = .error .indexError := by
    apply mapM_err_of
    · intro i hi
      by_cases h : i < (firsts gi).length ∧ i < s.length
      · obtain ⟨l, k, e, -⟩ := (hline i).1 h
        exact .inl ⟨l, e⟩
      · exact .inr ((hline i).2 h)
    · unfold Accepted at hacc
      push Not at hacc
      obtain ⟨i, hi, h⟩ := hacc
      exact ⟨i, hi, (hline i).2 fun hh => by have := h hh.1; omega⟩
  unfold selection
  dsimp only
  rw [this]
  rfl

/-- All measurements, or the first ones: all of them are shown, and the labels are the numbers of the measurements. -/
theorem C126_labels_partial (sel : Option (List Nat)) (legend : Bool) (start : Option (List ℝ)) (gi : List κ) (hne : gi ≠ []) (u : List κ)
    (hu : IsEnum gi u) (index : List ι) (inc sig model : List ℝ) (h0 : index.length = gi.length) (h1 : inc.length = gi.length)
    (h2 : sig.length = gi.length) (h3 : model.length = gi.length) (h4 : ∀ v, start = some v → v.length = gi.length) (r : Nat)
    (hr : sel = none ∧ r = u.length ∨ sel = some (List.range r) ∧ r ≤ u.length) :
    ∃ fig, results sel legend start gi index inc sig model = .ok fig ∧ fig.lines.length = r ∧
      ∀ m, m < r → ∃ l k, fig.lines[m]? = some l ∧ u[m]? = some k ∧ l.label = m ∧ ShowsLine l gi k inc sig model := by
  have hle : r ≤ u.length := by rcases hr with ⟨-, rfl⟩ | ⟨-, h⟩ <;> omega
  obtain ⟨fig, e, hl, hlines, -⟩ := C126_results sel legend start gi hne u hu index inc sig model h0 h1 h2 h3 h4 (List.range r)
    (by rcases hr with ⟨rfl, rfl⟩ | ⟨rfl, -⟩ <;> rfl) (by
      intro i hi
      rw [List.mem_range] at hi
      rw [List.length_range]
      omega)
  rw [List.length_range] at hl
  refine ⟨fig, e, hl, fun m hm => ?_⟩
  have hj : (List.range r)[m]? = some m := by
    rw [List.getElem?_eq_getElem (by simpa using hm), List.getElem_range]
  obtain ⟨l, k, e1, e2, e3, e4⟩ := hlines m m hj
  rw [hj] at e3
  exact ⟨l, k, e1, e2, (Option.some.inj e3).symm, e4⟩

/-- The last one of six fit-groups can not be selected. -/
theorem C126_selection_fails : IsEnum [0, 1, 2, 3, 4, 5] [0, 1, 2, 3, 4, 5] ∧ ¬ Accepted 6 [5] ∧
    results (some [5]) false none [0, 1, 2, 3, 4, 5] [10, 11, 12, 13, 14, 15] [1, 1, 1, 1, 1, 1] [1, 1, 1, 1, 1, 1] [1, 1, 1, 1, 1, 1] = .error .indexError := by
  have he : IsEnum [0, 1, 2, 3, 4, 5] [0, 1, 2, 3, 4, 5] := ⟨by decide, fun _ => Iff.rfl, by decide⟩
  have hn : ¬ Accepted 6 [5] := by
    intro h
    have := (h 5 (by simp)).2
    simp at this
  exact ⟨he, hn, C126_rejected [5] false none _ (by simp) _ he _ _ _ _ rfl rfl rfl hn⟩

/-- The selection `[1, 0]`: the line of the fit-group 1 has the label 0. -/
theorem C126_exchanged_fails : ∃ fig l, results (some [1, 0]) false none [0, 1] [10, 11] [1, 2] [3, 4] [5, 6] = .ok fig ∧
    fig.lines[0]? = some l ∧ l.label = 0 ∧ ShowsLine l [0, 1] 1 [1, 2] [3, 4] [5, 6] := by
  have he : IsEnum [0, 1] [0, 1] := ⟨by decide, fun _ => Iff.rfl, by decide⟩
  obtain ⟨fig, e, -, hl, -⟩ := C126_results (some [1, 0]) false none [0, 1] (by simp) _ he [10, 11] [1, 2] [3, 4] [5, 6] rfl rfl rfl rfl (by simp) [1, 0] rfl
    (by intro i hi; simp at hi; rcases hi with rfl | rfl <;> simp)
  obtain ⟨l, k, e1, e2, e3, e4⟩ := hl 0 1 rfl
  refine ⟨fig, l, e, e1, ?_, ?_⟩
  · simpa using e3.symm
  · have : k = 1 := by simpa using e2.symm
    subst this
    exact e4

theorem boxes_spec (n : Nat) (gi : List κ) (u : List κ) (hu : IsEnum gi u) (index : List ι) [Inhabited ι] (h0 : index.length = gi.length)
    (hsame : ∀ i j : Nat, i < gi.length → gi[i]? = gi[j]? → index[i]? = index[j]?) (s : List Nat) (b : List (ι × Nat))
    (h : boxes n (fitIndex gi index) s = .ok b) (t : ι) (m : Nat) (hm : (t, m) ∈ b) : m ∈ s ∧ ∃ k, u[m]? = some k ∧ ∀ i : Nat, gi[i]? = some k → index[i]? = some t := by
  have hu' := isEnum_unique gi u hu
  subst hu'
  have hlab : fitIndex gi index = (firsts gi).map fun k => index.getD (gi.idxOf k) default := by
    unfold fitIndex
    rw [grouped_eq gi index h0, groupPos_obs, List.map_map, List.map_map]
    have hone : (firsts gi).map (distinct ∘ (List.map fun i => index.getD i default) ∘ obs gi) =
        (firsts gi).map fun k => [index.getD (gi.idxOf k) default] := by
      apply List.map_congr_left
      intro k hk
      rw [mem_firsts] at hk
      have h0' : gi[gi.idxOf k]? = some k := by
        rw [List.getElem?_eq_getElem (List.idxOf_lt_length_of_mem hk), List.getElem_idxOf]
      simp only [Function.comp]
      rw [List.map_congr_left (g := fun _ => index.getD (gi.idxOf k) default), List.map_const', distinct_eq]
      · refine firsts_replicate _ _ (List.length_pos_of_mem (a := gi.idxOf k) ?_)
        exact List.mem_filter.2 ⟨List.mem_range.2 (List.idxOf_lt_length_of_mem hk), by simpa using h0'⟩
      · intro i hi
        have hi' := List.mem_filter.1 hi
        rw [List.mem_range, decide_eq_true_eq] at hi'
        rw [List.getD_eq_getElem?_getD, List.getD_eq_getElem?_getD, hsame i (gi.idxOf k) hi'.1 (by rw [hi'.2, h0'])]
    rw [Function.comp_assoc, hone]
    generalize firsts gi = K
    induction K with
    | nil => rfl
    | cons k K ih => rw [List.map_cons, List.flatten_cons, ih]; rfl
  unfold boxes at h
  split at h
  · rename_i hc
    clear hc
    obtain ⟨r, hr, e⟩ : ∃ r ∈ s, (row (fitIndex gi index) r).map (fun t => (t, r)) = .ok (t, m) := by
      clear hlab
      revert b
      induction s with
      | nil =>
        intro b hm h
        cases h
        cases hm
      | cons r s ih =>
        intro b hm h
        rw [List.mapM_cons] at h
        cases e : (row (fitIndex gi index) r).map (fun t => (t, r)) with
        | error x => rw [e] at h; cases h
        | ok v =>
          rw [e] at h
          cases e' : s.mapM fun r => (row (fitIndex gi index) r).map fun t => (t, r) with
          | error x => 
            have h' : (do let vs ← s.mapM (fun r => (row (fitIndex gi index) r).map fun t => (t, r)); pure (v :: vs)) = .ok b := h
            rw [e'] at h'
            cases h'
          | ok vs =>
            have h' : (do let vs ← s.mapM (fun r => (row (fitIndex gi index) r).map fun t => (t, r)); pure (v :: vs)) = .ok b := h
            rw [e'] at h'
            cases h'
            rcases List.mem_cons.1 hm with rfl | hm
            · exact ⟨r, List.mem_cons_self .., e⟩
            · obtain ⟨r', h1, h2⟩ := ih vs hm e'
              exact ⟨r', List.mem_cons_of_mem _ h1, h2⟩
    unfold row at e
    rw [hlab, List.getElem?_map] at e
    cases ek : (firsts gi)[r]? with
    | none => rw [ek] at e; cases e
    | some k =>
      rw [ek] at e
      cases e
      refine ⟨hr, k, ek, fun i hi => ?_⟩
      have hk : k ∈ gi := List.mem_of_getElem? hi
      have h0' : gi[gi.idxOf k]? = some k := by
        rw [List.getElem?_eq_getElem (List.idxOf_lt_length_of_mem hk), List.getElem_idxOf]
      have hi' : i < gi.length := (List.getElem?_eq_some_iff.1 hi).1
      dsimp only
      rw [hsame i (gi.idxOf k) hi' (by rw [hi, h0']), List.getD_eq_getElem?_getD,
        List.getElem?_eq_getElem (by rw [h0]; exact List.idxOf_lt_length_of_mem hk)]
      rfl
  · cases h
    cases hm

/-- If all observations of a fit-group have the same date, the boxes of a selection are at the dates of the fit-groups. -/
theorem C126_boxes_partial (s : List Nat) (legend : Bool) (start : Option (List ℝ)) (gi : List κ) (hne : gi ≠ []) (u : List κ) (hu : IsEnum gi u)
    (index : List ι) (inc sig model : List ℝ) (h0 : index.length = gi.length) (h1 : inc.length = gi.length) (h2 : sig.length = gi.length)
    (h3 : model.length = gi.length) (h4 : ∀ v, start = some v → v.length = gi.length) (hacc : Accepted u.length s)
    (hsame : ∀ i j : Nat, i < gi.length → gi[i]? = gi[j]? → index[i]? = index[j]?) :
    ∃ fig, results (some s) legend start gi index inc sig model = .ok fig ∧ (s.length < u.length → fig.boxes.map Prod.snd = s) ∧
      ∀ t m, (t, m) ∈ fig.boxes → m ∈ s ∧ ∃ k, u[m]? = some k ∧ ∀ i : Nat, gi[i]? = some k → index[i]? = some t := by
  obtain ⟨fig, e, -, -, -, -, -, e6, -, e8⟩ := results_core (some s) legend start gi hne u hu index inc sig model h0 h1 h2 h3 h4 s rfl hacc
  have hne' : index ≠ [] := by
    intro h
    rw [h] at h0
    exact hne (List.length_eq_zero_iff.1 h0.symm)
  have : Inhabited ι := ⟨index.head hne'⟩
  exact ⟨fig, e, e6, fun t m hm => boxes_spec u.length gi u hu index h0 hsame s fig.boxes e8 t m hm⟩

example : (∀ i j : Nat, i < [(7 : Nat), 3, 7].length → [(7 : Nat), 3, 7][i]? = [(7 : Nat), 3, 7][j]? →
    [(4 : Nat), 5, 4][i]? = [(4 : Nat), 5, 4][j]?) ∧ boxes 2 (fitIndex [(7 : Nat), 3, 7] [(4 : Nat), 5, 4]) [1] = .ok [(5, 1)] := by
  constructor
  · intro i j hi h
    have hj : j < 3 := by
      by_contra hc
      rw [List.getElem?_eq_none (l := [7, 3, 7]) (i := j) (by simpa using hc), List.getElem?_eq_getElem hi] at h
      cases h
    have hi' : i < 3 := hi
    interval_cases i <;> interval_cases j <;> simp_all
  · rfl

/-- With several dates in a fit-group the box of the second fit-group is at a date of the first one. -/
theorem C126_boxes_fails : boxes 3 (fitIndex [0, 0, 1, 2] [10, 11, 12, 13]) [1] = .ok [(11, 1)] := rfl

/-! ## single_results -/

/-- Specification: decibels. -/
noncomputable def decibel (dB : Bool) (v : ℝ) : ℝ := if dB then 10 * (Real.log v / Real.log 10) else v

/-- Specification: degrees. -/
noncomputable def degrees (x : ℝ) : ℝ := x * 180 / Real.pi

/-- The assumed behaviour of `np.argsort`: positions in an order in which the values increase. -/
def SortsPositions (argsort : List ℝ → List Nat) : Prop :=
  ∀ l, (argsort l).Perm (List.range l.length) ∧ ((argsort l).map fun j => l.getD j 0).Pairwise (· ≤ ·)

/-- Specification: the label names the first and the last date of a list, and their number. -/
def LabelOf [LE ι] (str : ι → String) (ts : List ι) : Label → Prop
  | .single a => ∃ t, ts = [t] ∧ a = str t
  | .same a n => n = ts.length ∧ 2 ≤ n ∧ ∃ t0 ∈ ts, ∃ t1 ∈ ts, (∀ t ∈ ts, t0 ≤ t ∧ t ≤ t1) ∧ str t0 = a ∧ str t1 = a
  | .range a b n => n = ts.length ∧ 2 ≤ n ∧ a ≠ b ∧ ∃ t0 ∈ ts, ∃ t1 ∈ ts, (∀ t ∈ ts, t0 ≤ t ∧ t ≤ t1) ∧ str t0 = a ∧ str t1 = b

theorem label_spec [Preorder ι] (str : ι → String) (ts : List ι) (hne : ts ≠ []) :
    ∃ l, label str ts = .ok l ∧ (ts.Pairwise (· ≤ ·) → LabelOf str ts l) := by
  match ts, hne with
  | [a], _ => exact ⟨_, rfl, fun _ => ⟨a, rfl, rfl⟩⟩
  | a :: b :: l, _ =>
    refine ⟨_, rfl, fun hs => ?_⟩
    have hlast : (b :: l).getLastD b ∈ b :: l := by
      rw [List.getLastD_eq_getLast?, List.getLast?_eq_some_getLast (by simp)]
      exact List.getLast_mem _
    have hle : ∀ t ∈ a :: b :: l, a ≤ t ∧ t ≤ (b :: l).getLastD b := by
      have h2 := (List.pairwise_cons.1 hs).2
      have h3 : ∀ t ∈ b :: l, t ≤ (b :: l).getLastD b := by
        intro t ht
        rw [List.getLastD_eq_getLast?, List.getLast?_eq_some_getLast (by simp)]
        show t ≤ (b :: l).getLast _
        have : b :: l = (b :: l).dropLast ++ [(b :: l).getLast (by simp)] := (List.dropLast_append_getLast _).symm
        rw [this, List.pairwise_append] at h2
        rw [this, List.mem_append] at ht
        rcases ht with ht | ht
        · exact h2.2.2 t ht _ (List.mem_singleton.2 rfl)
        · rw [List.mem_singleton.1 ht]
      intro t ht
      rcases List.mem_cons.1 ht with rfl | ht
      · exact ⟨le_refl _, (List.pairwise_cons.1 hs).1 _ hlast⟩
      · exact ⟨(List.pairwise_cons.1 hs).1 t ht, h3 t ht⟩
    split
    · next h => exact ⟨by simp, by omega, a, List.mem_cons_self .., _, List.mem_cons_of_mem _ hlast, hle, rfl, h.symm⟩
    · next h => exact ⟨by simp, by omega, h, a, List.mem_cons_self .., _, List.mem_cons_of_mem _ hlast, hle, rfl, rfl⟩

/-- Specification: what is shown of a measurement. -/
def ShowsSingle [LE ι] (S : Single) (dB : Bool) (str : ι → String) (gi : List κ) (k : κ) (index : List ι) [Inhabited ι] (inc sig model : List ℝ) : Prop :=
  S.points = ((obs gi k).map fun i => (degrees (inc.getD i default), decibel dB (sig.getD i default))) ∧
  S.curve.Perm ((obs gi k).map fun i => (degrees (inc.getD i default), decibel dB (model.getD i default))) ∧
  (S.curve.map Prod.fst).Pairwise (· ≤ ·) ∧
  (index.Pairwise (· ≤ ·) → LabelOf str ((obs gi k).map fun i => index.getD i default) S.label)

theorem obs_ne_nil (gi : List κ) (k : κ) (h : k ∈ gi) : obs gi k ≠ [] := by
  obtain ⟨i, hi, rfl⟩ := List.getElem_of_mem h
  exact List.ne_nil_of_mem (List.mem_filter.2 ⟨List.mem_range.2 hi, by simp [List.getElem?_eq_getElem hi]⟩)

theorem single_spec [Preorder ι] [Inhabited ι] (dB : Bool) (str : ι → String) (argsort : List ℝ → List Nat) (hsort : SortsPositions argsort)
    (gi : List κ) (I : List (List Nat)) (M : List (List Bool)) (h : rectangularize (groupPos gi) = .ok (I, M)) (index : List ι)
    (inc sig model : List ℝ) (h0 : index.length = gi.length) (m : Nat) (k : κ) (hk : (firsts gi)[m]? = some k) :
    ∃ S, single dB str argsort (grouped gi index) (I.map (List.map fun i => sig.getD i default)) (I.map (List.map fun i => inc.getD i default))
      (I.map (List.map fun i => model.getD i default)) M m = .ok S ∧ ShowsSingle S dB str gi k index inc sig model := by
  obtain ⟨-, -, hrow⟩ := rows_spec gi I M h
  obtain ⟨a, b, ha, hb, hl, hu, -⟩ := hrow m k hk
  have hmem : k ∈ gi := (mem_firsts gi k).1 (List.mem_of_getElem? hk)
  have hconv : conv dB = decibel dB := by
    funext v
    unfold conv decibel Real.logb
    rfl
  have hr : ∀ col : List ℝ, row (I.map (List.map fun i => col.getD i default)) m = .ok (a.map fun i => col.getD i default) := by
    intro col
    apply row_some
    rw [List.getElem?_map, ha]
    rfl
  have hg : row (grouped gi index) m = .ok ((obs gi k).map fun i => index.getD i default) := by
    apply row_some
    rw [grouped_eq gi index h0, groupPos_obs, List.map_map, List.getElem?_map, hk]
    rfl
  obtain ⟨l, hlab, hlab'⟩ := label_spec str ((obs gi k).map fun i => index.getD i default) (by
    simpa using obs_ne_nil gi k hmem)
  unfold single
  rw [hr model, hr inc, hr sig, row_some M m b hb, hg]
  show ∃ S, (do
    let l ← label str _
    _) = Except.ok S ∧ _
  rw [hlab]
  refine ⟨_, rfl, ?_, ?_, ?_, ?_⟩
  · dsimp only
    rw [unmaskRow_map, unmaskRow_map, hu, List.map_map, List.map_map, List.zip_map', hconv]
    rfl
  · dsimp only
    rw [unmaskRow_map, unmaskRow_map, hu, List.zip_map', hconv]
    obtain ⟨hp, -⟩ := hsort ((obs gi k).map fun i => inc.getD i default)
    refine (hp.map _).trans (List.Perm.of_eq ?_)
    apply List.ext_getElem
    · simp
    · intro j h1 h2
      have hj : j < (obs gi k).length := by simpa using h2
      simp only [List.getElem_map, List.getElem_range, List.getD_eq_getElem?_getD, List.getElem?_map, List.getElem?_eq_getElem hj, Option.map_some,
        Option.getD_some]
      rfl
  · dsimp only
    obtain ⟨-, hs⟩ := hsort (unmaskRow (a.map fun i => inc.getD i default) b)
    rw [List.map_fst_zip (by simp)]
    rw [List.pairwise_map] at hs ⊢
    refine hs.imp fun hh => ?_
    unfold rad2deg
    have := Real.pi_pos
    gcongr
  · intro hs
    apply hlab'
    refine hs.sublist ?_
    have := (List.filter_sublist (p := fun i => decide (gi[i]? = some k)) (l := List.range gi.length)).map fun i => index.getD i default
    rwa [range_getD index _ h0] at this

/-- `plot.single_results(fit_numbers=ns)`: exactly the measurements and the modelled values of the selected fit-groups are shown, the curve is sorted
by the incidence-angle.  Partial: the label is stated for datasets sorted by date. -/
theorem C126_single_partial [Preorder ι] [Inhabited ι] (ns : List Nat) (dB : Bool) (str : ι → String) (argsort : List ℝ → List Nat)
    (hsort : SortsPositions argsort) (gi : List κ) (hne : gi ≠ []) (u : List κ) (hu : IsEnum gi u) (index : List ι) (inc sig model : List ℝ)
    (h0 : index.length = gi.length) (h1 : inc.length = gi.length) (h2 : sig.length = gi.length) (h3 : model.length = gi.length)
    (_hpos : dB = true → (∀ x ∈ sig, 0 < x) ∧ ∀ x ∈ model, 0 < x) (hns : ∀ m ∈ ns, m < u.length) :
    ∃ r, singleResults (some ns) none dB str argsort gi index inc sig model = .ok r ∧ r.length = ns.length ∧
      ∀ (j m : Nat), ns[j]? = some m → ∃ S k, r[j]? = some S ∧ u[m]? = some k ∧ ShowsSingle S dB str gi k index inc sig model := by
  have hu' := isEnum_unique gi u hu
  subst hu'
  obtain ⟨I, M, -, hI, -, -⟩ := idxAssigns_spec gi hne
  have hS : ∀ m, ∃ S, m ∈ ns → single dB str argsort (grouped gi index) (I.map (List.map fun i => sig.getD i default))
      (I.map (List.map fun i => inc.getD i default)) (I.map (List.map fun i => model.getD i default)) M m = .ok S ∧
      ∃ k, (firsts gi)[m]? = some k ∧ ShowsSingle S dB str gi k index inc sig model := by
    intro m
    by_cases hm : m ∈ ns
    · obtain ⟨S, e1, e2⟩ := single_spec dB str argsort hsort gi I M hI index inc sig model h0 m _ (List.getElem?_eq_getElem (hns m hm))
      exact ⟨S, fun _ => ⟨e1, _, List.getElem?_eq_getElem (hns m hm), e2⟩⟩
    · exact ⟨⟨[], [], .single ""⟩, fun h => absurd h hm⟩
  choose g hg using hS
  refine ⟨ns.map g, ?_, by simp, ?_⟩
  · unfold singleResults
    rw [getData_spec gi I M hI sig h2, getData_spec gi I M hI inc h1, getData_spec gi I M hI model h3]
    exact mapM_ok_of _ g ns fun m hm => (hg m hm).1
  · intro j m hj
    obtain ⟨-, k, e1, e2⟩ := hg m (List.mem_of_getElem? hj)
    exact ⟨g m, k, by rw [List.getElem?_map, hj]; rfl, e1, e2⟩

/-- A number without a fit-group raises IndexError. -/
theorem C126_single_error [Preorder ι] [Inhabited ι] (ns : List Nat) (dB : Bool) (str : ι → String) (argsort : List ℝ → List Nat)
    (hsort : SortsPositions argsort) (gi : List κ) (hne : gi ≠ []) (u : List κ) (hu : IsEnum gi u) (index : List ι) (inc sig model : List ℝ)
    (h0 : index.length = gi.length) (h1 : inc.length = gi.length) (h2 : sig.length = gi.length) (h3 : model.length = gi.length)
    (nums : Option (List Nat)) (hn : nums = some ns ∨ nums = none ∧ ns = [1]) (hns : ∃ m ∈ ns, u.length ≤ m) :
    singleResults nums none dB str argsort gi index inc sig model = .error .indexError := by
  have hu' := isEnum_unique gi u hu
  subst hu'
  obtain ⟨I, M, -, hI, -, -⟩ := idxAssigns_spec gi hne
  have hnum : numbers nums (none : Option (List ι)) = .ok ns := by
    rcases hn with rfl | ⟨rfl, rfl⟩ <;> rfl
  unfold singleResults
  rw [hnum, getData_spec gi I M hI sig h2, getData_spec gi I M hI inc h1, getData_spec gi I M hI model h3]
  have hout : ∀ m, (firsts gi).length ≤ m → single dB str argsort (grouped gi index) (I.map (List.map fun i => sig.getD i default))
      (I.map (List.map fun i => inc.getD i default)) (I.map (List.map fun i => model.getD i default)) M m = .error .indexError := by
    intro m hm
    unfold single
    rw [row_none _ m (by rw [List.length_map, (rows_spec gi I M hI).1]; exact hm)]
    rfl
  refine mapM_err_of _ .indexError ns (fun m hm => ?_) ?_
  · by_cases h : m < (firsts gi).length
    · obtain ⟨S, e, -⟩ := single_spec dB str argsort hsort gi I M hI index inc sig model h0 m _ (List.getElem?_eq_getElem h)
      exact .inl ⟨S, e⟩
    · exact .inr (hout m (by omega))
  · obtain ⟨m, hm, h⟩ := hns
    exact ⟨m, hm, hout m h⟩

/-- Numbers and dates at the same time are rejected. -/
theorem C126_single_both (ns : List Nat) (ts : List ι) (dB : Bool) (str : ι → String) (argsort : List ℝ → List Nat) (gi : List κ) (index : List ι)
    (inc sig model : List ℝ) : singleResults (some ns) (some ts) dB str argsort gi index inc sig model = .error .assertionError := rfl

/-- Dates are never accepted. -/
theorem C126_indexes_fails (ts : List ι) (dB : Bool) (str : ι → String) (argsort : List ℝ → List Nat) (gi : List κ) (index : List ι)
    (inc sig model : List ℝ) : singleResults none (some ts) dB str argsort gi index inc sig model = .error .attributeError := rfl

/-- The positions of a list, stably sorted by its values. -/
noncomputable def stableSort (l : List ℝ) : List Nat := (List.range l.length).mergeSort fun i j => decide (l.getD i 0 ≤ l.getD j 0)

theorem stableSort_spec : SortsPositions stableSort := by
  intro l
  refine ⟨List.mergeSort_perm _ _, ?_⟩
  rw [List.pairwise_map]
  have := List.pairwise_mergeSort (le := fun i j => decide (l.getD i 0 ≤ l.getD j 0))
    (by intro a b c; simp only [decide_eq_true_eq]; exact le_trans)
    (by intro a b; simp only [Bool.or_eq_true, decide_eq_true_eq]; exact le_total _ _) (List.range l.length)
  exact this.imp fun h => by simpa using h

/-- Without arguments the second measurement is shown: a fit with a single fit-group raises IndexError. -/
theorem C126_default_fails : singleResults none none false (fun _ : Nat => "") stableSort [7, 7] [1, 2] [1, 2] [3, 4] [5, 6] = .error .indexError :=
  C126_single_error (ι := Nat) [1] false _ stableSort stableSort_spec [7, 7] (by simp) [7] ⟨by decide, by simp, by decide⟩ [1, 2] [1, 2] [3, 4] [5, 6] rfl rfl rfl rfl
    none (.inr ⟨rfl, rfl⟩) ⟨1, by simp, by simp⟩

/-- If the dataset is not sorted, the label does not name the first and the last date. -/
theorem C126_dates_fails : ∃ (str : Nat → String) (l : Label), label str [2, 3, 1] = .ok l ∧ ¬ LabelOf str [2, 3, 1] l := by
  refine ⟨fun n => if n = 1 then "1" else if n = 2 then "2" else "3", .range "2" "1" 3, by decide, ?_⟩
  rintro ⟨-, -, -, t0, h0, t1, h1, h, e0, e1⟩
  have := (h 1 (by simp)).1
  simp only [List.mem_cons, List.not_mem_nil, or_false] at h0
  rcases h0 with rfl | rfl | rfl
  · omega
  · omega
  · simp at e0

example : IsEnum [(7 : Nat), 3, 7] [7, 3] ∧ (∀ m ∈ [1, 0, 1], m < [(7 : Nat), 3].length) ∧ SortsPositions stableSort ∧
    [(4 : Nat), 5, 9].Pairwise (· ≤ ·) := by
  refine ⟨⟨by decide, ?_, by decide⟩, by decide, stableSort_spec, by decide⟩
  intro k
  simp
  tauto

example : Accepted 5 [1, 0, 2] ∧ ¬ Accepted 5 [1, 2, 3] ∧ ¬ Accepted 2 [0, 1, 2] := by
  refine ⟨by unfold Accepted; decide, by unfold Accepted; decide, by unfold Accepted; decide⟩

end RT1.ResultPlots
