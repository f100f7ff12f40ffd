import Verif.Model.PolarPlot
import Mathlib.Tactic.Linarith
import Mathlib.Tactic.NormNum

/-!
# `polarplot` shows all functions with the colors of the legend (C130)
-/

namespace RT1.Polar
open General

variable {P : Type}

/-! ## Specification -/

/-- The color of the angle with number `k`. -/
def colorOf (k : Nat) : String :=
  match k % 7 with
  | 0 => "k"
  | 1 => "r"
  | 2 => "g"
  | 3 => "b"
  | 4 => "c"
  | 5 => "m"
  | _ => "y"

/-- The lines of one angle. -/
def angleLines (F : Fns P) (aprox : Bool) (p : P) (k : Nat) (ti : ℝ) : List Line :=
  ⟨true, colorOf k, F.grid.map fun ts => (ts, F.f p ti ts)⟩ ::
    if aprox then [⟨false, colorOf k, F.grid.map fun ts => (ts, F.approx p (F.sub ti) ts)⟩] else []

/-- All lines: for each set of parameters and each angle. -/
def allLines (F : Fns P) (aprox : Bool) (incs : List ℝ) (params : List P) : List Line :=
  params.flatMap fun p => incs.zipIdx.flatMap fun e => angleLines F aprox p e.2 e.1

/-! ## Lemmas -/

theorem palette_eq (k : Nat) : palette k = colorOf k := by
  have h : k % 7 < 7 := Nat.mod_lt _ (by norm_num)
  unfold palette colorOf
  generalize k % 7 = m at h
  match m, h with
  | 0, _ => rfl
  | 1, _ => rfl
  | 2, _ => rfl
  | 3, _ => rfl
  | 4, _ => rfl
  | 5, _ => rfl
  | 6, _ => rfl

theorem angles_eq (F : Fns P) (aprox : Bool) (p : P) (incs : List ℝ) (c : Nat) (lines : List Line) (used : List String) :
    incs.foldl (drawAngle F aprox p) (c, lines, used) =
      (c + incs.length, lines ++ (incs.zipIdx c).flatMap (fun e => angleLines F aprox p e.2 e.1),
        used ++ (List.range' c incs.length).map colorOf) := by
  induction incs generalizing c lines used with
  | nil => simp
  | cons ti incs ih =>
    rw [List.foldl_cons, show drawAngle F aprox p (c, lines, used) ti = (c + 1, lines ++ angleLines F aprox p c ti, used ++ [colorOf c]) from ?_, ih]
    · simp [List.zipIdx_cons, List.range'_succ, Nat.add_assoc, Nat.add_comm 1]
    · unfold drawAngle angleLines
      dsimp only
      rw [palette_eq]
      cases aprox <;> simp

theorem updateMax_spec (F : Fns P) (p : P) (incs : List ℝ) (m : ℝ) :
    m ≤ updateMax F p m incs ∧ (∀ i ∈ incs, F.peak p i ≤ updateMax F p m incs) ∧
      (updateMax F p m incs = m ∨ ∃ i ∈ incs, updateMax F p m incs = F.peak p i) := by
  unfold updateMax
  induction incs generalizing m with
  | nil => exact ⟨le_rfl, fun _ h => absurd h List.not_mem_nil, .inl rfl⟩
  | cons i incs ih =>
    rw [List.foldl_cons]
    obtain ⟨a, b, c⟩ := ih (if m < F.peak p i then F.peak p i else m)
    have h1 : m ≤ (if m < F.peak p i then F.peak p i else m) := by split <;> linarith
    have h2 : F.peak p i ≤ (if m < F.peak p i then F.peak p i else m) := by split <;> linarith
    refine ⟨h1.trans a, fun j hj => ?_, ?_⟩
    · rcases List.mem_cons.1 hj with rfl | hj
      · exact h2.trans a
      · exact b j hj
    · rcases c with c | ⟨j, hj, c⟩
      · rw [c]
        split
        · exact .inr ⟨i, List.mem_cons_self .., rfl⟩
        · exact .inl rfl
      · exact .inr ⟨j, List.mem_cons_of_mem _ hj, c⟩

/-- The state after the loops. -/
theorem params_eq (F : Fns P) (aprox : Bool) (incs : List ℝ) (params : List P) (s : State) :
    (params.foldl (drawParam F aprox incs) s).lines = s.lines ++ allLines F aprox incs params ∧
      (params.foldl (drawParam F aprox incs) s).used = (if params = [] then s.used else some ((List.range incs.length).map colorOf)) := by
  induction params generalizing s with
  | nil => simp [allLines]
  | cons p params ih =>
    rw [List.foldl_cons]
    obtain ⟨a, b⟩ := ih (drawParam F aprox incs s p)
    have e1 : (drawParam F aprox incs s p).lines = s.lines ++ incs.zipIdx.flatMap fun e => angleLines F aprox p e.2 e.1 := by
      unfold drawParam
      dsimp only
      rw [angles_eq]
    have e2 : (drawParam F aprox incs s p).used = some ((List.range incs.length).map colorOf) := by
      unfold drawParam
      dsimp only
      rw [angles_eq, List.nil_append, List.range_eq_range']
    refine ⟨?_, ?_⟩
    · rw [a, e1, List.append_assoc]
      rfl
    · rw [b, e2, if_neg (List.cons_ne_nil _ _)]
      split <;> rfl

theorem rmax_eq (F : Fns P) (aprox : Bool) (incs : List ℝ) (hi : incs ≠ []) (params : List P) (s : State) :
    (params = [] ∨ (params.foldl (drawParam F aprox incs) s).rmax = some ((params.foldl (drawParam F aprox incs) s).pmax * 1.2)) ∧
      s.pmax ≤ (params.foldl (drawParam F aprox incs) s).pmax ∧
      (∀ p ∈ params, ∀ i ∈ incs, F.peak p i ≤ (params.foldl (drawParam F aprox incs) s).pmax) ∧
      ((params.foldl (drawParam F aprox incs) s).pmax = s.pmax ∨
        ∃ p ∈ params, ∃ i ∈ incs, (params.foldl (drawParam F aprox incs) s).pmax = F.peak p i) := by
  induction params generalizing s with
  | nil => exact ⟨.inl rfl, le_rfl, fun _ h => absurd h List.not_mem_nil, .inl rfl⟩
  | cons p params ih =>
    rw [List.foldl_cons]
    obtain ⟨a, b, c, d⟩ := ih (drawParam F aprox incs s p)
    obtain ⟨u1, u2, u3⟩ := updateMax_spec F p incs s.pmax
    have e : (drawParam F aprox incs s p).pmax = updateMax F p s.pmax incs := rfl
    rw [e] at b d
    refine ⟨.inr ?_, u1.trans b, fun q hq i hi' => ?_, ?_⟩
    · rcases a with a | a
      · subst a
        exact if_neg hi
      · exact a
    · rcases List.mem_cons.1 hq with rfl | hq
      · exact (u2 i hi').trans b
      · exact c q hq i hi'
    · rcases d with d | ⟨q, hq, i, hi', d⟩
      · rcases u3 with u3 | ⟨i, hi', u3⟩
        · exact .inl (d.trans u3)
        · exact .inr ⟨p, List.mem_cons_self .., i, hi', d.trans u3⟩
      · exact .inr ⟨q, List.mem_cons_of_mem _ hq, i, hi', d⟩

theorem draw_eq (F : Fns P) (kind : Kind) (hk : kind ≠ .other) (incs : List ℝ) (params : List P) (hp : params ≠ []) (axes : Axes) (aprox legend : Bool) :
    draw F kind incs params axes aprox legend =
      (⟨allLines F aprox incs params, (params.foldl (drawParam F aprox incs) ⟨[], 0, none, none⟩).rmax,
        if legend then legendOf aprox incs ((List.range incs.length).map colorOf) else []⟩,
        if axes = .missing then .ok () else .error .unboundLocalError) := by
  obtain ⟨a, b⟩ := params_eq F aprox incs params ⟨[], 0, none, none⟩
  rw [if_neg hp] at b
  unfold draw
  rw [if_neg fun h => hk h.1]
  dsimp only
  rw [b]
  dsimp only
  rw [a, List.nil_append]

/-! ## Theorems -/

/-- A new figure: exactly the lines of all sets of parameters and all angles. -/
theorem C130_lines_partial (F : Fns P) (kind : Kind) (hk : kind ≠ .other) (incs : List ℝ) (params : List P) (hp : params ≠ []) (aprox legend : Bool) :
    (polarplot F (some kind) (some incs) true params .missing aprox legend).2 = .ok () ∧
      (polarplot F (some kind) (some incs) true params .missing aprox legend).1.lines = allLines F aprox incs params := by
  have e : polarplot F (some kind) (some incs) true params .missing aprox legend = draw F kind incs params .missing aprox legend := rfl
  rw [e, draw_eq F kind hk incs params hp]
  exact ⟨rfl, rfl⟩

/-- The legend has one entry for each angle, in the color of its lines, and one for the approximation if it is shown. -/
theorem C130_legend_partial (F : Fns P) (kind : Kind) (hk : kind ≠ .other) (incs : List ℝ) (params : List P) (hp : params ≠ []) (aprox : Bool) :
    let d := (polarplot F (some kind) (some incs) true params .missing aprox true).1
    d.legend.length = incs.length + (if aprox then 1 else 0) ∧ (∀ (k : Nat) (ti : ℝ), incs[k]? = some ti → d.legend[k]? = some (colorOf k, some ti)) ∧
      ((∃ c, (c, none) ∈ d.legend) ↔ aprox = true) ∧
      (polarplot F (some kind) (some incs) true params .missing aprox false).1.legend = [] := by
  have e : ∀ l, polarplot F (some kind) (some incs) true params .missing aprox l = draw F kind incs params .missing aprox l := fun _ => rfl
  dsimp only
  rw [e, e, draw_eq F kind hk incs params hp, draw_eq F kind hk incs params hp]
  have hl : (((List.range incs.length).map colorOf).zip (incs.map some)).length = incs.length := by simp
  refine ⟨?_, ?_, ?_, rfl⟩
  · show (legendOf aprox incs ((List.range incs.length).map colorOf)).length = _
    unfold legendOf
    rw [List.length_append, hl]
    cases aprox <;> rfl
  · intro k ti hk'
    have hlt : k < incs.length := (List.getElem?_eq_some_iff.1 hk').1
    show (legendOf aprox incs ((List.range incs.length).map colorOf))[k]? = _
    unfold legendOf
    rw [List.getElem?_append_left (by rw [hl]; exact hlt), List.zip, List.getElem?_zipWith, List.getElem?_map, List.getElem?_map, hk',
      List.getElem?_range hlt]
    rfl
  · show (∃ c, (c, none) ∈ legendOf aprox incs ((List.range incs.length).map colorOf)) ↔ _
    unfold legendOf
    constructor
    · rintro ⟨c, hc⟩
      rcases List.mem_append.1 hc with hc | hc
      · obtain ⟨x, -, hx⟩ := List.mem_map.1 (List.of_mem_zip hc).2
        cases hx
      · cases aprox
        · exact absurd hc List.not_mem_nil
        · rfl
    · rintro rfl
      exact ⟨"k", List.mem_append_right _ (List.mem_singleton.2 rfl)⟩

/-- The limit of the radius is 1.2 times the largest (positive) scaled maximum of all functions. -/
theorem C130_limit_partial (F : Fns P) (kind : Kind) (hk : kind ≠ .other) (incs : List ℝ) (hi : incs ≠ []) (params : List P) (hp : params ≠ [])
    (aprox legend : Bool) :
    ∃ m : ℝ, (polarplot F (some kind) (some incs) true params .missing aprox legend).1.rmax = some (m * 1.2) ∧ 0 ≤ m ∧
      (∀ p ∈ params, ∀ i ∈ incs, F.peak p i ≤ m) ∧ (m = 0 ∨ ∃ p ∈ params, ∃ i ∈ incs, m = F.peak p i) := by
  have e : polarplot F (some kind) (some incs) true params .missing aprox legend = draw F kind incs params .missing aprox legend := rfl
  obtain ⟨a, b, c, d⟩ := rmax_eq F aprox incs hi params ⟨[], 0, none, none⟩
  rw [e, draw_eq F kind hk incs params hp]
  exact ⟨(params.foldl (drawParam F aprox incs) ⟨[], 0, none, none⟩).pmax, a.resolve_left hp, b, c, d⟩

/-- Invalid arguments raise AssertionError, and nothing is drawn. -/
theorem C130_rejected (F : Fns P) (X : Option Kind) (inc : Option (List ℝ)) (multip : Bool) (params : List P) (axes : Axes) (aprox legend : Bool)
    (h : inc = none ∨ multip = false ∨ X = none ∨ axes = .cartesian) :
    polarplot F X inc multip params axes aprox legend = (⟨[], none, []⟩, .error .assertionError) := by
  unfold polarplot
  cases inc with
  | none => rfl
  | some incs =>
    cases multip with
    | false => rfl
    | true =>
      cases X with
      | none => rfl
      | some kind =>
        dsimp only
        rw [if_pos]
        rcases h with h | h | h | h
        · cases h
        · cases h
        · cases h
        · exact h

/-- With axes provided by the user everything is drawn, but the call raises UnboundLocalError. -/
theorem C130_axes_fails (F : Fns P) (kind : Kind) (hk : kind ≠ .other) (incs : List ℝ) (params : List P) (hp : params ≠ []) (aprox legend : Bool) :
    polarplot F (some kind) (some incs) true params .polar aprox legend =
      ((polarplot F (some kind) (some incs) true params .missing aprox legend).1, .error .unboundLocalError) := by
  have e : ∀ a, a ≠ Axes.cartesian → polarplot F (some kind) (some incs) true params a aprox legend = draw F kind incs params a aprox legend :=
    fun a ha => if_neg ha
  rw [e _ (fun h => by cases h), e _ (fun h => by cases h), draw_eq F kind hk incs params hp, draw_eq F kind hk incs params hp]
  rfl

/-- Lists of objects and classes of the user raise UnboundLocalError. -/
theorem C130_other_fails (F : Fns P) (incs : List ℝ) (params : List P) (axes : Axes) (ha : axes ≠ .cartesian) (aprox legend : Bool)
    (h : aprox = true ∨ incs ≠ []) :
    (polarplot F (some .other) (some incs) true params axes aprox legend).2 = .error .unboundLocalError := by
  have e : polarplot F (some .other) (some incs) true params axes aprox legend = draw F .other incs params axes aprox legend := if_neg ha
  rw [e]
  unfold draw
  by_cases hp : params = []
  · rw [if_neg fun x => x.2.1 hp, hp]
    rfl
  · rw [if_pos ⟨rfl, hp, h⟩]

/-- An empty list of parameters raises UnboundLocalError. -/
theorem C130_empty_fails (F : Fns P) (kind : Kind) (incs : List ℝ) (axes : Axes) (ha : axes ≠ .cartesian) (aprox legend : Bool) :
    polarplot F (some kind) (some incs) true [] axes aprox legend = (⟨[], none, []⟩, .error .unboundLocalError) := by
  have e : polarplot F (some kind) (some incs) true ([] : List P) axes aprox legend = draw F kind incs [] axes aprox legend := if_neg ha
  rw [e]
  unfold draw
  rw [if_neg fun x => x.2.1 rfl]
  rfl

/-- Two sets of parameters, eight angles: the color of the first angle is used again. -/
example : colorOf 0 = "k" ∧ colorOf 7 = "k" ∧ colorOf 6 = "y" ∧ Kind.volume ≠ .other ∧ [(0.1 : ℝ), 0.2] ≠ [] ∧ [(), ()] ≠ [] :=
  ⟨rfl, rfl, rfl, (fun h => by cases h), List.cons_ne_nil _ _, List.cons_ne_nil _ _⟩

end RT1.Polar
