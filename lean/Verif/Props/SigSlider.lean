import Verif.Model.SigSlider

/-!
# The slider of `printsig0analysis` shows the selected measurements (C131)
-/

namespace RT1.SigSlider
open General

/-! ## Specification -/

/-- The lines of the measurements `d`, …, `d + range - 1`; each line shows what its style says. -/
def window (ks : List Kind) (d range : Nat) : List Line := (List.range' d range).flatMap fun e => ks.map fun k => ⟨k, k, e⟩

def mainKinds : Bool → Bool → List Kind
  | false, _ => [.tot, .data, .indicator]
  | true, false => [.tot, .surf, .vol, .data, .indicator]
  | true, true => [.tot, .surf, .vol, .inter, .data, .indicator]

def fracKinds : Bool → List Kind
  | false => [.surf, .vol]
  | true => [.surf, .vol, .inter]

def fullKinds : Bool → Bool → List Kind
  | false, _ => [.tot]
  | true, false => [.tot, .surf, .vol]
  | true, true => [.tot, .surf, .vol, .inter]

/-- The figure shows exactly the measurements `d`, …, `d + range - 1`. -/
def Shows (f : Fig) (comp intQ : Bool) (d range : Nat) : Prop :=
  f.lines = window (mainKinds comp intQ) d range ∧ f.frac = window (fracKinds intQ) d range ∧ f.full = window (fullKinds comp intQ) d range ∧
    f.fracFull = window (fracKinds intQ) d range

/-- The last position that leaves enough measurements. -/
def lastValid (n range : Nat) : Nat → List Nat → Nat
  | d, [] => d
  | d, e :: es => lastValid n range (if e + range ≤ n then e else d) es

/-- The dates of the first and of the last measurement. -/
def dates (d range : Nat) : List Nat := if range = 1 then [d] else [d, d + range - 1]

/-! ## Lemmas -/

theorem kinds_eq (comp intQ : Bool) : plotMain comp intQ = mainKinds comp intQ ∧ animMain comp intQ = mainKinds comp intQ ∧
    plotFrac intQ = fracKinds intQ ∧ animFrac intQ = fracKinds intQ ∧ plotFull comp intQ = fullKinds comp intQ ∧
    animFull comp intQ = fullKinds comp intQ := by
  cases comp <;> cases intQ <;> exact ⟨rfl, rfl, rfl, rfl, rfl, rfl⟩

theorem write_eq (d : Nat) (k : Kind) (pre post : List Line) (x : Line) (hx : x.style = k) :
    write d (pre ++ x :: post, pre.length) k = .ok ((pre ++ [⟨k, k, d⟩]) ++ post, (pre ++ [(⟨k, k, d⟩ : Line)]).length) := by
  unfold write
  dsimp only
  rw [List.getElem?_append_right (le_refl _), Nat.sub_self, List.getElem?_cons_zero]
  dsimp only
  rw [List.set_append_right _ _ (le_refl _), Nat.sub_self, List.set_cons_zero, hx]
  simp

theorem writes_eq (d : Nat) (ks : List Kind) (pre mid post : List Line) (hm : mid.map Line.style = ks) :
    ks.foldlM (write d) (pre ++ (mid ++ post), pre.length) =
      .ok ((pre ++ ks.map fun k => ⟨k, k, d⟩) ++ post, (pre ++ ks.map fun k => (⟨k, k, d⟩ : Line)).length) := by
  induction mid generalizing ks pre with
  | nil =>
    subst hm
    simp only [List.map_nil, List.append_nil, List.nil_append, List.foldlM_nil]
    rfl
  | cons x mid ih =>
    subst hm
    rw [List.map_cons, List.foldlM_cons, List.cons_append, write_eq d x.style pre (mid ++ post) x rfl]
    refine (ih _ (pre ++ [⟨x.style, x.style, d⟩]) rfl).trans ?_
    simp only [List.map_cons, List.append_assoc, List.cons_append, List.nil_append]

theorem days_eq (ks : List Kind) (n : Nat) (range : Nat) (d : Nat) (hd : d + range ≤ n) (pre lines : List Line)
    (hl : lines.map Line.style = (List.replicate range ks).flatten) :
    (List.range' d range).foldlM (writeDay ks n) (pre ++ lines, pre.length) =
      .ok (pre ++ window ks d range, (pre ++ window ks d range).length) := by
  induction range generalizing d pre lines with
  | zero =>
    have : lines = [] := by simpa using hl
    subst this
    simp only [window, List.range'_zero, List.flatMap_nil, List.append_nil, List.foldlM_nil]
    rfl
  | succ r ih =>
    rw [List.replicate_succ, List.flatten_cons] at hl
    obtain ⟨mid, post, rfl, h1, h2⟩ := List.map_eq_append_iff.1 hl
    rw [List.range'_succ, List.foldlM_cons]
    have e : writeDay ks n (pre ++ (mid ++ post), pre.length) d =
        .ok ((pre ++ ks.map fun k => ⟨k, k, d⟩) ++ post, (pre ++ ks.map fun k => (⟨k, k, d⟩ : Line)).length) := by
      unfold writeDay
      rw [if_neg (by omega)]
      exact writes_eq d ks pre mid post h1
    rw [e]
    refine (ih (d + 1) (by omega) (pre ++ ks.map fun k => ⟨k, k, d⟩) post h2).trans ?_
    simp only [window, List.range'_succ, List.flatMap_cons, List.append_assoc]

theorem window_style (ks : List Kind) (d range : Nat) : (window ks d range).map Line.style = (List.replicate range ks).flatten := by
  induction range generalizing d with
  | zero => rfl
  | succ r ih =>
    have := ih (d + 1)
    unfold window at this ⊢
    rw [List.range'_succ, List.flatMap_cons, List.map_append, this, List.replicate_succ, List.flatten_cons, List.map_map]
    congr 1
    exact List.map_id _

theorem writeDays_eq (ks : List Kind) (n range d e : Nat) (hd : d + range ≤ n) :
    writeDays ks n d range (window ks e range) = .ok (window ks d range) := by
  unfold writeDays
  have := days_eq ks n range d hd [] (window ks e range) (window_style ks e range)
  simp only [List.nil_append, List.length_nil] at this
  rw [this]
  rfl

theorem plotDays_eq (ks : List Kind) (range : Nat) : plotDays ks range = window ks 0 range := by
  unfold plotDays window
  rw [List.range_eq_range']

theorem label_ok (n range d : Nat) (h1 : 1 ≤ range) (hd : d + range ≤ n) (old : List Nat) : newLabel n d range old = .ok (dates d range) := by
  unfold newLabel dates
  split
  · rw [if_pos (by omega)]
  · rw [if_pos (by omega), if_pos (by omega)]

theorem label_err (n range d : Nat) (h1 : 1 ≤ range) (hd : ¬ d + range ≤ n) (old : List Nat) : newLabel n d range old = .error .indexError := by
  unfold newLabel
  split
  · rw [if_neg (by omega)]
  · rw [if_pos (by omega), if_neg (by omega)]

theorem animate_ok (n range : Nat) (h1 : 1 ≤ range) (comp intQ : Bool) (f : Fig) (d e : Nat) (hf : Shows f comp intQ e range) (hd : d + range ≤ n) :
    ∃ g, animate n range comp intQ f d = .ok g ∧ Shows g comp intQ d range ∧ g.label = dates d range := by
  obtain ⟨-, k2, -, k4, -, k6⟩ := kinds_eq comp intQ
  obtain ⟨f1, f2, f3, f4⟩ := hf
  refine ⟨⟨window (mainKinds comp intQ) d range, window (fracKinds intQ) d range, window (fullKinds comp intQ) d range,
    window (fracKinds intQ) d range, dates d range⟩, ?_, ⟨rfl, rfl, rfl, rfl⟩, rfl⟩
  unfold animate
  rw [label_ok n range d h1 hd, k2, k4, k6, f1, f2, f3, f4, writeDays_eq _ n range d e hd, writeDays_eq _ n range d e hd,
    writeDays_eq _ n range d e hd]
  rfl

theorem animate_err (n range : Nat) (h1 : 1 ≤ range) (comp intQ : Bool) (f : Fig) (d : Nat) (hd : ¬ d + range ≤ n) :
    animate n range comp intQ f d = .error .indexError := by
  unfold animate
  rw [label_err n range d h1 hd]
  rfl

/-! ## Theorems -/

/-- With enough measurements the figure shows the first ones. -/
theorem C131_create_partial (n range : Nat) (h1 : 1 ≤ range) (h : range ≤ n) (comp intQ : Bool) :
    ∃ f, create n range comp intQ true = .ok f ∧ Shows f comp intQ 0 range := by
  obtain ⟨k1, -, k3, -, k5, -⟩ := kinds_eq comp intQ
  unfold create
  rw [if_neg (by decide), if_neg (by omega), k1, k3, k5]
  refine ⟨_, rfl, plotDays_eq .., plotDays_eq .., plotDays_eq .., plotDays_eq ..⟩

/-- After any sequence of positions of the slider, all lines show exactly the measurements of the last position that leaves enough of them, each
one in its style. -/
theorem C131_slider_partial (n range : Nat) (h1 : 1 ≤ range) (comp intQ : Bool) (f : Fig) (d : Nat) (hf : Shows f comp intQ d range) (ps : List Nat) :
    Shows (ps.foldl (event n range comp intQ) f) comp intQ (lastValid n range d ps) range := by
  induction ps generalizing f d with
  | nil => exact hf
  | cons p ps ih =>
    rw [List.foldl_cons, lastValid]
    refine ih _ _ ?_
    unfold event
    by_cases h : p + range ≤ n
    · obtain ⟨g, e, hg, -⟩ := animate_ok n range h1 comp intQ f p d hf h
      rw [e, if_pos h]
      exact hg
    · rw [animate_err n range h1 comp intQ f p h, if_neg h]
      exact hf

/-- After a move to a position with enough measurements these are shown, with the dates of the first and the last one. -/
theorem C131_move_partial (n range : Nat) (h1 : 1 ≤ range) (comp intQ : Bool) (ps : List Nat) (p : Nat) (hp : p + range ≤ n) :
    ∃ f, create n range comp intQ true = .ok f ∧ Shows ((ps ++ [p]).foldl (event n range comp intQ) f) comp intQ p range ∧
      ((ps ++ [p]).foldl (event n range comp intQ) f).label = dates p range := by
  obtain ⟨f, e, hf⟩ := C131_create_partial n range h1 (by omega) comp intQ
  obtain ⟨g, e2, hg, hl⟩ := animate_ok n range h1 comp intQ _ p _ (C131_slider_partial n range h1 comp intQ f 0 hf ps) hp
  refine ⟨f, e, ?_⟩
  rw [List.foldl_append, List.foldl_cons, List.foldl_nil]
  unfold event
  unfold event at e2
  rw [e2]
  exact ⟨hg, hl⟩

/-- A single measurement at a time: all positions of the slider are shown. -/
theorem C131_single (n : Nat) (comp intQ : Bool) (ps : List Nat) (p : Nat) (hp : p < n) :
    ∃ f, create n 1 comp intQ true = .ok f ∧ Shows ((ps ++ [p]).foldl (event n 1 comp intQ) f) comp intQ p 1 ∧
      ((ps ++ [p]).foldl (event n 1 comp intQ) f).label = [p] :=
  C131_move_partial n 1 (le_refl _) comp intQ ps p hp

/-- Several measurements: the last positions of the slider raise IndexError (of the label), all lines stay as they are. -/
theorem C131_end_fails (n range : Nat) (h2 : 2 ≤ range) (comp intQ : Bool) (f : Fig) (p : Nat) (hp : p < n) (he : n < p + range) :
    animate n range comp intQ f p = .error .indexError ∧ event n range comp intQ f p = f := by
  have _ := hp
  have h := animate_err n range (by omega) comp intQ f p (by omega)
  refine ⟨h, ?_⟩
  unfold event
  rw [h]

/-- `printfullt_0=False` raises UnboundLocalError. -/
theorem C131_full_fails (n range : Nat) (comp intQ : Bool) : create n range comp intQ false = .error .unboundLocalError := rfl

/-- Several measurements: before the slider is used, the label shows the first date only. -/
theorem C131_label_fails (n range : Nat) (h2 : 2 ≤ range) (h : range ≤ n) (comp intQ : Bool) :
    ∃ f, create n range comp intQ true = .ok f ∧ f.label ≠ dates 0 range := by
  unfold create
  rw [if_neg (by decide), if_neg (by omega)]
  refine ⟨_, rfl, ?_⟩
  unfold dates
  rw [if_neg (by omega)]
  intro e
  cases e

/-- Less measurements than requested raise IndexError. -/
theorem C131_short (n range : Nat) (h : n < range) (comp intQ : Bool) : create n range comp intQ true = .error .indexError := by
  unfold create
  rw [if_neg (by decide), if_pos (.inl h)]

/-- The hypotheses hold for five measurements, two at a time, after moving to the last position and back. -/
example : ∃ f, create 5 2 true true true = .ok f ∧ Shows (([4, 1] ++ [3]).foldl (event 5 2 true true) f) true true 3 2 ∧
    (([4, 1] ++ [3]).foldl (event 5 2 true true) f).label = dates 3 2 := C131_move_partial 5 2 (by decide) true true [4, 1] 3 (by decide)

example (f : Fig) : event 5 2 true false f 4 = f := (C131_end_fails 5 2 (by decide) true false f 4 (by decide) (by decide)).2

/-- Five measurements, two at a time: the last position (4) is ignored. -/
example : lastValid 5 2 0 [3, 4] = 3 ∧ dates 3 2 = [3, 4] ∧ (window (mainKinds true true) 3 2).length = 12 := by decide

end RT1.SigSlider
