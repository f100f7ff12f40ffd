import Verif.Model.ModelDef
import Mathlib.Tactic.Linarith

/-!
# C117: the text that describes a model contains its definition

The specification is a reader: it recovers the sections of the text (without knowledge of the widths of the columns), and each section is
compared with the definition.
-/

namespace RT1
namespace ModelDef

/-! ## Reading the text -/

/-- A text without blanks at its ends, separators of columns and line-breaks. -/
def Plain (s : Str) : Prop := s.head? ≠ some ' ' ∧ s.getLast? ≠ some ' ' ∧ '|' ∉ s ∧ '\n' ∉ s

/-- A text that can be used as a name. -/
def Name (s : Str) : Prop := Plain s ∧ '=' ∉ s ∧ ':' ∉ s

/-- A name and a value that are separated by a character; none for blank texts. -/
def keyVal (c : Char) (s : Str) : Option (Str × Str) :=
  if ∀ x ∈ s, x = ' ' then none
  else some (strip (s.takeWhile (· ≠ c)), strip ((s.dropWhile (· ≠ c)).drop 1))

def afterFitted (ls : List Str) : List Str := (ls.dropWhile (· ≠ fittedTitle)).drop 2

/-- The columns of the table of fitted parameters. -/
def readFitted (ls : List Str) : List (List Str) :=
  ((afterFitted ls).takeWhile (· ≠ [])).map fun l => ((l.splitOn '|').map strip).dropLast

def afterFixed (ls : List Str) : List Str := (((afterFitted ls).dropWhile (· ≠ [])).dropWhile (· ≠ fixedTitle)).drop 1

def fixedBody (ls : List Str) : List Str := (afterFixed ls).takeWhile (· ≠ dashes 77)

/-- The left column of the table of fixed and auxiliary parameters. -/
def readFixed (ls : List Str) : List (Str × Str) := (fixedBody ls).filterMap fun l => keyVal '=' ((l.splitOn '|').headD [])

/-- The right column of the table. -/
def readAux (ls : List Str) : List Str := (fixedBody ls).filterMap fun l => ((l.splitOn '|')[1]?).map strip

/-- The rest of the text. -/
def rest (ls : List Str) : List Str := ((afterFixed ls).dropWhile (· ≠ dashes 77)).drop 1

/-- The least-squares keywords: the column on the left, followed by the column on the right. -/
def readLsq (ls : List Str) : List (Str × Str) :=
  match rest ls with
  | [] :: t :: l =>
    if t = "# LSQ PARAMETERS ".toList then
      let body := l.takeWhile (· ≠ dashes 77)
      body.filterMap (fun s => keyVal '=' (s.take 37)) ++ body.filterMap (fun s => keyVal '=' (s.drop 37))
    else []
  | _ => []

/-- The names of V and SRF. -/
def readNames (ls : List Str) : List Str := ((ls.getD 4 []).splitOn '|').map strip

def propBody (ls : List Str) : List Str := (ls.drop 5).takeWhile fun l => l.head? = some ' '

/-- The properties of V and SRF. -/
def readV (ls : List Str) : List (Str × Str) := (propBody ls).filterMap fun l => keyVal ':' ((l.splitOn '|').headD [])

def readSRF (ls : List Str) : List (Str × Str) := (propBody ls).filterMap fun l => ((l.splitOn '|')[1]?).bind (keyVal ':')

/-- The number that is given by its digits. -/
def readNat (s : Str) : Nat := Nat.ofDigitChars 10 s 0

/-- The numbers of estimated values. -/
def readNumbers (ls : List Str) : List (Str × Nat) :=
  match (afterFitted ls).dropWhile (· ≠ []) with
  | [] :: t :: l :: _ =>
    if t = "# NUMBER OF ESIMATED VALUES ".toList then
      (l.splitOn ',').filterMap fun s => (keyVal ':' s).map fun e => (e.1, readNat e.2)
    else []
  | _ => []

/-- The number of observations. -/
def readObservations (ls : List Str) : Option Nat :=
  let l := ls.getLastD []
  if l.take 24 = "Number of observations: ".toList then some (readNat (l.drop 24)) else none

/-- The first and the last date. -/
def readDates (ls : List Str) : Str × Str :=
  let l := ls.dropLast.getLastD []
  (strip ((l.take 37).drop 12), (l.drop 37).drop 10)

/-! ## Blanks -/

theorem dropWhile_blank {s : Str} (h : ∀ x ∈ s, x = ' ') : s.dropWhile (· = ' ') = [] := by
  induction s with
  | nil => rfl
  | cons a l ih =>
    rw [List.dropWhile_cons_of_pos (by simpa using h a (by simp))]
    exact ih fun x hx => h x (List.mem_cons_of_mem _ hx)

theorem strip_append_blank (s b : Str) (h : ∀ x ∈ b, x = ' ') : strip (s ++ b) = strip s := by
  have hb := dropWhile_blank h
  have hr : b.reverse.dropWhile (· = ' ') = [] := dropWhile_blank fun x hx => h x (List.mem_reverse.mp hx)
  unfold strip
  rw [List.dropWhile_append]
  split
  · rename_i e
    rw [hb]
    have : List.dropWhile (fun x => decide (x = ' ')) s = [] := by simpa using e
    rw [this]
  · rw [List.reverse_append, List.dropWhile_append, hr]; simp

theorem strip_blank_append (b s : Str) (h : ∀ x ∈ b, x = ' ') : strip (b ++ s) = strip s := by
  unfold strip
  rw [List.dropWhile_append, dropWhile_blank h]; simp

theorem strip_ljust (n : Nat) (s : Str) : strip (ljust n s) = strip s :=
  strip_append_blank _ _ fun _ hx => (List.mem_replicate.mp hx).2

theorem strip_cons (s : Str) : strip (' ' :: s) = strip s := strip_blank_append [' '] s (by simp)

theorem strip_plain {s : Str} (h : Plain s) : strip s = s := by
  obtain ⟨h1, h2, -, -⟩ := h
  unfold strip
  have e1 : s.dropWhile (· = ' ') = s := by
    cases s with
    | nil => rfl
    | cons a l => rw [List.dropWhile_cons_of_neg]; intro e; apply h1; simpa using e
  rw [e1]
  have e2 : s.reverse.dropWhile (· = ' ') = s.reverse := by
    cases hr : s.reverse with
    | nil => rfl
    | cons a l =>
      rw [List.dropWhile_cons_of_neg]
      intro e; apply h2
      rw [List.getLast?_eq_head?_reverse, hr]; simpa using e
  rw [e2, List.reverse_reverse]

theorem mem_ljust {n : Nat} {s : Str} {x : Char} (h : x ∈ ljust n s) : x ∈ s ∨ x = ' ' := by
  rcases List.mem_append.mp h with h | h
  · exact .inl h
  · exact .inr (List.mem_replicate.mp h).2

theorem mem_strip {s : Str} {x : Char} (h : x ∈ strip s) : x ∈ s :=
  (List.dropWhile_sublist _).mem (List.mem_reverse.mp ((List.dropWhile_sublist _).mem (List.mem_reverse.mp h)))

theorem mem_of_mem_splitOn {c x : Char} {s p : Str} (hp : p ∈ s.splitOn c) (hx : x ∈ p) : x ∈ s := by
  have := List.intercalate_splitOn (xs := s) c
  rw [← this]
  generalize s.splitOn c = l at hp
  clear this
  induction l with
  | nil => cases hp
  | cons a l ih =>
    cases l with
    | nil =>
      rcases List.mem_singleton.mp hp with rfl
      simpa using hx
    | cons b l =>
      rw [List.intercalate_cons_cons]
      rcases List.mem_cons.mp hp with rfl | hp
      · simp [hx]
      · have := ih hp
        simp only [List.mem_append]; exact .inr this

theorem mem_intercalate {sep : Str} {l : List Str} {x : Char} (h : x ∈ sep.intercalate l) : x ∈ sep ∨ ∃ p ∈ l, x ∈ p := by
  induction l with
  | nil => simp at h
  | cons a l ih =>
    cases l with
    | nil => exact .inr ⟨a, by simp, by simpa using h⟩
    | cons b l =>
      rw [List.intercalate_cons_cons] at h
      simp only [List.mem_append] at h
      rcases h with (h | h) | h
      · exact .inr ⟨a, by simp, h⟩
      · exact .inl h
      · rcases ih h with h | ⟨p, hp, hx⟩
        · exact .inl h
        · exact .inr ⟨p, List.mem_cons_of_mem _ hp, hx⟩

theorem keyVal_eq {c : Char} {a b : Str} (hc : c ≠ ' ') (h : c ∉ a) : keyVal c (a ++ c :: b) = some (strip a, strip b) := by
  unfold keyVal
  rw [if_neg (fun e => hc (e c (by simp)))]
  have hp : ∀ x ∈ a, decide (x ≠ c) = true := fun x hx => by simpa using fun e : x = c => h (e ▸ hx)
  have e1 : (a ++ c :: b).takeWhile (· ≠ c) = a := by
    rw [List.takeWhile_append_of_pos hp]; simp
  have e2 : (a ++ c :: b).dropWhile (· ≠ c) = c :: b := by
    rw [List.dropWhile_append_of_pos hp]; simp
  rw [e1, e2]; rfl

theorem keyVal_blank {c : Char} {a : Str} (h : ∀ x ∈ a, x = ' ') : keyVal c a = none := if_pos h

/-! ## The rows -/

/-- The text for the variability: the parts of the frequency, or a dash. -/
def freqText : Option Str → Str
  | some s => strip ([' ', '&', ' '].intercalate ((s.splitOn '+').map strip))
  | none => ['-']

/-- `s` is the text for a value. -/
def Shown (F : Fmt) (p : Nat) (v : Val) (s : Str) : Prop := format F p v = .ok s ∧ Plain s

theorem variability_spec (o : Option Str) (h : ∀ s ∈ o, Plain s) :
    strip (variability o) = freqText o ∧ '|' ∉ variability o ∧ '\n' ∉ variability o := by
  cases o with
  | none => exact ⟨by decide, by decide, by decide⟩
  | some s =>
    have hs := h s rfl
    have key : ∀ c : Char, c ≠ ' ' → c ≠ '&' → c ∉ s → c ∉ variability (some s) := by
      intro c h1 h2 h3 h4
      rcases mem_ljust h4 with h4 | h4
      · rcases mem_intercalate h4 with h4 | ⟨p, hp, hx⟩
        · rcases List.mem_cons.mp h4 with e | h4
          · exact h1 e
          rcases List.mem_cons.mp h4 with e | h4
          · exact h2 e
          · exact h1 (List.mem_singleton.mp h4)
        · obtain ⟨q, hq, rfl⟩ := List.mem_map.mp hp
          exact h3 (mem_of_mem_splitOn hq (mem_strip hx))
      · exact h1 h4
    exact ⟨strip_ljust _ _, key _ (by decide) (by decide) hs.2.2.1, key _ (by decide) (by decide) hs.2.2.2⟩

theorem not_mem_ljust {n : Nat} {s : Str} {x : Char} (h : x ∉ s) (hx : x ≠ ' ') : x ∉ ljust n s :=
  fun e => (mem_ljust e).elim h hx

theorem strip_cell {n : Nat} {s : Str} (h : Plain s) : strip (' ' :: ljust n s) = s := by
  rw [strip_cons, strip_ljust, strip_plain h]

/-- What is said about a fitted parameter. -/
def Entry (F : Fmt) (d : Def) (e : List Str) : Prop :=
  ∃ star lo hi, Shown F 10 d.val star ∧ Shown F 5 d.lo lo ∧ Shown F 5 d.hi hi ∧ e = [d.name, star, freqText d.freq, lo ++ '-' :: hi, d.interp]

/-- The texts of a definition can be separated. -/
structure Def.Valid (F : Fmt) (d : Def) : Prop where
  name : Name d.name
  freq : ∀ s ∈ d.freq, Plain s
  interp : Plain d.interp
  str : Plain (F.str d.val)

/-- All values of a fitted parameter have a text. -/
def Def.HasText (F : Fmt) (d : Def) : Prop :=
  ∃ star lo hi, Shown F 10 d.val star ∧ Shown F 5 d.lo lo ∧ Shown F 5 d.hi hi ∧ lo ≠ [] ∧ hi ≠ []

theorem row_spec {F : Fmt} {d : Def} (hv : d.Valid F) (ht : d.HasText F) :
    ∃ r, row F d = .ok r ∧ Entry F d (((r.splitOn '|').map strip).dropLast) ∧ r ≠ [] ∧ '\n' ∉ r := by
  obtain ⟨star, lo, hi, hs, hl, hh, hl0, hh0⟩ := ht
  have hb : Plain (lo ++ '-' :: hi) := by
    obtain ⟨-, a1, a2, a3, a4⟩ := hl
    obtain ⟨-, b1, b2, b3, b4⟩ := hh
    refine ⟨?_, ?_, ?_, ?_⟩
    · cases lo with
      | nil => exact absurd rfl hl0
      | cons x l => simpa using a1
    · rw [List.getLast?_append, List.getLast?_cons]
      cases e : hi.getLast? with
      | none => exact absurd (List.getLast?_eq_none_iff.mp e) hh0
      | some c => rw [e] at b2; simpa using b2
    · simp [a3, b3]
    · simp [a4, b4]
  obtain ⟨v1, v2, v3⟩ := variability_spec d.freq hv.freq
  have hn := hv.name.1
  refine ⟨' ' :: ljust 13 d.name ++ ['|', ' '] ++ ljust 13 star ++ ['|', ' '] ++ variability d.freq ++ ['|', ' ']
    ++ ljust 13 (lo ++ '-' :: hi) ++ ['|', ' '] ++ ljust 14 d.interp ++ ['|'], ?_, ⟨star, lo, hi, hs, hl, hh, ?_⟩, ?_, ?_⟩
  · unfold row; rw [hs.1, hl.1, hh.1]; rfl
  · have e : ' ' :: ljust 13 d.name ++ ['|', ' '] ++ ljust 13 star ++ ['|', ' '] ++ variability d.freq ++ ['|', ' ']
        ++ ljust 13 (lo ++ '-' :: hi) ++ ['|', ' '] ++ ljust 14 d.interp ++ ['|']
        = ['|'].intercalate [' ' :: ljust 13 d.name, ' ' :: ljust 13 star, ' ' :: variability d.freq, ' ' :: ljust 13 (lo ++ '-' :: hi),
          ' ' :: ljust 14 d.interp, []] := by
      simp [List.intercalate_cons_cons]
    rw [e, List.splitOn_intercalate]
    · simp [strip_cell hn, strip_cell hs.2, strip_cell hb, strip_cell hv.interp, strip_cons, v1]
    · intro l hl
      simp only [List.mem_cons, List.not_mem_nil, or_false] at hl
      rcases hl with rfl | rfl | rfl | rfl | rfl | rfl
      · simpa using not_mem_ljust hn.2.2.1 (by decide)
      · simpa using not_mem_ljust hs.2.2.2.1 (by decide)
      · simpa using v2
      · simpa using not_mem_ljust hb.2.2.1 (by decide)
      · simpa using not_mem_ljust hv.interp.2.2.1 (by decide)
      · simp
    · simp
  · simp
  · simp only [List.mem_append, List.mem_cons, List.not_mem_nil, or_false, not_or]
    have nl := fun {n s} (h : Plain s) => not_mem_ljust (n := n) h.2.2.2 (x := '\n') (by decide)
    exact ⟨⟨⟨⟨⟨⟨⟨⟨⟨⟨by decide, nl hn⟩, by decide⟩, nl hs.2⟩, by decide⟩, v3⟩, by decide⟩, nl hb⟩, by decide⟩, nl hv.interp⟩, by decide⟩

/-! ## The loop over the definitions -/

def isFixed (d : Def) : Bool :=
  match d.fitQ, d.val with
  | some false, .float _ => true
  | some false, .int _ => true
  | _, _ => false

def isAux (d : Def) : Bool := d.fitQ = some false ∧ d.val = .str "auxiliary".toList

def isFitted (d : Def) : Bool := d.fitQ = some true

theorem addFixed_spec (F : Fmt) (a : Acc) (d : Def) (h : d.fitQ = some false) :
    addFixed F a d = ⟨a.fitted, a.aux ++ ([d].filter isAux).map auxText, a.fixed ++ ([d].filter isFixed).map (fixedText F)⟩ := by
  unfold addFixed
  cases hv : d.val with
  | str s =>
    by_cases e : s = "auxiliary".toList
    · subst e
      simp [isAux, isFixed, h, hv]
    · have e' : ¬ s = ['a', 'u', 'x', 'i', 'l', 'i', 'a', 'r', 'y'] := e
      simp [isAux, isFixed, h, hv, e']
  | float x => simp [isAux, isFixed, h, hv]
  | int x => simp [isAux, isFixed, h, hv]
  | npFloat x => simp [isAux, isFixed, h, hv]
  | none => simp [isAux, isFixed, h, hv]

theorem steps_spec (F : Fmt) (defs : List Def) (h : ∀ d ∈ defs, d.fitQ = some true → ∃ r, row F d = .ok r) (a : Acc) :
    ∃ rows, List.Forall₂ (fun d r => row F d = .ok r) (defs.filter isFitted) rows ∧
      defs.foldlM (step F) a = .ok ⟨a.fitted ++ rows, a.aux ++ (defs.filter isAux).map auxText,
        a.fixed ++ (defs.filter isFixed).map (fixedText F)⟩ := by
  induction defs generalizing a with
  | nil => exact ⟨[], .nil, by simp [pure, Except.pure]⟩
  | cons d l ih =>
    have ih' := ih fun d hd => h d (List.mem_cons_of_mem _ hd)
    rw [List.foldlM_cons]
    rcases hq : d.fitQ with _ | _ | _
    · have e : step F a d = .ok a := by unfold step; rw [hq]
      obtain ⟨rows, h1, h2⟩ := ih' a
      refine ⟨rows, ?_, ?_⟩
      · simpa [isFitted, hq] using h1
      · rw [e]; show l.foldlM (step F) a = _
        rw [h2]; simp [isAux, isFixed, hq]
    · have e : step F a d = .ok (addFixed F a d) := by unfold step; rw [hq]
      obtain ⟨rows, h1, h2⟩ := ih' (addFixed F a d)
      refine ⟨rows, ?_, ?_⟩
      · simpa [isFitted, hq] using h1
      · rw [e]; show l.foldlM (step F) (addFixed F a d) = _
        rw [h2, addFixed_spec F a d hq]
        have hc : ∀ p, (d :: l).filter p = [d].filter p ++ l.filter p := fun p => by
          rw [← List.filter_append]; rfl
        rw [hc isAux, hc isFixed]
        simp [List.map_append, List.append_assoc]
    · obtain ⟨r, hr⟩ := h d (by simp) hq
      have e : step F a d = .ok { a with fitted := a.fitted ++ [r] } := by unfold step; rw [hq]; dsimp only; rw [hr]
      obtain ⟨rows, h1, h2⟩ := ih' { a with fitted := a.fitted ++ [r] }
      refine ⟨r :: rows, ?_, ?_⟩
      · rw [List.filter_cons_of_pos (by simp [isFitted, hq])]; exact .cons hr h1
      · rw [e]; show l.foldlM (step F) _ = _
        rw [h2]; simp [isAux, isFixed, hq]

/-! ## The structure of the text -/

/-- The lines in front of the table of fitted parameters. -/
def front (F : Fmt) (f : Fit) : List Str :=
  [firstLine F f, dashes 77, "# SCATTERING FUNCTIONS ".toList, ljust 37 " VOLUME:".toList ++ '|' :: " SURFACE:".toList,
      ljust 37 (' ' :: f.vname) ++ '|' :: ' ' :: f.srfname]
    ++ propLines f.props ++ ["# Interaction-contribution?        ".toList ++ f.intQ, []]

theorem lines_eq {F : Fmt} {f : Fit} {a : Acc} (h : f.defs.foldlM (step F) ⟨[], [], []⟩ = .ok a) :
    lines F f = .ok (front F f ++ fittedTitle :: fittedHeader :: (a.fitted ++ [] :: (numberLines f.data
      ++ fixedTitle :: (fixedLines a.fixed a.aux ++ dashes 77 :: (lsqLines f.lsq ++ dataLines F f.data))))) := by
  unfold lines
  rw [h]
  show Except.ok _ = Except.ok _
  congr 1
  simp only [front, List.append_assoc, List.cons_append, List.nil_append]

theorem dropWhile_to {α : Type} [DecidableEq α] {l : List α} {x : α} {r : List α} (h : x ∉ l) :
    (l ++ x :: r).dropWhile (· ≠ x) = x :: r := by
  rw [List.dropWhile_append_of_pos (fun y hy => by simpa using fun e : y = x => h (e ▸ hy))]; simp

theorem takeWhile_to {α : Type} [DecidableEq α] {l : List α} {x : α} {r : List α} (h : x ∉ l) :
    (l ++ x :: r).takeWhile (· ≠ x) = l := by
  rw [List.takeWhile_append_of_pos (fun y hy => by simpa using fun e : y = x => h (e ▸ hy))]; simp

theorem head_ljust {n : Nat} {s : Str} {r : Str} (h : s.head? = some ' ' ∨ s = []) (hn : 0 < n) :
    (ljust n s ++ r).head? = some ' ' := by
  unfold ljust
  rcases h with h | rfl
  · cases s with
    | nil => simp at h
    | cons a l => simpa using h
  · cases n with
    | zero => omega
    | succ n => simp [List.replicate_succ]

theorem propText_head (l : List (Str × Str)) (i : Nat) : (propText l i).head? = some ' ' := by
  unfold propText; split <;> simp [List.replicate_succ]

theorem propLines_head {p : Option (List (Str × Str) × List (Str × Str))} {l : Str} (h : l ∈ propLines p) : l.head? = some ' ' ∨ l = [] := by
  rcases p with _ | ⟨v, s⟩
  · cases h
  · rcases List.mem_append.mp h with h | h
    · obtain ⟨i, -, rfl⟩ := List.mem_map.mp h
      exact .inl (head_ljust (.inl (propText_head _ _)) (by decide))
    · exact .inr (List.mem_singleton.mp h)

theorem firstLine_head (F : Fmt) (f : Fit) : (firstLine F f).head? = some 'u' ∨ (firstLine F f).head? = some 'R' := by
  unfold firstLine
  cases f.version <;> simp [ljust]

theorem title_not_mem (F : Fmt) (f : Fit) : fittedTitle ∉ front F f := by
  have ht : fittedTitle.head? = some '-' := by decide
  intro h
  have key : ∀ l : Str, l.head? ≠ some '-' → fittedTitle ≠ l := fun l hl e => hl (e ▸ ht)
  unfold front at h
  simp only [List.mem_append, List.mem_cons, List.not_mem_nil, or_false] at h
  rcases h with (((h | h | h | h | h) | h) | h | h)
  · exact key _ (by rcases firstLine_head F f with e | e <;> rw [e] <;> decide) h
  · exact absurd h (by decide)
  · exact key _ (by decide) h
  · exact key _ (by decide) h
  · exact key _ (by rw [head_ljust (.inl rfl) (by decide)]; decide) h
  · exact key _ (by rcases propLines_head h with e | e <;> [rw [e]; simp [e]]; decide) rfl
  · exact key _ (by simp) h
  · exact key _ (by simp) h

theorem fixedTitle_not_mem (d : Option Data) : fixedTitle ∉ numberLines d := by
  intro h
  rcases d with _ | D
  · cases h
  · unfold numberLines at h
    dsimp only at h
    split at h
    · cases h
    · rename_i hne
      simp only [List.mem_cons, List.not_mem_nil, or_false] at h
      rcases h with h | h | h
      · exact absurd h (by decide)
      · have hc : ':' ∈ [',', ' ', ' ', ' '].intercalate ((numbers D).map fun e => e.1 ++ [':', ' '] ++ natStr e.2) := by
          unfold numbers
          cases hd : D.dyn with
          | nil => exact absurd hd hne
          | cons e l =>
            cases l with
            | nil => simp
            | cons e' l => simp [List.intercalate_cons_cons]
        rw [← h] at hc
        exact absurd hc (by decide)
      · exact absurd h (by decide)

theorem dashes_not_mem (F : Fmt) (l : List Def) (aux : List Str) : dashes 77 ∉ fixedLines (l.map (fixedText F)) aux := by
  intro h
  obtain ⟨i, -, e⟩ := List.mem_map.mp h
  have : (dashes 77).head? = some ' ' := by
    rw [← e]
    refine head_ljust ?_ (by decide)
    rw [List.getD_eq_getElem?_getD]
    cases hi : (l.map (fixedText F))[i]? with
    | none => exact .inr rfl
    | some s =>
      obtain ⟨d, -, rfl⟩ := List.mem_map.mp (List.mem_of_getElem? hi)
      exact .inl rfl
  exact absurd this (by decide)

/-- The sections of the text. -/
theorem sections {F : Fmt} {f : Fit} {rows : List Str} {ls : List Str} (hr : [] ∉ rows)
    (h : ls = front F f ++ fittedTitle :: fittedHeader :: (rows ++ [] :: (numberLines f.data
      ++ fixedTitle :: (fixedLines ((f.defs.filter isFixed).map (fixedText F)) ((f.defs.filter isAux).map auxText)
        ++ dashes 77 :: (lsqLines f.lsq ++ dataLines F f.data))))) :
    (afterFitted ls).takeWhile (· ≠ []) = rows ∧
    (afterFitted ls).dropWhile (· ≠ []) = [] :: (numberLines f.data
      ++ fixedTitle :: (fixedLines ((f.defs.filter isFixed).map (fixedText F)) ((f.defs.filter isAux).map auxText)
        ++ dashes 77 :: (lsqLines f.lsq ++ dataLines F f.data))) ∧
    fixedBody ls = fixedLines ((f.defs.filter isFixed).map (fixedText F)) ((f.defs.filter isAux).map auxText) ∧
    rest ls = lsqLines f.lsq ++ dataLines F f.data := by
  have e1 : afterFitted ls = rows ++ [] :: (numberLines f.data
      ++ fixedTitle :: (fixedLines ((f.defs.filter isFixed).map (fixedText F)) ((f.defs.filter isAux).map auxText)
        ++ dashes 77 :: (lsqLines f.lsq ++ dataLines F f.data))) := by
    unfold afterFitted
    rw [h, dropWhile_to (title_not_mem F f)]; rfl
  have e2 := dropWhile_to (r := numberLines f.data
      ++ fixedTitle :: (fixedLines ((f.defs.filter isFixed).map (fixedText F)) ((f.defs.filter isAux).map auxText)
        ++ dashes 77 :: (lsqLines f.lsq ++ dataLines F f.data))) hr
  have e3 : afterFixed ls = fixedLines ((f.defs.filter isFixed).map (fixedText F)) ((f.defs.filter isAux).map auxText)
        ++ dashes 77 :: (lsqLines f.lsq ++ dataLines F f.data) := by
    unfold afterFixed
    rw [e1, e2]
    have : fixedTitle ∉ [] :: numberLines f.data := by
      intro h
      rcases List.mem_cons.mp h with h | h
      · exact absurd h (by decide)
      · exact fixedTitle_not_mem _ h
    rw [← List.cons_append, dropWhile_to this]; rfl
  refine ⟨by rw [e1, takeWhile_to hr], by rw [e1, e2], ?_, ?_⟩
  · unfold fixedBody; rw [e3, takeWhile_to (dashes_not_mem F _ _)]
  · unfold rest; rw [e3, dropWhile_to (dashes_not_mem F _ _)]; rfl

/-! ## The tables -/

/-- The texts of a fit can be separated. -/
structure Fit.Valid (F : Fmt) (f : Fit) : Prop where
  defs : ∀ d ∈ f.defs, d.Valid F
  vname : Plain f.vname
  srfname : Plain f.srfname
  props : ∀ p ∈ f.props, ∀ e ∈ p.1 ++ p.2, Name e.1 ∧ Plain e.2
  lsq : ∀ e ∈ f.lsq, Name e.1 ∧ Plain e.2
  dyn : ∀ D ∈ f.data, ∀ e ∈ D.dyn, Name e.1 ∧ ',' ∉ e.1
  version : '\n' ∉ firstLine F f
  intQ : '\n' ∉ f.intQ
  date : ∀ x, '\n' ∉ F.date x

theorem range_filterMap {α β : Type} (l : List α) (g : α → Option β) (n : Nat) (h : l.length ≤ n) :
    (List.range n).filterMap (fun i => (l[i]?).bind g) = l.filterMap g := by
  induction l generalizing n with
  | nil => simp
  | cons a l ih =>
    cases n with
    | zero => simp at h
    | succ n =>
      rw [List.range_succ_eq_map, List.filterMap_cons, List.filterMap_map]
      have e := ih n (by simpa using h)
      have e' : (List.range n).filterMap ((fun i => ((a :: l)[i]?).bind g) ∘ Nat.succ) = l.filterMap g := by
        rw [← e]; congr 1
      rw [e', List.filterMap_cons]
      simp

theorem blank_replicate (n : Nat) : ∀ x ∈ List.replicate n ' ', x = ' ' := fun _ hx => (List.mem_replicate.mp hx).2

theorem keyVal_append_blank {c : Char} {s b : Str} (hc : c ∈ s ∨ ∀ x ∈ s, x = ' ') (hb : ∀ x ∈ b, x = ' ') (hcb : c ≠ ' ') :
    keyVal c (s ++ b) = keyVal c s := by
  rcases hc with hc | hc
  · obtain ⟨u, v, rfl, hu⟩ := List.eq_append_cons_of_mem hc
    rw [List.append_assoc, List.cons_append, keyVal_eq hcb hu, keyVal_eq hcb hu, strip_append_blank _ _ hb]
  · rw [keyVal_blank hc, keyVal_blank]
    intro x hx
    rcases List.mem_append.mp hx with hx | hx
    · exact hc x hx
    · exact hb x hx

theorem keyVal_fixed {F : Fmt} {d : Def} (h : d.Valid F) : keyVal '=' (fixedText F d) = some (d.name, F.str d.val) := by
  have e : fixedText F d = (' ' :: ljust 13 d.name) ++ '=' :: (' ' :: F.str d.val) := by simp [fixedText]
  rw [e, keyVal_eq (by decide), strip_cons, strip_ljust, strip_cons, strip_plain h.name.1, strip_plain h.str]
  simpa using not_mem_ljust h.name.2.1 (by decide)

/-- The columns of a row of the table of fixed and auxiliary parameters. -/
theorem fixedLine_spec {F : Fmt} {fx ax : List Def} (hf : ∀ d ∈ fx, d.Valid F) (ha : ∀ d ∈ ax, d.Valid F) (i : Nat) (l : Str)
    (hl : l = ljust 37 ((fx.map (fixedText F)).getD i []) ++ ljust 38 ((ax.map auxText).getD i [])) :
    keyVal '=' ((l.splitOn '|').headD []) = (fx[i]?).bind (fun d => some (d.name, F.str d.val)) ∧
    ((l.splitOn '|')[1]?).map strip = (ax[i]?).bind (fun d => some d.name) ∧ '\n' ∉ l := by
  -- the left column
  have hA : ∃ A, A = ljust 37 ((fx.map (fixedText F)).getD i []) ∧ '|' ∉ A ∧ '\n' ∉ A ∧ ('=' ∈ A ∨ ∀ x ∈ A, x = ' ') ∧
      keyVal '=' A = (fx[i]?).bind (fun d => some (d.name, F.str d.val)) := by
    refine ⟨_, rfl, ?_⟩
    rw [List.getD_eq_getElem?_getD, List.getElem?_map]
    cases hi : fx[i]? with
    | none =>
      refine ⟨not_mem_ljust (by simp) (by decide), not_mem_ljust (by simp) (by decide), .inr (fun x hx => ?_), ?_⟩
      · exact (mem_ljust hx).elim (fun h => (List.not_mem_nil h).elim) id
      · exact keyVal_blank fun x hx => (mem_ljust hx).elim (fun h => (List.not_mem_nil h).elim) id
    | some d =>
      have hd := hf d (List.mem_of_getElem? hi)
      have hc : ∀ c : Char, c ≠ ' ' → c ≠ '=' → c ∉ d.name → c ∉ F.str d.val → c ∉ fixedText F d := by
        intro c h1 h2 h3 h4 h5
        simp only [fixedText, List.mem_append, List.mem_cons, List.not_mem_nil, or_false] at h5
        rcases h5 with (((h5 | h5) | h5 | h5) | h5)
        · exact h1 h5
        · exact not_mem_ljust h3 h1 h5
        · exact h2 h5
        · exact h1 h5
        · exact h4 h5
      refine ⟨?_, ?_, ?_, ?_⟩
      · exact not_mem_ljust (hc _ (by decide) (by decide) hd.name.1.2.2.1 hd.str.2.2.1) (by decide)
      · exact not_mem_ljust (hc _ (by decide) (by decide) hd.name.1.2.2.2 hd.str.2.2.2) (by decide)
      · exact .inl (List.mem_append_left _ (by simp [fixedText]))
      · show keyVal '=' (fixedText F d ++ _) = _
        rw [keyVal_append_blank (.inl (by simp [fixedText])) (blank_replicate _) (by decide), keyVal_fixed hd]; rfl
  obtain ⟨A, eA, a1, a2, a3, a4⟩ := hA
  rw [← eA] at hl
  cases hi : ax[i]? with
  | none =>
    have eB : (ax.map auxText).getD i [] = [] := by rw [List.getD_eq_getElem?_getD, List.getElem?_map, hi]; rfl
    rw [eB] at hl
    have hb : ∀ x ∈ ljust 38 [], x = ' ' := fun x hx => (mem_ljust hx).elim (fun h => (List.not_mem_nil h).elim) id
    have hn : ∀ c : Char, c ≠ ' ' → c ∉ A → c ∉ l := by
      intro c h1 h2 h3
      rw [hl] at h3
      rcases List.mem_append.mp h3 with h3 | h3
      · exact h2 h3
      · exact h1 (hb c h3)
    rw [List.splitOn_eq_singleton (hn '|' (by decide) a1)]
    refine ⟨?_, rfl, hn _ (by decide) a2⟩
    show keyVal '=' l = _
    rw [hl, keyVal_append_blank a3 hb (by decide), a4]
  | some d =>
    have hd := ha d (List.mem_of_getElem? hi)
    have eB : (ax.map auxText).getD i [] = auxText d := by rw [List.getD_eq_getElem?_getD, List.getElem?_map, hi]; rfl
    rw [eB] at hl
    have e : l = A ++ '|' :: (' ' :: d.name ++ List.replicate (38 - (auxText d).length) ' ') := by
      rw [hl]; simp [ljust, auxText]
    have hm : ∀ c : Char, c ≠ ' ' → c ∉ d.name → c ∉ (' ' :: d.name ++ List.replicate (38 - (auxText d).length) ' ') := by
      intro c h1 h2 h3
      simp only [List.cons_append, List.mem_cons, List.mem_append] at h3
      rcases h3 with h3 | h3 | h3
      · exact h1 h3
      · exact h2 h3
      · exact h1 (blank_replicate _ _ h3)
    rw [e, List.splitOn_append_cons_self_of_not_mem a1, List.splitOn_eq_singleton (hm _ (by decide) hd.name.1.2.2.1)]
    refine ⟨a4, ?_, ?_⟩
    · show some (strip _) = some d.name
      rw [strip_append_blank _ _ (blank_replicate _), strip_cons, strip_plain hd.name.1]
    · intro h
      rcases List.mem_append.mp h with h | h
      · exact a2 h
      · rcases List.mem_cons.mp h with h | h
        · exact absurd h (by decide)
        · exact hm _ (by decide) hd.name.1.2.2.2 h

theorem fixedLines_spec {F : Fmt} {fx ax : List Def} (hf : ∀ d ∈ fx, d.Valid F) (ha : ∀ d ∈ ax, d.Valid F) :
    (fixedLines (fx.map (fixedText F)) (ax.map auxText)).filterMap (fun l => keyVal '=' ((l.splitOn '|').headD []))
      = fx.map (fun d => (d.name, F.str d.val)) ∧
    (fixedLines (fx.map (fixedText F)) (ax.map auxText)).filterMap (fun l => ((l.splitOn '|')[1]?).map strip) = ax.map Def.name ∧
    ∀ l ∈ fixedLines (fx.map (fixedText F)) (ax.map auxText), '\n' ∉ l := by
  unfold fixedLines
  refine ⟨?_, ?_, ?_⟩
  · rw [List.filterMap_map]
    have := range_filterMap fx (fun d => some (d.name, F.str d.val)) (max (ax.map auxText).length (fx.map (fixedText F)).length) (by simp)
    rw [List.filterMap_eq_map'] at this
    rw [← this]
    congr 1; funext i
    exact (fixedLine_spec hf ha i _ rfl).1
  · rw [List.filterMap_map]
    have := range_filterMap ax (fun d => some d.name) (max (ax.map auxText).length (fx.map (fixedText F)).length) (by simp)
    rw [List.filterMap_eq_map'] at this
    have e : ax.map Def.name = ax.map (fun d => d.name) := rfl
    rw [e, ← this]
    congr 1; funext i
    exact (fixedLine_spec hf ha i _ rfl).2.1
  · intro l hl
    obtain ⟨i, -, rfl⟩ := List.mem_map.mp hl
    exact (fixedLine_spec hf ha i _ rfl).2.2

theorem propText_spec {l : List (Str × Str)} (h : ∀ e ∈ l, Name e.1 ∧ Plain e.2) (i : Nat) :
    '|' ∉ propText l i ∧ '\n' ∉ propText l i ∧ (':' ∈ propText l i ∨ ∀ x ∈ propText l i, x = ' ') ∧
    keyVal ':' (propText l i) = (l[i]?).bind some := by
  unfold propText
  cases hi : l[i]? with
  | none =>
    dsimp only
    refine ⟨by decide, by decide, .inr (by decide), keyVal_blank (by decide)⟩
  | some e =>
    obtain ⟨hn, hp⟩ := h e (List.mem_of_getElem? hi)
    dsimp only
    have hc : ∀ c : Char, c ≠ ' ' → c ≠ ':' → c ∉ e.1 → c ∉ e.2 →
        c ∉ List.replicate 5 ' ' ++ (ljust (width l) e.1 ++ [':']) ++ ' ' :: e.2 := by
      intro c h1 h2 h3 h4 h5
      simp only [List.mem_append, List.mem_cons, List.not_mem_nil, or_false] at h5
      rcases h5 with ((h5 | h5 | h5) | h5 | h5)
      · exact h1 (blank_replicate _ _ h5)
      · exact not_mem_ljust h3 h1 h5
      · exact h2 h5
      · exact h1 h5
      · exact h4 h5
    refine ⟨hc _ (by decide) (by decide) hn.1.2.2.1 hp.2.2.1, hc _ (by decide) (by decide) hn.1.2.2.2 hp.2.2.2, .inl (by simp), ?_⟩
    have e' : List.replicate 5 ' ' ++ (ljust (width l) e.1 ++ [':']) ++ ' ' :: e.2
        = (List.replicate 5 ' ' ++ ljust (width l) e.1) ++ ':' :: (' ' :: e.2) := by simp
    rw [e', keyVal_eq (by decide), strip_blank_append _ _ (blank_replicate _), strip_ljust, strip_plain hn.1, strip_cons, strip_plain hp]
    · rfl
    · intro h
      rcases List.mem_append.mp h with h | h
      · exact absurd (blank_replicate _ _ h) (by decide)
      · exact not_mem_ljust hn.2.2 (by decide) h

theorem propLine_spec {v s : List (Str × Str)} (hv : ∀ e ∈ v, Name e.1 ∧ Plain e.2) (hs : ∀ e ∈ s, Name e.1 ∧ Plain e.2) (i : Nat)
    (l : Str) (hl : l = ljust 37 (propText v i) ++ '|' :: propText s i) :
    keyVal ':' ((l.splitOn '|').headD []) = (v[i]?).bind some ∧
    ((l.splitOn '|')[1]?).bind (keyVal ':') = (s[i]?).bind some ∧ '\n' ∉ l := by
  obtain ⟨v1, v2, v3, v4⟩ := propText_spec hv i
  obtain ⟨s1, s2, -, s4⟩ := propText_spec hs i
  rw [hl, List.splitOn_append_cons_self_of_not_mem (not_mem_ljust v1 (by decide)), List.splitOn_eq_singleton s1]
  refine ⟨?_, s4, ?_⟩
  · show keyVal ':' (propText v i ++ _) = _
    rw [keyVal_append_blank v3 (blank_replicate _) (by decide), v4]
  · intro h
    rcases List.mem_append.mp h with h | h
    · exact not_mem_ljust v2 (by decide) h
    · rcases List.mem_cons.mp h with h | h
      · exact absurd h (by decide)
      · exact s2 h

/-- The properties of V and SRF, nothing if they are not given by a dict. -/
def vProps (f : Fit) : List (Str × Str) := match f.props with | none => [] | some p => p.1
def srfProps (f : Fit) : List (Str × Str) := match f.props with | none => [] | some p => p.2

theorem props_spec {F : Fmt} {f : Fit} (h : f.Valid F) (tail : List Str) (hd : Str) (hh : hd.head? = some '#') :
    ∃ body, (propLines f.props ++ hd :: tail).takeWhile (fun l => l.head? = some ' ') = body ∧
      body.filterMap (fun l => keyVal ':' ((l.splitOn '|').headD [])) = vProps f ∧
      body.filterMap (fun l => ((l.splitOn '|')[1]?).bind (keyVal ':')) = srfProps f ∧ ∀ l ∈ propLines f.props, '\n' ∉ l := by
  have hp := h.props
  unfold vProps srfProps
  rcases hpr : f.props with _ | ⟨v, s⟩
  · refine ⟨[], ?_, rfl, rfl, fun l hl => by cases hl⟩
    show (hd :: tail).takeWhile _ = []
    rw [List.takeWhile_cons_of_neg]; simp [hh]
  · have hv : ∀ e ∈ v, Name e.1 ∧ Plain e.2 := fun e he => hp (v, s) hpr e (List.mem_append_left _ he)
    have hs : ∀ e ∈ s, Name e.1 ∧ Plain e.2 := fun e he => hp (v, s) hpr e (List.mem_append_right _ he)
    refine ⟨(List.range (max v.length s.length)).map fun i => ljust 37 (propText v i) ++ '|' :: propText s i, ?_, ?_, ?_, ?_⟩
    · show ((_ ++ [[]]) ++ hd :: tail).takeWhile _ = _
      rw [List.append_assoc, List.takeWhile_append_of_pos]
      · simp
      · intro l hl
        obtain ⟨i, -, rfl⟩ := List.mem_map.mp hl
        have := head_ljust (n := 37) (r := '|' :: propText s i) (.inl (propText_head v i)) (by decide)
        exact decide_eq_true this
    · rw [List.filterMap_map]
      have := range_filterMap v some (max v.length s.length) (by simp)
      rw [List.filterMap_some] at this
      refine Eq.trans ?_ this
      congr 1; funext i
      exact (propLine_spec hv hs i _ rfl).1
    · rw [List.filterMap_map]
      have := range_filterMap s some (max v.length s.length) (by simp)
      rw [List.filterMap_some] at this
      refine Eq.trans ?_ this
      congr 1; funext i
      exact (propLine_spec hv hs i _ rfl).2.1
    · intro l hl
      rcases List.mem_append.mp hl with hl | hl
      · obtain ⟨i, -, rfl⟩ := List.mem_map.mp hl
        exact (propLine_spec hv hs i _ rfl).2.2
      · rw [List.mem_singleton.mp hl]; simp

/-! ### The least-squares keywords -/

theorem keyVal_lsq {e : Str × Str} (hn : Name e.1) (hp : Plain e.2) : keyVal '=' (lsqText e) = some e ∧ '\n' ∉ lsqText e := by
  have e' : lsqText e = (' ' :: ljust 15 e.1) ++ '=' :: (' ' :: e.2) := by simp [lsqText]
  constructor
  · rw [e', keyVal_eq (by decide), strip_cons, strip_ljust, strip_cons, strip_plain hn.1, strip_plain hp]
    simpa using not_mem_ljust hn.2.1 (by decide)
  · rw [e']
    simp only [List.mem_append, List.mem_cons, not_or]
    exact ⟨⟨by decide, not_mem_ljust hn.1.2.2.2 (by decide)⟩, by decide, by decide, hp.2.2.2⟩

/-- The rows of the least-squares keywords. -/
def lsqBody (l : List (Str × Str)) : List Str :=
  (List.zip (l.take ((l.length + 1) / 2)) (l.drop ((l.length + 1) / 2))).map (fun e => ljust 37 (lsqText e.1) ++ ' ' :: lsqText e.2)

theorem length_ljust {n : Nat} {s : Str} (h : s.length ≤ n) : (ljust n s).length = n := by
  simp [ljust]; omega

theorem lsqBody_spec {l : List (Str × Str)} (hl : ∀ e ∈ l, Name e.1 ∧ Plain e.2) (hlen : ∀ e ∈ l, (lsqText e).length ≤ 37)
    (heven : Even l.length) :
    (lsqBody l).filterMap (fun s => keyVal '=' (s.take 37)) ++ (lsqBody l).filterMap (fun s => keyVal '=' (s.drop 37)) = l := by
  have key : ∀ (a b : List (Str × Str)), a.length = b.length → (∀ e ∈ a ++ b, Name e.1 ∧ Plain e.2) →
      (∀ e ∈ a ++ b, (lsqText e).length ≤ 37) →
      ((a.zip b).map (fun e => ljust 37 (lsqText e.1) ++ ' ' :: lsqText e.2)).filterMap (fun s => keyVal '=' (s.take 37)) = a ∧
      ((a.zip b).map (fun e => ljust 37 (lsqText e.1) ++ ' ' :: lsqText e.2)).filterMap (fun s => keyVal '=' (s.drop 37)) = b := by
    intro a
    induction a with
    | nil => intro b hb _ _; cases b <;> simp_all
    | cons x a ih =>
      intro b hb h1 h2
      cases b with
      | nil => simp at hb
      | cons y b =>
        have hx := h1 x (by simp)
        have hy := h1 y (by simp)
        obtain ⟨i1, i2⟩ := ih b (by simpa using hb)
          (fun e he => h1 e (by simp only [List.mem_append, List.mem_cons] at he ⊢; tauto))
          (fun e he => h2 e (by simp only [List.mem_append, List.mem_cons] at he ⊢; tauto))
        have e1 : (ljust 37 (lsqText x) ++ ' ' :: lsqText y).take 37 = ljust 37 (lsqText x) :=
          List.take_left' (length_ljust (h2 x (by simp)))
        have e2 : (ljust 37 (lsqText x) ++ ' ' :: lsqText y).drop 37 = ' ' :: lsqText y :=
          List.drop_left' (length_ljust (h2 x (by simp)))
        constructor
        · rw [List.zip_cons_cons, List.map_cons, List.filterMap_cons, e1, i1]
          have : keyVal '=' (ljust 37 (lsqText x)) = some x := by
            show keyVal '=' (lsqText x ++ _) = _
            rw [keyVal_append_blank (.inl (by simp [lsqText])) (blank_replicate _) (by decide), (keyVal_lsq hx.1 hx.2).1]
          rw [this]
        · rw [List.zip_cons_cons, List.map_cons, List.filterMap_cons, e2, i2]
          have : keyVal '=' (' ' :: lsqText y) = some y := by
            have e' : ' ' :: lsqText y = (' ' :: ' ' :: ljust 15 y.1) ++ '=' :: (' ' :: y.2) := by simp [lsqText]
            rw [e', keyVal_eq (by decide), strip_cons, strip_cons, strip_ljust, strip_cons, strip_plain hy.1.1, strip_plain hy.2]
            simpa using not_mem_ljust hy.1.2.1 (by decide)
          rw [this]
  obtain ⟨m, hm⟩ := heven
  have hh : (l.length + 1) / 2 = m := by omega
  obtain ⟨k1, k2⟩ := key (l.take m) (l.drop m) (by simp; omega) (by rw [List.take_append_drop]; exact hl)
    (by rw [List.take_append_drop]; exact hlen)
  unfold lsqBody
  rw [hh, k1, k2, List.take_append_drop]

theorem lsqLines_eq {l : List (Str × Str)} (h : l ≠ []) : lsqLines l = [] :: "# LSQ PARAMETERS ".toList :: (lsqBody l ++ [dashes 77]) := by
  unfold lsqLines
  rw [if_neg (fun e => h (List.length_eq_zero_iff.mp e))]; rfl

theorem lsqBody_head {l : List (Str × Str)} {s : Str} (h : s ∈ lsqBody l) : s.head? = some ' ' := by
  obtain ⟨e, -, rfl⟩ := List.mem_map.mp h
  exact head_ljust (.inl rfl) (by decide)

theorem mem_lsqBody {l : List (Str × Str)} {s : Str} (h : s ∈ lsqBody l) :
    ∃ e ∈ l, ∃ e' ∈ l, s = ljust 37 (lsqText e) ++ ' ' :: lsqText e' := by
  obtain ⟨e, he, rfl⟩ := List.mem_map.mp h
  exact ⟨e.1, List.mem_of_mem_take (List.of_mem_zip he).1, e.2, List.mem_of_mem_drop (List.of_mem_zip he).2, rfl⟩

theorem lsqLines_nl {l : List (Str × Str)} (hl : ∀ e ∈ l, Name e.1 ∧ Plain e.2) : ∀ s ∈ lsqLines l, '\n' ∉ s := by
  by_cases h : l = []
  · subst h; intro s hs; cases hs
  · rw [lsqLines_eq h]
    intro s hs
    simp only [List.mem_cons, List.mem_append, List.not_mem_nil, or_false] at hs
    rcases hs with rfl | rfl | hs | rfl
    · simp
    · decide
    · obtain ⟨e, he, e', he', rfl⟩ := mem_lsqBody hs
      intro hx
      rcases List.mem_append.mp hx with hx | hx
      · exact not_mem_ljust (keyVal_lsq (hl e he).1 (hl e he).2).2 (by decide) hx
      · rcases List.mem_cons.mp hx with hx | hx
        · exact absurd hx (by decide)
        · exact (keyVal_lsq (hl e' he').1 (hl e' he').2).2 hx
    · decide

/-! ### Numbers -/

theorem digit_ne {n : Nat} {c : Char} (hc : c.isDigit = false) : c ∉ natStr n := fun h => by
  rw [Nat.isDigit_of_mem_toDigits (by decide) (by decide) h] at hc; cases hc

theorem natStr_plain (n : Nat) : Plain (natStr n) := by
  refine ⟨fun h => ?_, fun h => ?_, digit_ne (by decide), digit_ne (by decide)⟩
  · exact digit_ne (n := n) (c := ' ') (by decide) (List.mem_of_head? h)
  · exact digit_ne (n := n) (c := ' ') (by decide) (List.mem_of_getLast? h)

theorem readNat_natStr (n : Nat) : readNat (natStr n) = n := Nat.ofDigitChars_toDigits (by decide) (by decide)

theorem intercalate_blanks (a : Str) (l : List Str) :
    [',', ' ', ' ', ' '].intercalate (a :: l) = [','].intercalate (a :: l.map fun s => [' ', ' ', ' '] ++ s) := by
  induction l generalizing a with
  | nil => simp
  | cons b l ih =>
    rw [List.intercalate_cons_cons, ih b, List.map_cons, List.intercalate_cons_cons]
    cases l with
    | nil => simp
    | cons c l => simp [List.intercalate_cons_cons]

theorem numberLine_spec {l : List (Str × Nat)} (hne : l ≠ []) (h : ∀ e ∈ l, Name e.1 ∧ ',' ∉ e.1) :
    (([',', ' ', ' ', ' '].intercalate (l.map fun e => e.1 ++ [':', ' '] ++ natStr e.2)).splitOn ',').filterMap
      (fun s => (keyVal ':' s).map fun e => (e.1, readNat e.2)) = l ∧
    '\n' ∉ [',', ' ', ' ', ' '].intercalate (l.map fun e => e.1 ++ [':', ' '] ++ natStr e.2) := by
  have hitem : ∀ e ∈ l, ∀ c : Char, c ≠ ':' → c ≠ ' ' → c.isDigit = false → c ∉ e.1 → c ∉ e.1 ++ [':', ' '] ++ natStr e.2 := by
    intro e _ c h1 h2 h3 h4 h5
    simp only [List.mem_append, List.mem_cons, List.not_mem_nil, or_false] at h5
    rcases h5 with (h5 | h5 | h5) | h5
    · exact h4 h5
    · exact h1 h5
    · exact h2 h5
    · exact digit_ne h3 h5
  have hkv : ∀ e ∈ l, ∀ b : Str, (∀ x ∈ b, x = ' ') →
      ((keyVal ':' (b ++ (e.1 ++ [':', ' '] ++ natStr e.2))).map fun e => (e.1, readNat e.2)) = some e := by
    intro e he b hb
    have e' : b ++ (e.1 ++ [':', ' '] ++ natStr e.2) = (b ++ e.1) ++ ':' :: (' ' :: natStr e.2) := by simp
    rw [e', keyVal_eq (by decide), strip_blank_append _ _ hb, strip_plain (h e he).1.1, strip_cons, strip_plain (natStr_plain _)]
    · simp [readNat_natStr]
    · intro hx
      rcases List.mem_append.mp hx with hx | hx
      · exact absurd (hb _ hx) (by decide)
      · exact (h e he).1.2.2 hx
  constructor
  · cases l with
    | nil => exact absurd rfl hne
    | cons a l =>
      rw [List.map_cons, intercalate_blanks, List.splitOn_intercalate]
      · rw [List.filterMap_cons]
        have h0 := hkv a (by simp) [] (by simp)
        rw [List.nil_append] at h0
        rw [h0]
        dsimp only
        congr 1
        rw [List.map_map, List.filterMap_map]
        conv_rhs => rw [← List.filterMap_some (l := l)]
        apply List.filterMap_congr
        intro e he
        exact hkv e (List.mem_cons_of_mem _ he) [' ', ' ', ' '] (by simp)
      · intro s hs
        rcases List.mem_cons.mp hs with rfl | hs
        · exact hitem a (by simp) _ (by decide) (by decide) (by decide) (h a (by simp)).2
        · obtain ⟨t, ht, rfl⟩ := List.mem_map.mp hs
          obtain ⟨e, he, rfl⟩ := List.mem_map.mp ht
          have := hitem e (List.mem_cons_of_mem _ he) ',' (by decide) (by decide) (by decide) (h e (List.mem_cons_of_mem _ he)).2
          intro hx
          rcases List.mem_append.mp hx with hx | hx
          · exact absurd hx (by decide)
          · exact this hx
      · simp
  · intro hx
    rcases mem_intercalate hx with hx | ⟨p, hp, hx⟩
    · exact absurd hx (by decide)
    · obtain ⟨e, he, rfl⟩ := List.mem_map.mp hp
      exact hitem e he _ (by decide) (by decide) (by decide) (h e he).1.1.2.2.2 hx

theorem mem_groupVals (seen : List Nat) : ∀ (g v : List Nat), (∀ a ∈ g.zip v, ∀ b ∈ g.zip v, a.1 = b.1 → a.2 = b.2) → ∀ x,
    x ∈ groupVals seen g v ↔ ∃ a ∈ g.zip v, a.1 ∉ seen ∧ a.2 = x
  | [], v, _, x => by simp [groupVals]
  | g :: gs, [], _, x => by simp [groupVals]
  | g :: gs, v :: vs, h, x => by
    have h' : ∀ a ∈ gs.zip vs, ∀ b ∈ gs.zip vs, a.1 = b.1 → a.2 = b.2 := fun a ha b hb =>
      h a (by rw [List.zip_cons_cons]; exact List.mem_cons_of_mem _ ha) b (by rw [List.zip_cons_cons]; exact List.mem_cons_of_mem _ hb)
    rw [List.zip_cons_cons]
    unfold groupVals
    split
    · rename_i hg
      rw [mem_groupVals seen gs vs h']
      constructor
      · rintro ⟨a, ha, h1⟩; exact ⟨a, List.mem_cons_of_mem _ ha, h1⟩
      · rintro ⟨a, ha, h1, h2⟩
        rcases List.mem_cons.mp ha with rfl | ha
        · exact absurd hg h1
        · exact ⟨a, ha, h1, h2⟩
    · rename_i hg
      rw [List.mem_cons, mem_groupVals (g :: seen) gs vs h']
      constructor
      · rintro (rfl | ⟨a, ha, h1, h2⟩)
        · exact ⟨(g, x), by simp, hg, rfl⟩
        · exact ⟨a, List.mem_cons_of_mem _ ha, fun h => h1 (List.mem_cons_of_mem _ h), h2⟩
      · rintro ⟨a, ha, h1, h2⟩
        rcases List.mem_cons.mp ha with rfl | ha'
        · exact .inl h2.symm
        · by_cases e : a.1 = g
          · left
            rw [← h2]
            exact h a (by rw [List.zip_cons_cons]; exact ha) (g, v) (by rw [List.zip_cons_cons]; simp) e
          · right
            refine ⟨a, ha', fun h => ?_, h2⟩
            rcases List.mem_cons.mp h with h | h
            · exact e h
            · exact h1 h

/-! ## C117 -/

theorem numberLines_nl {F : Fmt} {f : Fit} (h : f.Valid F) : ∀ s ∈ numberLines f.data, '\n' ∉ s := by
  intro s hs
  cases hd : f.data with
  | none => rw [hd] at hs; cases hs
  | some D =>
    rw [hd] at hs
    unfold numberLines at hs
    dsimp only at hs
    split at hs
    · cases hs
    · rename_i hne
      simp only [List.mem_cons, List.not_mem_nil, or_false] at hs
      rcases hs with rfl | rfl | rfl
      · decide
      · refine (numberLine_spec (l := numbers D) (by simpa [numbers] using hne) fun e he => ?_).2
        obtain ⟨a, ha, rfl⟩ := List.mem_map.mp he
        exact h.dyn D hd a ha
      · simp

theorem dataLines_nl {F : Fmt} {f : Fit} (h : f.Valid F) : ∀ s ∈ dataLines F f.data, '\n' ∉ s := by
  intro s hs
  cases hd : f.data with
  | none => rw [hd] at hs; cases hs
  | some D =>
    rw [hd] at hs
    simp only [dataLines, List.mem_cons, List.not_mem_nil, or_false] at hs
    rcases hs with rfl | rfl | rfl | rfl
    · simp
    · decide
    · intro hx
      rcases List.mem_append.mp hx with hx | hx
      · rcases mem_ljust hx with hx | hx
        · rcases List.mem_append.mp hx with hx | hx
          · exact absurd hx (by decide)
          · exact h.date _ hx
        · exact absurd hx (by decide)
      · rcases List.mem_append.mp hx with hx | hx
        · exact absurd hx (by decide)
        · exact h.date _ hx
    · intro hx
      rcases List.mem_append.mp hx with hx | hx
      · exact absurd hx (by decide)
      · exact (natStr_plain _).2.2.2 hx

theorem front_nl {F : Fmt} {f : Fit} (h : f.Valid F) : ∀ s ∈ front F f, '\n' ∉ s := by
  intro s hs
  unfold front at hs
  simp only [List.mem_append, List.mem_cons, List.not_mem_nil, or_false] at hs
  rcases hs with (((hs | hs | hs | hs | hs) | hs) | hs | hs)
  · rw [hs]; exact h.version
  · rw [hs]; decide
  · rw [hs]; decide
  · rw [hs]; decide
  · rw [hs]
    intro hx
    rcases List.mem_append.mp hx with hx | hx
    · refine not_mem_ljust ?_ (by decide) hx
      simpa using h.vname.2.2.2
    · simp only [List.mem_cons] at hx
      rcases hx with hx | hx | hx
      · exact absurd hx (by decide)
      · exact absurd hx (by decide)
      · exact h.srfname.2.2.2 hx
  · obtain ⟨-, -, -, -, hp⟩ := props_spec h [] ['#'] rfl
    exact hp s hs
  · rw [hs]
    intro hx
    rcases List.mem_append.mp hx with hx | hx
    · exact absurd hx (by decide)
    · exact h.intQ hx
  · rw [hs]; simp

theorem forall2_right {α β : Type} {R : α → β → Prop} {a : List α} {b : List β} (h : List.Forall₂ R a b) :
    ∀ y ∈ b, ∃ x ∈ a, R x y := by
  induction h with
  | nil => intro y hy; cases hy
  | cons hr _ ih =>
    intro y hy
    rcases List.mem_cons.mp hy with rfl | hy
    · exact ⟨_, by simp, hr⟩
    · obtain ⟨x, hx, hr⟩ := ih y hy; exact ⟨x, List.mem_cons_of_mem _ hx, hr⟩

theorem forall2_map_right {α β γ : Type} {R : α → β → Prop} {S : α → γ → Prop} {g : β → γ} {a : List α} {b : List β}
    (h : List.Forall₂ R a b) (hs : ∀ x ∈ a, ∀ y, R x y → S x (g y)) : List.Forall₂ S a (b.map g) := by
  induction h with
  | nil => exact .nil
  | cons hr _ ih => exact .cons (hs _ (by simp) _ hr) (ih fun x hx y h => hs x (List.mem_cons_of_mem _ hx) y h)

/-- The text and its lines. -/
theorem text_spec {F : Fmt} {f : Fit} (h : f.Valid F) (ht : ∀ d ∈ f.defs, d.fitQ = some true → d.HasText F) :
    ∃ t rows, text F f = .ok t ∧ List.Forall₂ (fun d r => row F d = .ok r) (f.defs.filter isFitted) rows ∧ [] ∉ rows ∧
      t.splitOn '\n' = front F f ++ fittedTitle :: fittedHeader :: (rows ++ [] :: (numberLines f.data
        ++ fixedTitle :: (fixedLines ((f.defs.filter isFixed).map (fixedText F)) ((f.defs.filter isAux).map auxText)
          ++ dashes 77 :: (lsqLines f.lsq ++ dataLines F f.data)))) := by
  have hrow : ∀ d ∈ f.defs, d.fitQ = some true → ∃ r, row F d = .ok r := fun d hd hq =>
    let ⟨r, hr, _⟩ := row_spec (h.defs d hd) (ht d hd hq); ⟨r, hr⟩
  obtain ⟨rows, h1, h2⟩ := steps_spec F f.defs hrow ⟨[], [], []⟩
  have hl := lines_eq h2
  have hr : ∀ r ∈ rows, r ≠ [] ∧ '\n' ∉ r := by
    intro r hr
    obtain ⟨d, hd, hdr⟩ := forall2_right h1 r hr
    obtain ⟨hd, hq⟩ := List.mem_filter.mp hd
    obtain ⟨r', e, -, h3, h4⟩ := row_spec (h.defs d hd) (ht d hd (by simpa [isFitted] using hq))
    rw [hdr] at e
    cases e
    exact ⟨h3, h4⟩
  refine ⟨['\n'].intercalate (front F f ++ fittedTitle :: fittedHeader :: (rows ++ [] :: (numberLines f.data
        ++ fixedTitle :: (fixedLines ((f.defs.filter isFixed).map (fixedText F)) ((f.defs.filter isAux).map auxText)
          ++ dashes 77 :: (lsqLines f.lsq ++ dataLines F f.data))))), rows, ?_, h1, fun e => (hr _ e).1 rfl, ?_⟩
  · unfold text; rw [hl]; rfl
  · rw [List.splitOn_intercalate]
    · intro s hs
      simp only [List.mem_append, List.mem_cons] at hs
      rcases hs with hs | hs | hs | hs | hs | hs | hs | hs | hs | hs | hs
      · exact front_nl h s hs
      · rw [hs]; decide
      · rw [hs]; decide
      · exact (hr s hs).2
      · rw [hs]; simp
      · exact numberLines_nl h s hs
      · rw [hs]; decide
      · exact (fixedLines_spec (fun d hd => h.defs d (List.mem_filter.mp hd).1) (fun d hd => h.defs d (List.mem_filter.mp hd).1)).2.2 s hs
      · rw [hs]; decide
      · exact lsqLines_nl h.lsq s hs
      · exact dataLines_nl h s hs
    · simp [front]

/-- **C117**: the table of fitted parameters has one row for each fitted parameter, with its name, start value, variability, bounds and
interpolation (missing for the full statement: integers as start value or bounds). -/
theorem C117_fitted_partial {F : Fmt} {f : Fit} (h : f.Valid F) (ht : ∀ d ∈ f.defs, d.fitQ = some true → d.HasText F) :
    ∃ t, text F f = .ok t ∧ List.Forall₂ (Entry F) (f.defs.filter (fun d => d.fitQ = some true)) (readFitted (t.splitOn '\n')) := by
  obtain ⟨t, rows, h1, h2, h3, h4⟩ := text_spec h ht
  refine ⟨t, h1, ?_⟩
  unfold readFitted
  rw [(sections h3 h4).1]
  refine forall2_map_right h2 fun d hd r hr => ?_
  obtain ⟨hd, hq⟩ := List.mem_filter.mp hd
  obtain ⟨r', e, h5, -⟩ := row_spec (h.defs d hd) (ht d hd (by simpa [isFitted] using hq))
  rw [hr] at e
  cases e
  exact h5

/-- The first value of all definitions is a python bool, and fixed values are python numbers. -/
def Regular (f : Fit) : Prop :=
  ∀ d ∈ f.defs, d.fitQ ≠ none ∧ (d.fitQ = some false → d.val = .str "auxiliary".toList ∨ (∃ x, d.val = .float x) ∨ ∃ n, d.val = .int n)

/-- **C117**: the fixed parameters are listed with their values, and the auxiliary datasets with their names (missing for the full
statement: values that are no python numbers). -/
theorem C117_fixed_partial {F : Fmt} {f : Fit} (h : f.Valid F) (hr : Regular f)
    (ht : ∀ d ∈ f.defs, d.fitQ = some true → d.HasText F) :
    ∃ t, text F f = .ok t ∧
      readFixed (t.splitOn '\n') =
        (f.defs.filter fun d => d.fitQ = some false ∧ d.val ≠ .str "auxiliary".toList).map (fun d => (d.name, F.str d.val)) ∧
      readAux (t.splitOn '\n') = (f.defs.filter fun d => d.fitQ = some false ∧ d.val = .str "auxiliary".toList).map Def.name := by
  obtain ⟨t, rows, h1, h2, h3, h4⟩ := text_spec h ht
  obtain ⟨e1, e2, -⟩ := fixedLines_spec (F := F) (fx := f.defs.filter isFixed) (ax := f.defs.filter isAux)
    (fun d hd => h.defs d (List.mem_filter.mp hd).1) (fun d hd => h.defs d (List.mem_filter.mp hd).1)
  refine ⟨t, h1, ?_, ?_⟩
  · unfold readFixed
    rw [(sections h3 h4).2.2.1, e1]
    congr 1
    apply List.filter_congr
    intro d hd
    obtain ⟨q, hv⟩ := hr d hd
    unfold isFixed
    rcases hq : d.fitQ with _ | _ | _
    · exact absurd hq q
    · rcases hv hq with hv | ⟨x, hv⟩ | ⟨x, hv⟩ <;> simp [hv]
    · simp
  · unfold readAux
    rw [(sections h3 h4).2.2.1, e2]
    rfl

/-- **C117**: the names and the properties of V and SRF are listed. -/
theorem C117_functions {F : Fmt} {f : Fit} (h : f.Valid F) (ht : ∀ d ∈ f.defs, d.fitQ = some true → d.HasText F) :
    ∃ t, text F f = .ok t ∧ readNames (t.splitOn '\n') = [f.vname, f.srfname] ∧
      readV (t.splitOn '\n') = vProps f ∧ readSRF (t.splitOn '\n') = srfProps f := by
  obtain ⟨t, rows, h1, h2, h3, h4⟩ := text_spec h ht
  refine ⟨t, h1, ?_, ?_⟩
  · unfold readNames
    rw [h4]
    show ((ljust 37 (' ' :: f.vname) ++ '|' :: ' ' :: f.srfname).splitOn '|').map strip = _
    rw [List.splitOn_append_cons_self_of_not_mem, List.splitOn_eq_singleton]
    · simp [strip_ljust, strip_cons, strip_plain h.vname, strip_plain h.srfname]
    · simpa using h.srfname.2.2.1
    · exact not_mem_ljust (by simpa using h.vname.2.2.1) (by decide)
  · have e : ∃ tail, (t.splitOn '\n').drop 5 = propLines f.props ++ ("# Interaction-contribution?        ".toList ++ f.intQ) :: tail := by
      rw [h4]
      refine ⟨[] :: fittedTitle :: fittedHeader :: (rows ++ [] :: (numberLines f.data
        ++ fixedTitle :: (fixedLines ((f.defs.filter isFixed).map (fixedText F)) ((f.defs.filter isAux).map auxText)
          ++ dashes 77 :: (lsqLines f.lsq ++ dataLines F f.data)))), ?_⟩
      simp only [front, List.append_assoc, List.cons_append, List.nil_append, List.drop_succ_cons, List.drop_zero]
    obtain ⟨tail, e⟩ := e
    obtain ⟨body, p1, p2, p3, -⟩ := props_spec h tail ("# Interaction-contribution?        ".toList ++ f.intQ) rfl
    unfold readV readSRF propBody
    rw [e, p1]
    exact ⟨p2, p3⟩

/-- **C117**: the least-squares keywords are listed with their values (missing for the full statement: an odd number of keywords; texts
that are longer than a column). -/
theorem C117_lsq_partial {F : Fmt} {f : Fit} (h : f.Valid F) (ht : ∀ d ∈ f.defs, d.fitQ = some true → d.HasText F)
    (he : Even f.lsq.length) (hlen : ∀ e ∈ f.lsq, (lsqText e).length ≤ 37) :
    ∃ t, text F f = .ok t ∧ readLsq (t.splitOn '\n') = f.lsq := by
  obtain ⟨t, rows, h1, h2, h3, h4⟩ := text_spec h ht
  refine ⟨t, h1, ?_⟩
  unfold readLsq
  rw [(sections h3 h4).2.2.2]
  by_cases hl : f.lsq = []
  · rw [hl]
    cases f.data with
    | none => rfl
    | some D => rfl
  · rw [lsqLines_eq hl]
    have hd : dashes 77 ∉ lsqBody f.lsq := fun h => by
      have := lsqBody_head h
      exact absurd this (by decide)
    dsimp only [List.cons_append]
    rw [if_pos rfl, List.append_assoc, List.cons_append, List.nil_append, takeWhile_to hd]
    exact lsqBody_spec h.lsq hlen he

/-- **C117** is violated: with an odd number of keywords, the one in the middle is missing (the text is the same for all of its values). -/
theorem C117_lsq_fails (F : Fmt) (f : Fit) (a b : List (Str × Str)) (e e' : Str × Str) (h : a.length = b.length)
    (hf : f.lsq = a ++ e :: b) : text F f = text F { f with lsq := a ++ e' :: b } := by
  have key : ∀ x : Str × Str, lsqBody (a ++ x :: b) = (a.zip b).map (fun e => ljust 37 (lsqText e.1) ++ ' ' :: lsqText e.2) := by
    intro x
    unfold lsqBody
    have hh : ((a ++ x :: b).length + 1) / 2 = a.length + 1 := by simp; omega
    rw [hh, List.take_append, List.drop_append]
    simp only [Nat.add_sub_cancel_left, List.take_succ_cons, List.take_zero, List.drop_succ_cons, List.drop_zero,
      List.drop_eq_nil_of_le (Nat.le_succ _), List.nil_append, List.take_of_length_le (Nat.le_succ _)]
    congr 1
    rw [show b = b ++ [] by simp, List.zip_append h]; simp
  have hl : ∀ x : Str × Str, lsqLines (a ++ x :: b) = [] :: "# LSQ PARAMETERS ".toList ::
      ((a.zip b).map (fun e => ljust 37 (lsqText e.1) ++ ' ' :: lsqText e.2) ++ [dashes 77]) := fun x => by
    rw [lsqLines_eq (by simp), key]
  unfold text lines
  dsimp only
  rw [hf, hl e, hl e']
  rfl

/-- **C117**: the numbers of estimated values are the numbers of the different values of the parameters, if the dyn-numbers of the parameters
are the same for all observations of a group (C36). -/
theorem C117_numbers {F : Fmt} {f : Fit} (h : f.Valid F) (ht : ∀ d ∈ f.defs, d.fitQ = some true → d.HasText F) (D : Data)
    (hD : f.data = some D) (hg : ∀ e ∈ D.dyn, e.2.length = D.group.length ∧
      ∀ a ∈ D.group.zip e.2, ∀ b ∈ D.group.zip e.2, a.1 = b.1 → a.2 = b.2) :
    ∃ t, text F f = .ok t ∧ readNumbers (t.splitOn '\n') = D.dyn.map fun e => (e.1, e.2.toFinset.card) := by
  obtain ⟨t, rows, h1, h2, h3, h4⟩ := text_spec h ht
  have hn : numbers D = D.dyn.map fun e => (e.1, e.2.toFinset.card) := by
    unfold numbers
    apply List.map_congr_left
    intro e he
    obtain ⟨hlen, hsep⟩ := hg e he
    rw [← List.card_toFinset]
    congr 2
    ext x
    rw [List.mem_toFinset, List.mem_toFinset, mem_groupVals [] _ _ hsep]
    constructor
    · rintro ⟨a, ha, -, rfl⟩; exact (List.of_mem_zip ha).2
    · intro hx
      obtain ⟨i, hi, rfl⟩ := List.mem_iff_getElem.mp hx
      exact ⟨(D.group[i]'(hlen ▸ hi), e.2[i]), List.mem_iff_getElem.mpr ⟨i, by simp [hi, ← hlen], by simp⟩, by simp, rfl⟩
  refine ⟨t, h1, ?_⟩
  unfold readNumbers
  rw [(sections h3 h4).2.1, hD, ← hn]
  by_cases hd : D.dyn = []
  · have e : numberLines (some D) = [] := by unfold numberLines; dsimp only; rw [if_pos hd]
    have e' : numbers D = [] := by unfold numbers; rw [hd]; rfl
    rw [e, e', List.nil_append]
    generalize hz : fixedLines ((f.defs.filter isFixed).map (fixedText F)) ((f.defs.filter isAux).map auxText)
      ++ dashes 77 :: (lsqLines f.lsq ++ dataLines F (some D)) = z
    cases z with
    | nil => rfl
    | cons a z =>
      dsimp only
      rw [if_neg (by decide)]
  · have e : numberLines (some D) = ["# NUMBER OF ESIMATED VALUES ".toList,
        [',', ' ', ' ', ' '].intercalate ((numbers D).map fun e => e.1 ++ [':', ' '] ++ natStr e.2), []] := by
      unfold numberLines; dsimp only; rw [if_neg hd]
    rw [e]
    dsimp only [List.cons_append]
    rw [if_pos rfl]
    refine (numberLine_spec (by simpa [numbers] using hd) fun e he => ?_).1
    obtain ⟨a, ha, rfl⟩ := List.mem_map.mp he
    exact h.dyn D hD a ha

theorem observations {F : Fmt} {f : Fit} (h : f.Valid F) (ht : ∀ d ∈ f.defs, d.fitQ = some true → d.HasText F) (D : Data)
    (hD : f.data = some D) : ∃ t, text F f = .ok t ∧ readObservations (t.splitOn '\n') = some D.idx.dedup.length := by
  obtain ⟨t, rows, h1, h2, h3, h4⟩ := text_spec h ht
  refine ⟨t, h1, ?_⟩
  have e : (t.splitOn '\n').getLastD [] = "Number of observations: ".toList ++ natStr D.idx.dedup.length := by
    have : ∃ u, t.splitOn '\n' = u ++ ["Number of observations: ".toList ++ natStr D.idx.dedup.length] := by
      rw [h4, hD]
      refine ⟨front F f ++ fittedTitle :: fittedHeader :: (rows ++ [] :: (numberLines (some D)
        ++ fixedTitle :: (fixedLines ((f.defs.filter isFixed).map (fixedText F)) ((f.defs.filter isAux).map auxText)
          ++ dashes 77 :: (lsqLines f.lsq ++ (dataLines F (some D)).take 3)))), ?_⟩
      simp [dataLines]
    obtain ⟨u, hu⟩ := this
    rw [hu]; simp
  unfold readObservations
  rw [e]
  dsimp only
  have l24 : "Number of observations: ".toList.length = 24 := by decide
  rw [List.take_left' l24, List.drop_left' l24, if_pos rfl, readNat_natStr]

/-- **C117**: the number of observations, if all time stamps are different. -/
theorem C117_observations_partial {F : Fmt} {f : Fit} (h : f.Valid F) (ht : ∀ d ∈ f.defs, d.fitQ = some true → d.HasText F) (D : Data)
    (hD : f.data = some D) (hn : D.idx.Nodup) :
    ∃ t, text F f = .ok t ∧ readObservations (t.splitOn '\n') = some D.idx.length := by
  obtain ⟨t, h1, h2⟩ := observations h ht D hD
  exact ⟨t, h1, by rw [h2, hn.dedup]⟩

/-- **C117** is violated: observations with the same time stamp are counted only once. -/
theorem C117_observations_fails {F : Fmt} {f : Fit} (h : f.Valid F) (ht : ∀ d ∈ f.defs, d.fitQ = some true → d.HasText F) (D : Data)
    (hD : f.data = some D) (hn : ¬ D.idx.Nodup) :
    ∃ t n, text F f = .ok t ∧ readObservations (t.splitOn '\n') = some n ∧ n < D.idx.length := by
  obtain ⟨t, h1, h2⟩ := observations h ht D hD
  refine ⟨t, _, h1, h2, ?_⟩
  have hs := List.dedup_sublist D.idx
  refine lt_of_le_of_ne hs.length_le fun e => hn ?_
  rw [← hs.eq_of_length e]
  exact List.nodup_dedup _

/-- **C117** is violated: there is no text if a start value or a bound of a fitted parameter is an integer. -/
theorem C117_int_fails (F : Fmt) (f : Fit) (d : Def) (hd : d ∈ f.defs) (hq : d.fitQ = some true)
    (hi : (∃ n, d.val = .int n) ∨ (∃ n, d.lo = .int n) ∨ ∃ n, d.hi = .int n) : ∃ e, text F f = .error e := by
  have hr : ∃ e, row F d = .error e := by
    unfold row
    cases h1 : format F 10 d.val with
    | error e => exact ⟨e, rfl⟩
    | ok s =>
      cases h2 : format F 5 d.lo with
      | error e => exact ⟨e, rfl⟩
      | ok s =>
        cases h3 : format F 5 d.hi with
        | error e => exact ⟨e, rfl⟩
        | ok s =>
          rcases hi with ⟨n, hi⟩ | ⟨n, hi⟩ | ⟨n, hi⟩
          · rw [hi] at h1; cases h1
          · rw [hi] at h2; cases h2
          · rw [hi] at h3; cases h3
  obtain ⟨e, he⟩ := hr
  have key : ∀ (l : List Def) (a : Acc), d ∈ l → ∃ e, l.foldlM (step F) a = .error e := by
    intro l
    induction l with
    | nil => intro a h; cases h
    | cons x l ih =>
      intro a h
      rw [List.foldlM_cons]
      cases hs : step F a x with
      | error e => exact ⟨e, rfl⟩
      | ok a' =>
        rcases List.mem_cons.mp h with rfl | h
        · unfold step at hs
          rw [hq] at hs
          dsimp only at hs
          rw [he] at hs
          cases hs
        · exact ih a' h
  obtain ⟨e, h⟩ := key f.defs ⟨[], [], []⟩ hd
  refine ⟨e, ?_⟩
  unfold text lines
  rw [h]; rfl

/-- **C117** is violated: fixed values that are no python numbers (e.g. `np.float32`) are missing: the text is the same without the
parameter.  The same holds if the first value is a numpy bool. -/
theorem C117_numpy_fails (F : Fmt) (f : Fit) (a b : List Def) (d : Def) (hf : f.defs = a ++ d :: b)
    (hd : d.fitQ = none ∨ (d.fitQ = some false ∧ ∃ x, d.val = .npFloat x)) : text F f = text F { f with defs := a ++ b } := by
  have hs : ∀ acc, step F acc d = .ok acc := by
    intro acc
    unfold step
    rcases hd with h | ⟨h, x, hx⟩
    · rw [h]
    · rw [h]; dsimp only; unfold addFixed; rw [hx]
  unfold text lines
  dsimp only
  rw [hf, List.foldlM_append, List.foldlM_append]
  have : (fun s' => (d :: b).foldlM (step F) s') = fun s' => b.foldlM (step F) s' := by
    funext s'; rw [List.foldlM_cons, hs]; rfl
  rw [this]; rfl

theorem foldr_min (l : List ℤ) (a : ℤ) : l.foldr min a ≤ a ∧ (∀ x ∈ l, l.foldr min a ≤ x) ∧ (l.foldr min a = a ∨ l.foldr min a ∈ l) := by
  induction l with
  | nil => simp
  | cons b l ih =>
    obtain ⟨h1, h2, h3⟩ := ih
    refine ⟨(min_le_right _ _).trans h1, fun x hx => ?_, ?_⟩
    · rcases List.mem_cons.mp hx with rfl | hx
      · exact min_le_left _ _
      · exact (min_le_right _ _).trans (h2 x hx)
    · rw [List.foldr_cons]
      rcases min_choice b (l.foldr min a) with e | e
      · rw [e]; simp
      · rw [e]; rcases h3 with h | h
        · exact .inl h
        · exact .inr (List.mem_cons_of_mem _ h)

theorem foldr_max (l : List ℤ) (a : ℤ) : a ≤ l.foldr max a ∧ (∀ x ∈ l, x ≤ l.foldr max a) ∧ (l.foldr max a = a ∨ l.foldr max a ∈ l) := by
  induction l with
  | nil => simp
  | cons b l ih =>
    obtain ⟨h1, h2, h3⟩ := ih
    refine ⟨h1.trans (le_max_right _ _), fun x hx => ?_, ?_⟩
    · rcases List.mem_cons.mp hx with rfl | hx
      · exact le_max_left _ _
      · exact (h2 x hx).trans (le_max_right _ _)
    · rw [List.foldr_cons]
      rcases max_choice b (l.foldr max a) with e | e
      · rw [e]; simp
      · rw [e]; rcases h3 with h | h
        · exact .inl h
        · exact .inr (List.mem_cons_of_mem _ h)

/-- **C117**: the dates are those of the first and of the last observation (in any order of the dataset). -/
theorem C117_dates {F : Fmt} {f : Fit} (h : f.Valid F) (ht : ∀ d ∈ f.defs, d.fitQ = some true → d.HasText F) (D : Data)
    (hD : f.data = some D) (hne : D.idx ≠ []) (hdate : ∀ x, Plain (F.date x) ∧ (F.date x).length ≤ 25) :
    ∃ t lo hi, text F f = .ok t ∧ readDates (t.splitOn '\n') = (F.date lo, F.date hi) ∧
      (lo ∈ D.idx ∧ ∀ x ∈ D.idx, lo ≤ x) ∧ (hi ∈ D.idx ∧ ∀ x ∈ D.idx, x ≤ hi) := by
  obtain ⟨t, rows, h1, h2, h3, h4⟩ := text_spec h ht
  obtain ⟨-, b1, c1⟩ := foldr_min D.idx (D.idx.headD 0)
  obtain ⟨-, b2, c2⟩ := foldr_max D.idx (D.idx.headD 0)
  have hm : D.idx.headD 0 ∈ D.idx := by
    cases hi : D.idx with
    | nil => exact absurd hi hne
    | cons a l => simp
  refine ⟨t, D.idx.foldr min (D.idx.headD 0), D.idx.foldr max (D.idx.headD 0), h1, ?_, ⟨?_, b1⟩, ⟨?_, b2⟩⟩
  · have : ∃ u, t.splitOn '\n' = u ++ [ljust 37 ("Start-date: ".toList ++ F.date (D.idx.foldr min (D.idx.headD 0)))
        ++ ("End-date: ".toList ++ F.date (D.idx.foldr max (D.idx.headD 0)))]
        ++ ["Number of observations: ".toList ++ natStr D.idx.dedup.length] := by
      rw [h4, hD]
      refine ⟨front F f ++ fittedTitle :: fittedHeader :: (rows ++ [] :: (numberLines (some D)
        ++ fixedTitle :: (fixedLines ((f.defs.filter isFixed).map (fixedText F)) ((f.defs.filter isAux).map auxText)
          ++ dashes 77 :: (lsqLines f.lsq ++ (dataLines F (some D)).take 2)))), ?_⟩
      simp [dataLines]
    obtain ⟨u, hu⟩ := this
    unfold readDates
    rw [hu, List.dropLast_concat]
    generalize hlo : F.date (D.idx.foldr min (D.idx.headD 0)) = lo
    generalize hhi : F.date (D.idx.foldr max (D.idx.headD 0)) = hi
    have p : Plain lo ∧ lo.length ≤ 25 := hlo ▸ hdate _
    have l37 : (ljust 37 ("Start-date: ".toList ++ lo)).length = 37 := by
      have : "Start-date: ".toList.length = 12 := by decide
      have := p.2
      unfold ljust
      rw [List.length_append, List.length_append, List.length_replicate]; omega
    have l12 : "Start-date: ".toList.length = 12 := by decide
    have l10 : "End-date: ".toList.length = 10 := by decide
    have e : (u ++ [ljust 37 ("Start-date: ".toList ++ lo) ++ ("End-date: ".toList ++ hi)]).getLastD []
        = ljust 37 ("Start-date: ".toList ++ lo) ++ ("End-date: ".toList ++ hi) := by simp
    rw [e]
    dsimp only
    rw [List.take_left' l37, List.drop_left' l37, List.drop_left' l10]
    unfold ljust
    rw [List.append_assoc, List.drop_left' l12, strip_append_blank _ _ fun _ hx => (List.mem_replicate.mp hx).2, strip_plain p.1]
  · rcases c1 with e | e
    · rw [e]; exact hm
    · exact e
  · rcases c2 with e | e
    · rw [e]; exact hm
    · exact e

/-! ## An example -/

def exFmt : Fmt :=
  { prec := fun _ x => natStr x ++ ['.', '0'], str := fun _ => ['0', '.', '5'], date := fun _ => "2020-01-01".toList,
    now := "now".toList, version := "1.0".toList }

def exOmega : Def := ⟨"omega".toList, some true, .float 3, some "1M + manual".toList, .float 0, .float 7, "linear".toList⟩
def exTau : Def := ⟨"tau".toList, some false, .float 5, none, .none, .none, "None".toList⟩
def exAux : Def := ⟨"N".toList, some false, .str "auxiliary".toList, none, .none, .none, "None".toList⟩

def exFit : Fit :=
  { defs := [exOmega, exTau, exAux], vname := "Rayleigh".toList, srfname := "Isotropic".toList,
    props := some ([("tau".toList, "tau".toList)], []), version := none, intQ := "False".toList,
    lsq := [("ftol".toList, "0.1".toList), ("verbose".toList, "2".toList)],
    data := some ⟨[1, 2, 4, 5], [0, 0, 1, 1], [("omega".toList, [3, 3, 8, 8])]⟩ }

theorem exFit_valid : exFit.Valid exFmt where
  defs := by
    intro d hd
    simp only [exFit, List.mem_cons, List.not_mem_nil, or_false] at hd
    rcases hd with rfl | rfl | rfl
    · exact ⟨by unfold Name Plain; decide, fun s hs => by cases hs; unfold Plain; decide, by unfold Plain; decide, by unfold Plain; decide⟩
    · exact ⟨by unfold Name Plain; decide, fun s hs => (by cases hs), by unfold Plain; decide, by unfold Plain; decide⟩
    · exact ⟨by unfold Name Plain; decide, fun s hs => (by cases hs), by unfold Plain; decide, by unfold Plain; decide⟩
  vname := by unfold Plain; decide
  srfname := by unfold Plain; decide
  props := by
    intro p hp; cases hp
    unfold Name Plain; decide
  lsq := by unfold Name Plain; decide
  dyn := by
    intro D hD; cases hD
    unfold Name Plain; decide
  version := by decide
  intQ := by decide
  date := fun x => by show '\n' ∉ "2020-01-01".toList; decide

theorem exFit_text : ∀ d ∈ exFit.defs, d.fitQ = some true → d.HasText exFmt := by
  intro d hd hq
  simp only [exFit, List.mem_cons, List.not_mem_nil, or_false] at hd
  rcases hd with rfl | rfl | rfl
  · exact ⟨"3.0".toList, "0.0".toList, "7.0".toList, ⟨rfl, by unfold Plain; decide⟩, ⟨rfl, by unfold Plain; decide⟩,
      ⟨rfl, by unfold Plain; decide⟩, by decide, by decide⟩
  · exact absurd hq (by decide)
  · exact absurd hq (by decide)

example : ∃ t, text exFmt exFit = .ok t ∧ readFixed (t.splitOn '\n') = [("tau".toList, "0.5".toList)] ∧
    readAux (t.splitOn '\n') = ["N".toList] := by
  refine C117_fixed_partial exFit_valid ?_ exFit_text
  intro d hd
  simp only [exFit, List.mem_cons, List.not_mem_nil, or_false] at hd
  rcases hd with rfl | rfl | rfl
  · exact ⟨by decide, fun h => absurd h (by decide)⟩
  · exact ⟨by decide, fun _ => .inr (.inl ⟨5, rfl⟩)⟩
  · exact ⟨by decide, fun _ => .inl rfl⟩

example : ∃ t, text exFmt exFit = .ok t ∧
    readFitted (t.splitOn '\n') = [["omega", "3.0", "1M & manual", "0.0-7.0", "linear"].map String.toList] := by
  obtain ⟨t, h1, h2⟩ := C117_fitted_partial exFit_valid exFit_text
  refine ⟨t, h1, ?_⟩
  have : exFit.defs.filter (fun d => d.fitQ = some true) = [exOmega] := by rfl
  rw [this] at h2
  generalize readFitted (t.splitOn '\n') = r at h2
  cases h2 with
  | cons he hn =>
    cases hn
    obtain ⟨star, lo, hi, ⟨a, -⟩, ⟨b, -⟩, ⟨c, -⟩, rfl⟩ := he
    cases a; cases b; cases c
    decide

example : ∃ t, text exFmt exFit = .ok t ∧ readNames (t.splitOn '\n') = ["Rayleigh".toList, "Isotropic".toList] ∧
    readV (t.splitOn '\n') = [("tau".toList, "tau".toList)] ∧ readSRF (t.splitOn '\n') = [] :=
  C117_functions exFit_valid exFit_text

example : ∃ t, text exFmt exFit = .ok t ∧
    readLsq (t.splitOn '\n') = [("ftol".toList, "0.1".toList), ("verbose".toList, "2".toList)] :=
  C117_lsq_partial exFit_valid exFit_text (by decide) (by decide)

/-- Three keywords: the second one is missing. -/
example : text exFmt { exFit with lsq := [("ftol".toList, []), ("loss".toList, "linear".toList), ("verbose".toList, [])] }
    = text exFmt { exFit with lsq := [("ftol".toList, []), ("loss".toList, "cauchy".toList), ("verbose".toList, [])] } :=
  C117_lsq_fails exFmt { exFit with lsq := [("ftol".toList, []), ("loss".toList, "linear".toList), ("verbose".toList, [])] }
    [("ftol".toList, [])] [("verbose".toList, [])] ("loss".toList, "linear".toList) ("loss".toList, "cauchy".toList) rfl rfl

example : ∃ t, text exFmt exFit = .ok t ∧ readNumbers (t.splitOn '\n') = [("omega".toList, 2)] :=
  C117_numbers exFit_valid exFit_text ⟨[1, 2, 4, 5], [0, 0, 1, 1], [("omega".toList, [3, 3, 8, 8])]⟩ rfl (by decide)

example : ∃ t, text exFmt exFit = .ok t ∧ readObservations (t.splitOn '\n') = some 4 :=
  C117_observations_partial exFit_valid exFit_text ⟨[1, 2, 4, 5], [0, 0, 1, 1], [("omega".toList, [3, 3, 8, 8])]⟩ rfl (by decide)

example : ∃ t lo hi, text exFmt exFit = .ok t ∧ readDates (t.splitOn '\n') = (exFmt.date lo, exFmt.date hi) ∧
    (lo ∈ [1, 2, 4, 5] ∧ ∀ x ∈ [1, 2, 4, 5], lo ≤ x) ∧ (hi ∈ [1, 2, 4, 5] ∧ ∀ x ∈ [1, 2, 4, 5], x ≤ hi) :=
  C117_dates exFit_valid exFit_text ⟨[1, 2, 4, 5], [0, 0, 1, 1], [("omega".toList, [3, 3, 8, 8])]⟩ rfl (by decide)
    fun x => by show Plain "2020-01-01".toList ∧ _; unfold Plain; exact ⟨by decide, by show "2020-01-01".toList.length ≤ 25; decide⟩

def exDup : Fit := { exFit with data := some ⟨[1, 1, 2], [0, 0, 0], [("omega".toList, [1, 1, 1])]⟩ }

example : ∃ t n, text exFmt exDup = .ok t ∧ readObservations (t.splitOn '\n') = some n ∧ n < 3 :=
  C117_observations_fails (f := exDup)
    ⟨exFit_valid.defs, exFit_valid.vname, exFit_valid.srfname, exFit_valid.props, exFit_valid.lsq,
      by intro D hD; cases hD; unfold Name Plain; decide, exFit_valid.version, exFit_valid.intQ, exFit_valid.date⟩
    exFit_text ⟨[1, 1, 2], [0, 0, 0], [("omega".toList, [1, 1, 1])]⟩ rfl (by decide)

example : ∃ e, text exFmt { exFit with defs := [{ exOmega with val := .int 1 }] } = .error e :=
  C117_int_fails exFmt { exFit with defs := [{ exOmega with val := .int 1 }] } { exOmega with val := .int 1 } (by simp) rfl (.inl ⟨1, rfl⟩)

example : text exFmt { exFit with defs := [exOmega, { exTau with val := .npFloat 1 }] } = text exFmt { exFit with defs := [exOmega] } :=
  C117_numpy_fails exFmt { exFit with defs := [exOmega, { exTau with val := .npFloat 1 }] } [exOmega] [] { exTau with val := .npFloat 1 }
    rfl (.inr ⟨rfl, 1, rfl⟩)

end ModelDef
end RT1
