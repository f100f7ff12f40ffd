import Verif.Model.SetFn
import Verif.Lemmas.Dict

/-!
# C103 A model defined by a function is stored with the same specification

Specification: the attributes of the scattering functions of the stored and loaded fit are those that are obtained by calling the
function (`direct`).  This holds if all arguments of the constructors in the function are parameters or numbers (`Simple`).
Differences, quotients and powers of parameters are recognised as unsupported, but sums of parameters, and products of a parameter and
an integer are silently replaced by other expressions.
-/

namespace RT1.SetFn
open FitEval

/-! ### specification -/

/-- A parameter of the fit, or a number. -/
def Simple (names : List String) (t : Term) : Prop := (∃ n ∈ names, t = .var n) ∨ t.const = true

/-- All parameters in the expression are defined. -/
def Closed (names : List String) : Term → Prop
  | .var n => n ∈ names
  | .int _ | .float _ => True
  | .bin _ a b => Closed names a ∧ Closed names b

/-- The attributes `ncoefs` are given as numbers. -/
def NumCounts (cls : Cls) (args : Args) : Prop :=
  ∀ n, (n, Dflt.count) ∈ cls → ∀ t, Dict.get? args n = some t → t.const = true

/-- A difference, quotient or power that involves a parameter. -/
def Unsupported : Term → Prop
  | .var _ | .int _ | .float _ => False
  | .bin op a b => (op ∈ [BinOp.sub, .div, .pow] ∧ (a.const = false ∨ b.const = false)) ∨ Unsupported a ∨ Unsupported b

/-! ### lemmas -/

theorem keys_setdict (defs : Dict String Def) : Dict.keys (setdict defs) = Dict.keys defs := by
  simp [setdict, Dict.keys]

theorem evalConst (sd : Dict String Built) (names : List String) (t : Term) (h : t.const = true) :
    ∃ v x, evalStr names t = .ok v ∧ evalSym sd t = .ok (.num x) ∧ v.num? = some x ∧ toProp v = .num x := by
  induction t with
  | var n => simp [Term.const] at h
  | int k => exact ⟨.int k, k, rfl, rfl, rfl, rfl⟩
  | float x => exact ⟨.float x, x, rfl, rfl, rfl, rfl⟩
  | bin op a b iha ihb =>
    simp only [Term.const, Bool.and_eq_true] at h
    obtain ⟨v, x, h1, h2, h3, _⟩ := iha h.1
    obtain ⟨w, y, g1, g2, g3, _⟩ := ihb h.2
    have hs : evalSym sd (.bin op a b) = .ok (.num (op.real x y)) := by
      rw [evalSym, h2, g2]; rfl
    have hv : evalStr names (.bin op a b) = binStr op v w := by
      rw [evalStr, h1, g1]; rfl
    rw [hs, hv]
    cases v <;> cases w <;> simp [SVal.num?] at h3 g3 <;> subst h3 <;> subst g3
    · cases op <;> simp [binStr, intOp, BinOp.real, SVal.num?, toProp]
    all_goals exact ⟨_, _, rfl, rfl, rfl, rfl⟩

/-- An attribute obtained with strings is loaded as the attribute `b`. -/
def Loads (sympify : String → Except PyErr Expr) (sd : Dict String Built) (v : SVal) (b : Built) : Prop :=
  ∀ ignore, ∃ s, checkval sympify sd ignore (toProp v) = .ok (b, s)

/-- The two values of an argument. -/
structure Same (sympify : String → Except PyErr Expr) (sd : Dict String Built) (t : Term) (v : SVal) (b : Built) : Prop where
  loads : Loads sympify sd v b
  const : t.const = true → ∃ x, b = .num x ∧ v.num? = some x

theorem simple_eval (sympify : String → Except PyErr Expr) (sd : Dict String Built) (t : Term) (h : Simple (Dict.keys sd) t) :
    ∃ v b, evalStr (Dict.keys sd) t = .ok v ∧ evalSym sd t = .ok b ∧ Same sympify sd t v b := by
  rcases h with ⟨n, hn, rfl⟩ | h
  · obtain ⟨b, hb⟩ := Option.isSome_iff_exists.1 ((Dict.get?_isSome _ _).2 hn)
    refine ⟨.str n, b, by simp [evalStr, hn], by simp [evalSym, hb], fun i => ?_, fun h => by simp [Term.const] at h⟩
    simp [toProp, checkval, hb]
  · obtain ⟨v, x, h1, h2, h3, h4⟩ := evalConst sd (Dict.keys sd) t h
    exact ⟨v, .num x, h1, h2, fun i => ⟨[], by rw [h4]; rfl⟩, fun _ => ⟨x, rfl, h3⟩⟩

/-- The evaluated arguments correspond to each other. -/
inductive Corr (sympify : String → Except PyErr Expr) (sd : Dict String Built) : Args → Dict String SVal → Dict String Built → Prop
  | nil : Corr sympify sd [] [] []
  | cons {n t v b k l m} : Same sympify sd t v b → Corr sympify sd k l m →
      Corr sympify sd ((n, t) :: k) ((n, v) :: l) ((n, b) :: m)

theorem evalArgs_corr (sympify : String → Except PyErr Expr) (sd : Dict String Built) (args : Args)
    (h : ∀ a ∈ args, Simple (Dict.keys sd) a.2) :
    ∃ l m, evalArgs (evalStr (Dict.keys sd)) args = .ok l ∧ evalArgs (evalSym sd) args = .ok m ∧ Corr sympify sd args l m := by
  induction args with
  | nil => exact ⟨[], [], rfl, rfl, .nil⟩
  | cons a args ih =>
    obtain ⟨n, t⟩ := a
    obtain ⟨v, b, h1, h2, h3⟩ := simple_eval sympify sd t (h (n, t) (by simp))
    obtain ⟨l, m, g1, g2, g3⟩ := ih (fun a ha => h a (by simp [ha]))
    refine ⟨(n, v) :: l, (n, b) :: m, ?_, ?_, .cons h3 g3⟩
    · rw [evalArgs, h1, g1]; rfl
    · rw [evalArgs, h2, g2]; rfl

theorem corr_get? {sympify : String → Except PyErr Expr} {sd : Dict String Built} {k : Args} {l : Dict String SVal}
    {m : Dict String Built} (h : Corr sympify sd k l m) (n : String) :
    (Dict.get? l n = none ∧ Dict.get? m n = none) ∨
      ∃ t v b, Dict.get? k n = some t ∧ Dict.get? l n = some v ∧ Dict.get? m n = some b ∧ Same sympify sd t v b := by
  induction h with
  | nil => exact .inl ⟨rfl, rfl⟩
  | @cons j t v b k l m hv _ ih =>
    by_cases hk : j = n
    · exact .inr ⟨t, v, b, by simp [Dict.get?_cons, hk], by simp [Dict.get?_cons, hk], by simp [Dict.get?_cons, hk], hv⟩
    · simpa [Dict.get?_cons, hk] using ih

theorem attr_corr {sympify : String → Except PyErr Expr} {sd : Dict String Built} {k : Args} {l : Dict String SVal}
    {m : Dict String Built} (h : Corr sympify sd k l m) (n : String) (df : Dflt)
    (hn : df = .count → ∀ t, Dict.get? k n = some t → t.const = true) (b : Built)
    (ha : attr kindBuilt (Dict.get? m n) df = .ok (some b)) :
    ∃ v, attr kindStr (Dict.get? l n) df = .ok (some v) ∧ Loads sympify sd v b := by
  rcases corr_get? h n with ⟨hl, hm⟩ | ⟨t, v, b', hk, hl, hm, hb⟩
  · rw [hm] at ha
    rw [hl]
    cases df with
    | pyNone => simp [attr] at ha
    | num x =>
      simp only [attr, kindBuilt, Except.ok.injEq, Option.some.injEq] at ha
      subst ha
      exact ⟨.float x, rfl, fun i => ⟨[], rfl⟩⟩
    | required => simp [attr] at ha
    | count => simp [attr] at ha
  · rw [hm] at ha
    rw [hl]
    by_cases hd : df = .count
    · subst hd
      obtain ⟨x, hx, hv⟩ := hb.const (hn rfl t hk)
      subst hx
      have hp : kindStr.positive v = positiveNum x := by
        cases v <;> simp [SVal.num?] at hv <;> subst hv <;> rfl
      simp only [attr, kindBuilt] at ha
      rw [attr, hp]
      cases hpx : positiveNum x with
      | error e => rw [hpx] at ha; cases ha
      | ok u =>
        rw [hpx] at ha
        cases ha
        exact ⟨v, rfl, hb.loads⟩
    · cases df with
      | count => exact absurd rfl hd
      | _ => cases ha; exact ⟨v, rfl, hb.loads⟩

theorem construct_corr {sympify : String → Except PyErr Expr} {sd : Dict String Built} {k : Args} {l : Dict String SVal}
    {m : Dict String Built} (h : Corr sympify sd k l m) (cls : Cls) (hn : NumCounts cls k) (d : Dict String Built)
    (hd : construct kindBuilt m cls = .ok (d.map fun nb => (nb.1, some nb.2))) :
    ∃ st, construct kindStr l cls = .ok st ∧ rebuild sympify sd st = .ok d := by
  induction cls generalizing d with
  | nil =>
    simp only [construct, Except.ok.injEq] at hd
    have : d = [] := by simpa using hd.symm
    subst this
    exact ⟨[], rfl, rfl⟩
  | cons c cls ih =>
    obtain ⟨n, df⟩ := c
    rw [construct] at hd
    cases ha : attr kindBuilt (Dict.get? m n) df with
    | error e => rw [ha] at hd; cases hd
    | ok w =>
      cases hr : construct kindBuilt m cls with
      | error e => rw [ha, hr] at hd; cases hd
      | ok r =>
        rw [ha, hr] at hd
        simp only [bind, Except.bind, pure, Except.pure, Except.ok.injEq] at hd
        cases d with
        | nil => simp at hd
        | cons nb d =>
          obtain ⟨n', b⟩ := nb
          simp only [List.map_cons, List.cons.injEq, Prod.mk.injEq] at hd
          obtain ⟨⟨rfl, rfl⟩, hd⟩ := hd
          obtain ⟨v, hv, hb⟩ := attr_corr h n df (fun e t ht => hn n (by simp [e]) t ht) b ha
          obtain ⟨st, h1, h2⟩ := ih (fun n hc => hn n (by simp [hc])) d (by rw [hr, hd])
          refine ⟨(n, some v) :: st, ?_, ?_⟩
          · rw [construct, hv, h1]; rfl
          · obtain ⟨s, hs⟩ := hb (decide (n ∈ ignoreKeys))
            rw [rebuild, hs, h2]; rfl

theorem stored_direct (sympify : String → Except PyErr Expr) (sd : Dict String Built) (cls : Cls) (args : Args)
    (hs : ∀ a ∈ args, Simple (Dict.keys sd) a.2) (hn : NumCounts cls args) (d : Dict String Built)
    (hd : direct sd cls args = .ok (d.map fun nb => (nb.1, some nb.2))) :
    ∃ st, stored (Dict.keys sd) cls args = .ok st ∧ rebuild sympify sd st = .ok d := by
  obtain ⟨l, m, h1, h2, h3⟩ := evalArgs_corr sympify sd args hs
  rw [direct, h2] at hd
  obtain ⟨st, g1, g2⟩ := construct_corr h3 cls hn d hd
  exact ⟨st, by rw [stored, h1]; exact g1, g2⟩

/-! ### supported functions -/

/-- If all arguments in the function are parameters or numbers (with a number for `ncoefs`), and the function returns V and SRF without
attributes that are None, then the stored fit is loaded with the same attributes. -/
theorem C103_direct_partial (sympify : String → Except PyErr Expr) (defs : Dict String Def) (clsV clsS : Cls) (argsV argsS : Args)
    (hV : ∀ a ∈ argsV, Simple (Dict.keys defs) a.2) (hS : ∀ a ∈ argsS, Simple (Dict.keys defs) a.2)
    (nV : NumCounts clsV argsV) (nS : NumCounts clsS argsS) (dV dS : Dict String Built)
    (gV : direct (setdict defs) clsV argsV = .ok (dV.map fun nb => (nb.1, some nb.2)))
    (gS : direct (setdict defs) clsS argsS = .ok (dS.map fun nb => (nb.1, some nb.2))) :
    ∃ p, getVSRFDict (Dict.keys defs) clsV argsV clsS argsS = .ok p ∧
      loadedV sympify (setdict defs) p = .ok dV ∧ loadedSRF sympify (setdict defs) p = .ok dS := by
  rw [← keys_setdict defs] at hV hS ⊢
  obtain ⟨sV, a1, a2⟩ := stored_direct sympify (setdict defs) clsV argsV hV nV dV gV
  obtain ⟨sS, b1, b2⟩ := stored_direct sympify (setdict defs) clsS argsS hS nS dS gS
  exact ⟨some (sV, sS), by rw [getVSRFDict, a1, b1], a2, b2⟩

/-! ### functions that cannot be stored -/

theorem evalStr_kind (names : List String) (t : Term) (hc : Closed names t) :
    (t.const = true ∧ ∃ v x, evalStr names t = .ok v ∧ v.num? = some x) ∨
      (t.const = false ∧ ((∃ s, evalStr names t = .ok (.str s)) ∨ evalStr names t = .error .typeError)) := by
  induction t with
  | var n => exact .inr ⟨rfl, .inl ⟨n, by simpa [evalStr, Closed] using hc⟩⟩
  | int k => exact .inl ⟨rfl, .int k, k, rfl, rfl⟩
  | float x => exact .inl ⟨rfl, .float x, x, rfl, rfl⟩
  | bin op a b iha ihb =>
    cases hk : (Term.bin op a b).const with
    | true =>
      obtain ⟨v, x, h1, _, h3, _⟩ := evalConst [] names _ hk
      exact .inl ⟨rfl, v, x, h1, h3⟩
    | false =>
      refine .inr ⟨rfl, ?_⟩
      rcases iha hc.1 with ⟨ha, v, x, hv, hx⟩ | ⟨ha, ⟨s, hv⟩ | hv⟩
      · rcases ihb hc.2 with ⟨hb, _⟩ | ⟨hb, ⟨r, hw⟩ | hw⟩
        · simp [Term.const, ha, hb] at hk
        · rw [evalStr, hv, hw]
          cases v with
          | str _ => simp [SVal.num?] at hx
          | int k => cases op <;> simp [bind, Except.bind, binStr]
          | float y => exact .inr rfl
        · rw [evalStr, hv, hw]; exact .inr rfl
      · rcases ihb hc.2 with ⟨hb, w, y, hw, hy⟩ | ⟨hb, ⟨r, hw⟩ | hw⟩
        · rw [evalStr, hv, hw]
          cases w with
          | str _ => simp [SVal.num?] at hy
          | int k => cases op <;> simp [bind, Except.bind, binStr]
          | float y => exact .inr rfl
        · rw [evalStr, hv, hw]
          cases op <;> simp [bind, Except.bind, binStr]
        · rw [evalStr, hv, hw]; exact .inr rfl
      · rw [evalStr, hv]; exact .inr rfl

theorem unsupported_eval (names : List String) (t : Term) (hc : Closed names t) (hu : Unsupported t) :
    evalStr names t = .error .typeError := by
  induction t with
  | var _ => exact hu.elim
  | int _ => exact hu.elim
  | float _ => exact hu.elim
  | bin op a b iha ihb =>
    have ka := evalStr_kind names a hc.1
    have kb := evalStr_kind names b hc.2
    rcases hu with ⟨hop, hab⟩ | hu | hu
    · have hne : op ≠ .add ∧ op ≠ .mul := by
        constructor <;> · rintro rfl; simp at hop
      rcases ka with ⟨ha, v, x, hv, hx⟩ | ⟨ha, ⟨s, hv⟩ | hv⟩
      · rcases kb with ⟨hb, _⟩ | ⟨hb, ⟨r, hw⟩ | hw⟩
        · simp [ha, hb] at hab
        · rw [evalStr, hv, hw]
          cases v with
          | str _ => simp [SVal.num?] at hx
          | int k => simp [bind, Except.bind, binStr, hne]
          | float y => rfl
        · rw [evalStr, hv, hw]; rfl
      · rcases kb with ⟨hb, w, y, hw, hy⟩ | ⟨hb, ⟨r, hw⟩ | hw⟩
        · rw [evalStr, hv, hw]
          cases w with
          | str _ => simp [SVal.num?] at hy
          | int k => simp [bind, Except.bind, binStr, hne]
          | float y => rfl
        · rw [evalStr, hv, hw]; simp [bind, Except.bind, binStr, hne]
        · rw [evalStr, hv, hw]; rfl
      · rw [evalStr, hv]; rfl
    · rw [evalStr, iha hc.1 hu]; rfl
    · rw [evalStr, ihb hc.2 hu]
      rcases ka with ⟨_, v, x, hv, _⟩ | ⟨_, ⟨s, hv⟩ | hv⟩ <;> rw [hv] <;> rfl

theorem evalArgs_unsupported (names : List String) (args : Args) (hc : ∀ a ∈ args, Closed names a.2)
    (hu : ∃ a ∈ args, Unsupported a.2) : evalArgs (evalStr names) args = .error .typeError := by
  induction args with
  | nil => simp at hu
  | cons a args ih =>
    obtain ⟨n, t⟩ := a
    have hk := evalStr_kind names t (hc (n, t) (by simp))
    by_cases ht : Unsupported t
    · rw [evalArgs, unsupported_eval names t (hc (n, t) (by simp)) ht]; rfl
    · have ih := ih (fun a ha => hc a (by simp [ha])) (by
        obtain ⟨a, ha, h⟩ := hu
        rcases List.mem_cons.1 ha with rfl | ha
        · exact absurd h ht
        · exact ⟨a, ha, h⟩)
      rw [evalArgs, ih]
      rcases hk with ⟨_, v, x, hv, _⟩ | ⟨_, ⟨s, hv⟩ | hv⟩ <;> rw [hv] <;> rfl

/-- A function that uses a difference, quotient or power of a parameter for V is never stored with a wrong specification:
`set_V_SRF` of the loaded fit is None, and the access to V and SRF raises an exception. -/
theorem C103_unsupported_partial (sympify : String → Except PyErr Expr) (defs : Dict String Def) (clsV clsS : Cls) (argsV argsS : Args)
    (hc : ∀ a ∈ argsV, Closed (Dict.keys defs) a.2) (hu : ∃ a ∈ argsV, Unsupported a.2) :
    getVSRFDict (Dict.keys defs) clsV argsV clsS argsS = .ok none ∧
      loadedV sympify (setdict defs) none = .error .unboundLocalError ∧ loadedSRF sympify (setdict defs) none = .error .unboundLocalError := by
  have h : stored (Dict.keys defs) clsV argsV = .error .typeError := by
    rw [stored, evalArgs_unsupported _ _ hc hu]; rfl
  refine ⟨?_, rfl, rfl⟩
  rw [getVSRFDict, h]

/-- The same for SRF, if V can be stored. -/
theorem C103_unsupported_SRF_partial (defs : Dict String Def) (clsV clsS : Cls) (argsV argsS : Args)
    (hV : ∀ a ∈ argsV, Simple (Dict.keys defs) a.2) (nV : NumCounts clsV argsV) (dV : Dict String Built)
    (gV : direct (setdict defs) clsV argsV = .ok (dV.map fun nb => (nb.1, some nb.2)))
    (hc : ∀ a ∈ argsS, Closed (Dict.keys defs) a.2) (hu : ∃ a ∈ argsS, Unsupported a.2) :
    getVSRFDict (Dict.keys defs) clsV argsV clsS argsS = .ok none := by
  have h : stored (Dict.keys defs) clsS argsS = .error .typeError := by
    rw [stored, evalArgs_unsupported _ _ hc hu]; rfl
  rw [← keys_setdict defs] at hV h ⊢
  obtain ⟨sV, a1, _⟩ := stored_direct (fun _ => .error .typeError) (setdict defs) clsV argsV hV nV dV gV
  rw [getVSRFDict, a1, h]

/-! ### functions that are stored with another specification -/

/-- Two fitted parameters. -/
def defsXY : Dict String Def := [("x", ⟨true, .number 0⟩), ("y", ⟨true, .number 0⟩)]

/-- The sum of two parameters is stored as a new symbol: `omega = x + y` is loaded as the symbol `xy`. -/
theorem C103_sum_fails (sympify : String → Except PyErr Expr) (hp : sympify "xy" = .ok (.sym "xy")) :
    ∃ (argsV : Args), (∀ a ∈ argsV, Closed (Dict.keys defsXY) a.2) ∧
      ∃ p, getVSRFDict (Dict.keys defsXY) clsRayleigh argsV [] [] = .ok (some p) ∧
        direct (setdict defsXY) clsRayleigh argsV =
          .ok [("tau", some (.num 1)), ("omega", some (.expr (.bin (· + ·) (.sym "x") (.sym "y"))))] ∧
        loadedV sympify (setdict defsXY) (some p) = .ok [("tau", .num 1), ("omega", .expr (.sym "xy"))] := by
  refine ⟨[("tau", .float 1), ("omega", .bin .add (.var "x") (.var "y"))], ?_,
    ([("tau", some (.float 1)), ("omega", some (.str "xy"))], []), ?_, ?_, ?_⟩
  · simp [Closed, defsXY, Dict.keys]
  · simp [getVSRFDict, stored, evalArgs, evalStr, binStr, defsXY, Dict.keys, clsRayleigh, construct, attr, Dict.get?, bind, Except.bind,
      pure, Except.pure]
  · simp [direct, evalArgs, evalSym, defsXY, clsRayleigh, construct, attr, Dict.get?, setdict, bind, Except.bind, pure, Except.pure,
      binBuilt, toExpr, BinOp.real]
  · simp [loadedV, rebuild, toProp, checkval, hp, defsXY, setdict, Dict.get?, bind, Except.bind, pure, Except.pure, Expr.xreplace,
      ignoreKeys]

/-- The product of an integer and a parameter is stored as a repeated name: `omega = 2 * x` is loaded as the symbol `xx`. -/
theorem C103_product_fails (sympify : String → Except PyErr Expr) (hp : sympify "xx" = .ok (.sym "xx")) :
    ∃ (argsV : Args), (∀ a ∈ argsV, Closed (Dict.keys defsXY) a.2) ∧
      ∃ p, getVSRFDict (Dict.keys defsXY) clsRayleigh argsV [] [] = .ok (some p) ∧
        direct (setdict defsXY) clsRayleigh argsV =
          .ok [("tau", some (.num 1)), ("omega", some (.expr (.bin (· * ·) (.num 2) (.sym "x"))))] ∧
        loadedV sympify (setdict defsXY) (some p) = .ok [("tau", .num 1), ("omega", .expr (.sym "xx"))] := by
  have h2 : repeatStr 2 "x" = "xx" := by decide
  refine ⟨[("tau", .float 1), ("omega", .bin .mul (.int 2) (.var "x"))], ?_,
    ([("tau", some (.float 1)), ("omega", some (.str "xx"))], []), ?_, ?_, ?_⟩
  · simp [Closed, defsXY, Dict.keys]
  · simp [getVSRFDict, stored, evalArgs, evalStr, binStr, defsXY, Dict.keys, clsRayleigh, construct, attr, Dict.get?, bind, Except.bind,
      pure, Except.pure, h2]
  · simp [direct, evalArgs, evalSym, defsXY, clsRayleigh, construct, attr, Dict.get?, setdict, bind, Except.bind, pure, Except.pure,
      binBuilt, toExpr, BinOp.real]
  · simp [loadedV, rebuild, toProp, checkval, hp, defsXY, setdict, Dict.get?, bind, Except.bind, pure, Except.pure, Expr.xreplace,
      ignoreKeys]

/-- A function that does not specify `omega` is stored, but V of the loaded fit raises an exception. -/
theorem C103_none_fails (sympify : String → Except PyErr Expr) :
    ∃ (argsV : Args), (∀ a ∈ argsV, Simple (Dict.keys defsXY) a.2) ∧
      ∃ p, getVSRFDict (Dict.keys defsXY) clsRayleigh argsV [] [] = .ok (some p) ∧
        direct (setdict defsXY) clsRayleigh argsV = .ok [("tau", some (.expr (.sym "x"))), ("omega", none)] ∧
        loadedV sympify (setdict defsXY) (some p) = .error .attributeError := by
  refine ⟨[("tau", .var "x")], ?_, ([("tau", some (.str "x")), ("omega", none)], []), ?_, ?_, ?_⟩
  · simp [Simple, defsXY, Dict.keys]
  · simp [getVSRFDict, stored, evalArgs, evalStr, defsXY, Dict.keys, clsRayleigh, construct, attr, Dict.get?, bind, Except.bind,
      pure, Except.pure]
  · simp [direct, evalArgs, evalSym, defsXY, clsRayleigh, construct, attr, Dict.get?, setdict, bind, Except.bind, pure, Except.pure]
  · simp [loadedV, rebuild, toProp, checkval, defsXY, setdict, Dict.get?, bind, Except.bind]

/-- `ncoefs` given by a fixed number in defdict: the function works, but it cannot be stored. -/
theorem C103_ncoefs_fails :
    ∃ (defs : Dict String Def) (argsS : Args), (∀ a ∈ argsS, Simple (Dict.keys defs) a.2) ∧
      direct (setdict defs) clsSRF argsS = .ok [("t", some (.num 0.3)), ("ncoefs", some (.num 10)), ("NormBRDF", some (.num 1))] ∧
      getVSRFDict (Dict.keys defs) [] [] clsSRF argsS = .ok none := by
  have hp : positiveNum 10 = .ok () := by rw [positiveNum, if_pos]; norm_num
  refine ⟨[("n", ⟨false, .number 10⟩)], [("t", .float 0.3), ("ncoefs", .var "n")], ?_, ?_, ?_⟩
  · simp [Simple, Dict.keys, Term.const]
  · simp [direct, evalArgs, evalSym, clsSRF, construct, attr, Dict.get?, setdict, bind, Except.bind, pure, Except.pure, kindBuilt, hp]
  · simp [getVSRFDict, stored, evalArgs, evalStr, Dict.keys, clsSRF, construct, attr, Dict.get?, bind, Except.bind, pure, Except.pure,
      kindStr]

/-! ### examples -/

/-- `V = HenyeyGreenstein(omega=x, tau=y, t=0.1+0.2, ncoefs=2*4)`, `SRF = HenyeyGreenstein(t=y, ncoefs=10)` -/
example : ∃ (argsV argsS : Args) (dV dS : Dict String Built),
    (∀ a ∈ argsV, Simple (Dict.keys defsXY) a.2) ∧ (∀ a ∈ argsS, Simple (Dict.keys defsXY) a.2) ∧
    NumCounts clsHG argsV ∧ NumCounts clsSRF argsS ∧
    direct (setdict defsXY) clsHG argsV = .ok (dV.map fun nb => (nb.1, some nb.2)) ∧
    direct (setdict defsXY) clsSRF argsS = .ok (dS.map fun nb => (nb.1, some nb.2)) := by
  have hp : positiveNum (2 * 4) = .ok () := by rw [positiveNum, if_pos]; norm_num
  have hq : positiveNum 10 = .ok () := by rw [positiveNum, if_pos]; norm_num
  refine ⟨[("omega", .var "x"), ("tau", .var "y"), ("t", .bin .add (.float 0.1) (.float 0.2)), ("ncoefs", .bin .mul (.int 2) (.int 4))],
    [("t", .var "y"), ("ncoefs", .int 10)],
    [("tau", .expr (.sym "y")), ("omega", .expr (.sym "x")), ("ncoefs", .num (2 * 4)), ("t", .num (0.1 + 0.2))],
    [("t", .expr (.sym "y")), ("ncoefs", .num 10), ("NormBRDF", .num 1)], ?_, ?_, ?_, ?_, ?_, ?_⟩
  · simp [Simple, defsXY, Dict.keys, Term.const]
  · simp [Simple, defsXY, Dict.keys, Term.const]
  · intro n hn t ht
    simp [clsHG] at hn
    subst hn
    simp [Dict.get?] at ht
    subst ht
    rfl
  · intro n hn t ht
    simp [clsSRF] at hn
    subst hn
    simp [Dict.get?] at ht
    subst ht
    rfl
  · simp [direct, evalArgs, evalSym, clsHG, construct, attr, Dict.get?, setdict, bind, Except.bind, pure, Except.pure, kindBuilt, hp,
      defsXY, binBuilt, BinOp.real]
  · simp [direct, evalArgs, evalSym, clsSRF, construct, attr, Dict.get?, setdict, bind, Except.bind, pure, Except.pure, kindBuilt, hq,
      defsXY]

/-- `omega = 1 - x` -/
example : ∃ argsV : Args, (∀ a ∈ argsV, Closed (Dict.keys defsXY) a.2) ∧ ∃ a ∈ argsV, Unsupported a.2 :=
  ⟨[("omega", .bin .sub (.int 1) (.var "x"))], by simp [Closed, defsXY, Dict.keys], ⟨_, List.mem_singleton.2 rfl, .inl ⟨by simp, .inr rfl⟩⟩⟩

/-- A parser that reads `xy` and `xx` as symbols. -/
example : ∃ sympify : String → Except PyErr Expr, sympify "xy" = .ok (.sym "xy") ∧ sympify "xx" = .ok (.sym "xx") :=
  ⟨fun s => .ok (.sym s), rfl, rfl⟩

end RT1.SetFn
