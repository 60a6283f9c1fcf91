import Mathlib.Data.Real.Basic

/-!
# Python runtime fragments

Exceptions as values, extended floats, and the few list primitives the modelled code uses.
These definitions model the Python / NumPy runtime, not a file of `/repo`.
-/

namespace Composipy

/-- Python exceptions raised (explicitly or by the runtime) in the modelled code. -/
inductive PyErr
  | valueError | zeroDivisionError | keyError | indexError | typeError
  | attributeError | unboundLocalError | linAlgError | arpackError | syntaxError
  deriving DecidableEq, Repr

/-- A float: NaN, the infinities, or a finite number taken from an exact field `K`
(`ℝ` for numerics, `ℚ` where the model must be executable).  Simplification: no rounding, no
overflow, a single zero. -/
inductive XF (K : Type) where
  | nan
  | ninf
  | pinf
  | fin (r : K)
  deriving DecidableEq, Repr

/-- Floats of the numeric model. -/
abbrev PyFloat := XF ℝ

namespace XF
variable {K : Type}

/-- IEEE `<`: every comparison with NaN is false. -/
def lt [LT K] : XF K → XF K → Prop
  | nan, _ => False
  | _, nan => False
  | ninf, ninf => False
  | ninf, _ => True
  | _, ninf => False
  | pinf, _ => False
  | _, pinf => True
  | fin a, fin b => a < b

instance decLt [LT K] [DecidableLT K] : (a b : XF K) → Decidable (lt a b)
  | nan, nan => isFalse id
  | nan, ninf => isFalse id
  | nan, pinf => isFalse id
  | nan, fin _ => isFalse id
  | ninf, nan => isFalse id
  | pinf, nan => isFalse id
  | fin _, nan => isFalse id
  | ninf, ninf => isFalse id
  | ninf, pinf => isTrue trivial
  | ninf, fin _ => isTrue trivial
  | pinf, ninf => isFalse id
  | fin _, ninf => isFalse id
  | pinf, pinf => isFalse id
  | pinf, fin _ => isFalse id
  | fin _, pinf => isTrue trivial
  | fin a, fin b => inferInstanceAs (Decidable (a < b))

/-- IEEE `==`: NaN differs from everything, including itself. -/
def eqv : XF K → XF K → Prop
  | nan, _ => False
  | _, nan => False
  | a, b => a = b

/-- The number is finite. -/
def isFin : XF K → Prop
  | fin _ => True
  | _ => False

/-- The finite value, if there is one. -/
def toFin? : XF K → Option K
  | fin r => some r
  | _ => none

end XF

@[simp] theorem ok_bind {α β : Type} (a : α) (f : α → Except PyErr β) :
    (Except.ok a >>= f) = f a := rfl

@[simp] theorem error_bind {α β : Type} (e : PyErr) (f : α → Except PyErr β) :
    ((Except.error e : Except PyErr α) >>= f) = .error e := rfl

@[simp] theorem ok_map {α β : Type} (a : α) (f : α → β) :
    (f <$> (Except.ok a : Except PyErr α)) = .ok (f a) := rfl

@[simp] theorem error_map {α β : Type} (e : PyErr) (f : α → β) :
    (f <$> (Except.error e : Except PyErr α)) = .error e := rfl

@[simp] theorem pure_eq_ok {α : Type} (a : α) : (pure a : Except PyErr α) = .ok a := rfl

/-- Python `a / b` on finite floats: raises `ZeroDivisionError` for `b == 0`. -/
noncomputable def pyDiv (a b : ℝ) : Except PyErr ℝ :=
  if b = 0 then .error .zeroDivisionError else .ok (a / b)

/-- NumPy / pandas `a / b` on finite floats: never raises; `x/0` is `±inf` or NaN. -/
noncomputable def npDiv (a b : ℝ) : PyFloat :=
  if b = 0 then (if a = 0 then .nan else if a < 0 then .ninf else .pinf) else .fin (a / b)

/-- Python `l[i]` for a non-negative index: `IndexError` past the end. -/
def pyIdx {α : Type} (l : List α) (i : Nat) : Except PyErr α :=
  match l[i]? with
  | some x => .ok x
  | none => .error .indexError

@[simp] theorem pyIdx_of_lt {α : Type} (l : List α) (i : Nat) (h : i < l.length) :
    pyIdx l i = .ok l[i] := by
  simp [pyIdx, List.getElem?_eq_getElem h]

theorem pyIdx_of_ge {α : Type} (l : List α) (i : Nat) (h : l.length ≤ i) :
    pyIdx l i = .error .indexError := by
  simp [pyIdx, List.getElem?_eq_none h]

end Composipy
