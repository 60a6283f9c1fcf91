import Verif.Py.Val

/-!
# Model of `composipy/utils/validators.py`
-/

namespace Composipy

/-- `n_min is not None and value < n_min`  [validators.py:11,25] -/
def belowMin (x : PyFloat) : Option ℝ → Prop
  | some lo => XF.lt x (.fin lo)
  | none => False

/-- `n_max is not None and value > n_max`  [validators.py:13,27] -/
def aboveMax (x : PyFloat) : Option ℝ → Prop
  | some hi => XF.lt (.fin hi) x
  | none => False

open Classical in
/-- `_float_number`  [validators.py:6-15] -/
noncomputable def floatNumber (value : PyVal) (nMin nMax : Option ℝ) : Except PyErr PyFloat :=
  match value.toFloat with
  | none => .error .valueError
  | some x =>
    if belowMin x nMin then .error .valueError
    else if aboveMax x nMax then .error .valueError
    else .ok x

open Classical in
/-- `float.is_integer`, returning the integer when it is one  [validators.py:23,29] -/
noncomputable def integerOf? : PyFloat → Option ℤ
  | .fin r => if h : ∃ k : ℤ, (k : ℝ) = r then some (Classical.choose h) else none
  | _ => none

open Classical in
/-- `_int_number`  [validators.py:18-29] -/
noncomputable def intNumber (value : PyVal) (nMin nMax : Option ℝ) : Except PyErr ℤ :=
  match value.toFloat with
  | none => .error .valueError
  | some x =>
    match integerOf? x with
    | none => .error .valueError
    | some k =>
      if belowMin x nMin then .error .valueError
      else if aboveMax x nMax then .error .valueError
      else .ok k

/-- `_is_instance`  [validators.py:32-35]; `isInst` is the answer of Python's `isinstance`. -/
def isInstance (isInst : Bool) : Except PyErr Unit :=
  if isInst then .ok () else .error .valueError

end Composipy
