import Verif.Py.Num
import Mathlib.Data.Rat.Cast.Defs

/-!
# Argument values and `float(value)`
-/

namespace Composipy

/-- What a caller may pass for a number: a number (int, bool, float, NumPy scalar), a string,
`None`, or any other object on which `float()` raises. -/
inductive PyVal where
  | num (x : PyFloat)
  | str (s : List Char)
  | none
  | other

/-- Embedding of executable floats into the numeric model. -/
noncomputable def XF.toReal : XF ℚ → PyFloat
  | .nan => .nan
  | .ninf => .ninf
  | .pinf => .pinf
  | .fin q => .fin (q : ℝ)

/-- Python `float(value)`; `none` stands for any exception it raises. -/
noncomputable def PyVal.toFloat : PyVal → Option PyFloat
  | .num x => some x
  | .str s => (parseFloat s).map XF.toReal
  | .none => Option.none
  | .other => Option.none

end Composipy
