import Verif.Model.Strength

/-!
# Margins of safety with the two floating-point zeros  [strength.py:408-423]

`Verif.Model.Strength` uses one zero.  IEEE-754 has two, which compare equal but divide differently.  This module repeats
the margin formulas on floats with a signed zero.
-/

namespace Composipy

/-- A float: NaN, a signed infinity, a signed zero (`true` is negative), or a finite number other than zero (rounding is
not modelled). -/
inductive SF where
  | nan
  | inf (neg : Bool)
  | zero (neg : Bool)
  | nz (r : ℝ) (h : r ≠ 0)

/-- The same float with one zero. -/
noncomputable def SF.forget : SF → PyFloat
  | .nan => .nan
  | .inf true => .ninf
  | .inf false => .pinf
  | .zero _ => .fin 0
  | .nz r _ => .fin r

/-- `x < 0`: false for both zeros and NaN. -/
def SF.isNeg : SF → Prop
  | .inf true => True
  | .nz r _ => r < 0
  | _ => False

/-- `x > 0`: false for both zeros and NaN. -/
def SF.isPos : SF → Prop
  | .inf false => True
  | .nz r _ => 0 < r
  | _ => False

/-- `abs(x)`: clears the sign bit. -/
noncomputable def SF.abs : SF → SF
  | .nan => .nan
  | .inf _ => .inf false
  | .zero _ => .zero false
  | .nz r h => .nz |r| (abs_ne_zero.mpr h)

open Classical in
/-- Division of a float by a float (`allow / stress`): the sign of a zero or infinite result is the product of the
signs.  -/
noncomputable def SF.div : SF → SF → SF
  | .nan, _ => .nan
  | _, .nan => .nan
  | .inf _, .inf _ => .nan
  | .zero _, .zero _ => .nan
  | .inf a, .zero b => .inf (a != b)
  | .inf a, .nz r _ => .inf (a != decide (r < 0))
  | .zero a, .inf b => .zero (a != b)
  | .zero a, .nz r _ => .zero (a != decide (r < 0))
  | .nz r _, .inf b => .zero (decide (r < 0) != b)
  | .nz r _, .zero b => .inf (decide (r < 0) != b)
  | .nz r h, .nz q k => .nz (r / q) (div_ne_zero h k)

/-- `x - 1` (the zero produced by `1 - 1` is `+0.0`). -/
noncomputable def SF.subOne : SF → PyFloat
  | .nan => .nan
  | .inf true => .ninf
  | .inf false => .pinf
  | .zero _ => .fin (-1)
  | .nz r _ => .fin (r - 1)

open Classical in
/-- `allow / stress.mask(stress < 0, 0) - 1`: the replacement value is `+0.0`  [strength.py:408, 410] -/
noncomputable def zMarginT (allow stress : SF) : PyFloat :=
  (allow.div (if stress.isNeg then .zero false else stress)).subOne

open Classical in
/-- `allow / stress.mask(stress > 0, 0).abs() - 1`  [strength.py:409, 411] -/
noncomputable def zMarginC (allow stress : SF) : PyFloat :=
  (allow.div (if stress.isPos then .zero false else stress).abs).subOne

/-- `allow / stress.abs() - 1`  [strength.py:412] -/
noncomputable def zMarginS (allow stress : SF) : PyFloat := (allow.div stress.abs).subOne

/-- The five margins of a row: allowables `t1, c1, t2, c2, s` and stresses `sigma1, sigma2, tau12`
[strength.py:408-412] -/
noncomputable def zMargins (a : Fin 5 → SF) (s : Fin 3 → SF) : Fin 5 → PyFloat :=
  ![zMarginT (a 0) (s 0), zMarginC (a 1) (s 0), zMarginT (a 2) (s 1), zMarginC (a 3) (s 1), zMarginS (a 4) (s 2)]

end Composipy
