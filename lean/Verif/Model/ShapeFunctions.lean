import Mathlib.Algebra.Polynomial.Derivative
import Mathlib.Data.Nat.Factorial.DoubleFactorial
import Mathlib.Data.Real.Basic
import Mathlib.Data.Rat.Cast.CharZero
import Mathlib.Data.Rat.Cast.Defs

/-!
# Model of the generators of the shape functions
[pre_integrated_component/write_shape_function.py, write_pre_integrated_terms.py]

Simplification: sympy expressions in `xi` are polynomials with rational coefficients (the float
constants `1/2, 3/4, 1/4, 1/8` of the first four functions are exact).
-/

namespace Composipy
open Polynomial
open scoped Nat

/-- Coefficient of `xi**(r-2*n-1)` in `_orth_polynomials(r, xi)`.
`sp.factorial2(2*r-2*n-7)` is only needed for `2*r-2*n-7 >= -1`, and `factorial2(-1) = 1 = 0‼`.
[write_shape_function.py:41-47, write_pre_integrated_terms.py:43-49] -/
def orthCoef (r n : ℕ) : ℚ :=
  (-1) ^ n * ((2 * r - 2 * n - 7)‼ : ℕ) / (2 ^ n * (n ! : ℕ) * ((r - 2 * n - 1)! : ℕ))

/-- `_orth_polynomials(r, xi)`.  For even `r` the last summand has `sp.factorial(-1) = zoo` in its
denominator and vanishes.  [write_shape_function.py:24-49, write_pre_integrated_terms.py:26-51] -/
noncomputable def orthPoly (r : ℕ) : ℚ[X] :=
  ∑ n ∈ Finset.range (r / 2 + 1), if 2 * n + 1 ≤ r then monomial (r - 2 * n - 1) (orthCoef r n) else 0

/-- The complete set of shape functions `F` (`FXI` in the other script), index 0, 1, 2, ...
[write_shape_function.py:8-11, 18, 73-75; write_pre_integrated_terms.py:8-13, 75-76] -/
noncomputable def bardell : ℕ → ℚ[X]
  | 0 => C (1/2) - C (3/4) * X + C (1/4) * X ^ 3
  | 1 => C (1/8) - C (1/8) * X - C (1/8) * X ^ 2 + C (1/8) * X ^ 3
  | 2 => C (1/2) + C (3/4) * X - C (1/4) * X ^ 3
  | 3 => -C (1/8) - C (1/8) * X + C (1/8) * X ^ 2 + C (1/8) * X ^ 3
  | i => orthPoly (i + 1)

/-- The shape functions as real polynomials. -/
noncomputable def shape (i : ℕ) : ℝ[X] := (bardell i).map (Rat.castHom ℝ)

end Composipy
