import Verif.Model.ShapeFunctions
import Mathlib.Algebra.Polynomial.AlgebraMap
import Mathlib.Data.Real.Basic

/-!
# Model of the scripts in `theoretical`
[theoretical/write_bardell_terms.py, theoretical/LP_test_composipy.py]

Simplification: sympy expressions in `xi` are polynomials, their coefficients are expressions in the four flags `t1, r1, t2, r2`, that is elements of any
commutative ring containing the rationals; the float constants are exact.  `print` is not modelled.
-/

namespace Composipy
open Polynomial

/-- `f1`, `f2`, `f3`, `f4` of the script  [write_bardell_terms.py:7-10] -/
noncomputable def scriptFour : ℕ → ℚ[X]
  | 0 => C (1/2) - C (3/4) * X + C (1/4) * X ^ 3
  | 1 => C (1/8) - C (1/8) * X - C (1/8) * X ^ 2 + C (1/8) * X ^ 3
  | 2 => C (1/2) + C (3/4) * X - C (1/4) * X ^ 3
  | _ => -C (1/8) - C (1/8) * X + C (1/8) * X ^ 2 + C (1/8) * X ^ 3

/-- The dictionary `f_xi` after the script has run, in the order of its entries; `_orth_polynomials` has the text of the function in
`write_shape_function.py` with the global `xi`, `n_terms = 10`.  [write_bardell_terms.py:5-17, 20-48] -/
noncomputable def bardellTerms {R : Type} [CommRing R] [Algebra ℚ R] (t1 r1 t2 r2 : R) : List (ℕ × R[X]) :=
  [(0, C t1 * (scriptFour 0).map (algebraMap ℚ R)), (1, C r1 * (scriptFour 1).map (algebraMap ℚ R)), (2, C t2 * (scriptFour 2).map (algebraMap ℚ R)),
    (3, C r2 * (scriptFour 3).map (algebraMap ℚ R))] ++ (List.range' 4 (10 - 4)).map fun i => (i, (orthPoly (i + 1)).map (algebraMap ℚ R))

/-- `stack = 25 * [45, -45]; stack += stack[::-1]`  [LP_test_composipy.py:16-17] -/
noncomputable def scriptStack : List ℝ :=
  let stack := (List.replicate 25 [45, -45]).flatten
  stack ++ stack.reverse

end Composipy
