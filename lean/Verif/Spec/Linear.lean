import Mathlib.LinearAlgebra.Matrix.Symmetric
import Mathlib.Data.Matrix.Mul
import Mathlib.Data.Real.Basic

/-!
# Specification: positive definite matrices, rotated strains
-/

namespace Composipy.Spec

open Matrix

/-- Symmetric with positive quadratic form. -/
def IsPD {n : Type} [Fintype n] (M : Matrix n n ℝ) : Prop :=
  M.IsSymm ∧ ∀ x : n → ℝ, x ≠ 0 → 0 < x ⬝ᵥ (M *ᵥ x)

/-- Symmetric with non-negative quadratic form. -/
def IsPSD {n : Type} [Fintype n] (M : Matrix n n ℝ) : Prop :=
  M.IsSymm ∧ ∀ x : n → ℝ, 0 ≤ x ⬝ᵥ (M *ᵥ x)

end Composipy.Spec
