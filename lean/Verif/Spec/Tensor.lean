import Verif.Model.Laminate

/-!
# Specification: plane stress tensors and their rotation
-/

namespace Composipy.Spec
open Matrix

/-- 2x2 real matrices: plane tensors. -/
abbrev M2 := Matrix (Fin 2) (Fin 2) ℝ

/-- Change of basis to axes rotated by `theta` degrees. -/
noncomputable def basis (theta : ℝ) : M2 :=
  !![Real.cos (theta * Real.pi / 180), Real.sin (theta * Real.pi / 180);
     -Real.sin (theta * Real.pi / 180), Real.cos (theta * Real.pi / 180)]

/-- Stress vector `[s1, s2, tau]` as a tensor. -/
noncomputable def stressTensor (s : Fin 3 → ℝ) : M2 := !![s 0, s 2; s 2, s 1]

/-- Strain vector `[e1, e2, gamma]` (engineering shear) as a tensor. -/
noncomputable def strainTensor (e : Fin 3 → ℝ) : M2 := !![e 0, e 2 / 2; e 2 / 2, e 1]

/-- The tensor seen from axes rotated by `theta` degrees. -/
noncomputable def rotate (theta : ℝ) (t : M2) : M2 := basis theta * t * (basis theta)ᵀ

/-- `Qb` is the stiffness of the material `Q` turned by `theta`: for every plate-axis strain, the
plate-axis stress `Qb e`, rotated to material axes, is `Q` applied to the rotated strain. -/
def IsRotatedStiffness (theta : ℝ) (Q Qb : M3) : Prop :=
  ∀ e e' : Fin 3 → ℝ, strainTensor e' = rotate theta (strainTensor e) →
    stressTensor (Q *ᵥ e') = rotate theta (stressTensor (Qb *ᵥ e))

end Composipy.Spec
