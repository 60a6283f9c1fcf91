import Verif.Lemmas.PlateCert

/-!
# The designs of the panel of `Optimization_buckling.ipynb`
-/

namespace Composipy

/-- Invariants of the material. -/
def bookInv : Fin 5 → ℚ :=
  ![116559546325 / 2420583, 1033600000 / 806861, 9401751225 / 806861, 38121733675 / 2420583, 13072968775 / 806861]

/-- Stiffness of the design with given lamination parameters, 4.2 thick. -/
def designD (x1 x3 : ℚ) : Matrix (Fin 3) (Fin 3) ℚ :=
  !![(21 / 5) ^ 3 / 12 * (bookInv 0 + bookInv 1 * x1 + bookInv 2 * x3), (21 / 5) ^ 3 / 12 * (bookInv 3 - bookInv 2 * x3), 0;
     (21 / 5) ^ 3 / 12 * (bookInv 3 - bookInv 2 * x3), (21 / 5) ^ 3 / 12 * (bookInv 0 - bookInv 1 * x1 + bookInv 2 * x3), 0;
     0, 0, (21 / 5) ^ 3 / 12 * (bookInv 4 - bookInv 2 * x3)]

/-- The plate with this stiffness. -/
def designPlate (x1 x3 : ℚ) : IntPlate := ⟨designD x1 x3, 360, 360, -1, -1/2, 1/2, [1, 3, 4, 5, 6, 7, 8], [0, 1, 3, 4, 5, 6, 7]⟩

/-- Check of the value of the form at a vector. -/
def IntPlate.formOk (I : IntPlate) (mu : ℚ) (den : ℕ) (c : Coef9) (k u x : ℕ) (val : ℤ) : Bool :=
  I.small && coefOk I.Dq I.a I.b I.Nxx I.Nyy I.Nxy mu den c && quadOk c k u I.xs I.ys x val

end Composipy
