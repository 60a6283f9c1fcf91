import Verif.Model.Material
import Mathlib.Analysis.SpecialFunctions.Trigonometric.Basic

/-!
# The notebook on lamination parameters

Model of the computer-algebra cells of `composipy/theoretical/Lamination_Parameters_sensitivity.ipynb`
(lines are replaced by cell numbers, counted from 0). Expressions of sympy are read as real
functions of their symbols; the outputs stored in the notebook are transcribed where the notebook
goes on to use them (cells 25, 40, 42). sympy itself and the plot are not modelled.
-/

namespace Composipy
open Matrix

/-- `Gamma0`  [Lamination_Parameters_sensitivity.ipynb, cell 2] -/
def nbGamma0 (U : Invariants) : M3 := !![U.U1, U.U4, 0; U.U4, U.U1, 0; 0, 0, U.U5]

/-- `Gamma1`  [Lamination_Parameters_sensitivity.ipynb, cell 2] -/
def nbGamma1 (U : Invariants) : M3 := !![U.U2, 0, 0; 0, -U.U2, 0; 0, 0, 0]

/-- `Gamma2`  [Lamination_Parameters_sensitivity.ipynb, cell 2] -/
noncomputable def nbGamma2 (U : Invariants) : M3 := !![0, 0, U.U2 / 2; 0, 0, U.U2 / 2; U.U2 / 2, U.U2 / 2, 0]

/-- `Gamma3`  [Lamination_Parameters_sensitivity.ipynb, cell 2] -/
def nbGamma3 (U : Invariants) : M3 := !![U.U3, -U.U3, 0; -U.U3, U.U3, 0; 0, 0, -U.U3]

/-- `Gamma4`  [Lamination_Parameters_sensitivity.ipynb, cell 2] -/
def nbGamma4 (U : Invariants) : M3 := !![0, 0, U.U3; 0, 0, -U.U3; U.U3, -U.U3, 0]

/-- `D`, with `xiD` the four symbols  [Lamination_Parameters_sensitivity.ipynb, cell 3] -/
noncomputable def nbD (U : Invariants) (T : ℝ) (xi : Fin 4 → ℝ) : M3 :=
  (T ^ 3 / 12) • (nbGamma0 U + xi 0 • nbGamma1 U + xi 1 • nbGamma2 U + xi 2 • nbGamma3 U + xi 3 • nbGamma4 U)

/-- The symbols `T`, `a`, `b`, `m`, `n`  [Lamination_Parameters_sensitivity.ipynb, cells 2 and 6] -/
structure NbPlate where
  T : ℝ
  a : ℝ
  b : ℝ
  m : ℝ
  n : ℝ

/-- `Nxcr` as a function of the stiffness  [Lamination_Parameters_sensitivity.ipynb, cell 8] -/
noncomputable def nbNxcrOf (D : M3) (p : NbPlate) : ℝ :=
  let AR := p.a / p.b
  Real.pi ^ 2 / (p.a ^ 2 * p.m ^ 2)
    * (D 0 0 * p.m ^ 4 + 2 * (D 0 1 + 2 * D 2 2) * p.m ^ 2 * p.n ^ 2 * AR ^ 2 + D 1 1 * p.n ^ 4 * AR ^ 4)

/-- `Nxcr`  [Lamination_Parameters_sensitivity.ipynb, cell 8] -/
noncomputable def nbNxcr (U : Invariants) (p : NbPlate) (xi : Fin 4 → ℝ) : ℝ := nbNxcrOf (nbD U p.T xi) p

/-- `g1`  [Lamination_Parameters_sensitivity.ipynb, cell 11] -/
def nbG1 (xi1 xi3 : ℝ) : ℝ := xi3 - 2 * xi1 ^ 2 + 1

/-- `g2`  [Lamination_Parameters_sensitivity.ipynb, cell 11] -/
def nbG2 (xi3 : ℝ) : ℝ := xi3 - 1

/-- `L`  [Lamination_Parameters_sensitivity.ipynb, cell 15] -/
noncomputable def nbL (U : Invariants) (p : NbPlate) (xi : Fin 4 → ℝ) (v1 v2 : ℝ) : ℝ :=
  nbNxcr U p xi + v1 * nbG1 (xi 0) (xi 2) + v2 * nbG2 (xi 2)

/-- The output stored for `grad_L`: derivatives by `xi1`, `xi3`, `v1`, `v2`
[Lamination_Parameters_sensitivity.ipynb, cell 16] -/
noncomputable def nbGrad (U : Invariants) (p : NbPlate) (xi1 xi3 v1 v2 : ℝ) : Fin 4 → ℝ :=
  ![-4 * v1 * xi1
      + Real.pi ^ 2 * (-p.T ^ 3 * U.U2 * p.a ^ 4 * p.n ^ 4 / (12 * p.b ^ 4) + p.T ^ 3 * U.U2 * p.m ^ 4 / 12) / (p.a ^ 2 * p.m ^ 2),
    v1 + v2
      + Real.pi ^ 2 * (p.T ^ 3 * U.U3 * p.a ^ 4 * p.n ^ 4 / (12 * p.b ^ 4) - p.T ^ 3 * U.U3 * p.a ^ 2 * p.m ^ 2 * p.n ^ 2 / (2 * p.b ^ 2)
          + p.T ^ 3 * U.U3 * p.m ^ 4 / 12) / (p.a ^ 2 * p.m ^ 2),
    -2 * xi1 ^ 2 + xi3 + 1,
    xi3 - 1]

/-- The four systems handed to `nonlinsolve`: which of `v1`, `v2` is set to zero and which
components of the gradient are kept  [Lamination_Parameters_sensitivity.ipynb, cells 18, 20, 22, 26] -/
def nbCase (U : Invariants) (p : NbPlate) (k : Fin 4) (xi1 xi3 v1 v2 : ℝ) : Prop :=
  match k with
  | 0 => ∀ i, nbGrad U p xi1 xi3 v1 v2 i = 0
  | 1 => nbGrad U p xi1 xi3 0 v2 0 = 0 ∧ nbGrad U p xi1 xi3 0 v2 1 = 0 ∧ nbGrad U p xi1 xi3 0 v2 3 = 0
  | 2 => nbGrad U p xi1 xi3 v1 0 0 = 0 ∧ nbGrad U p xi1 xi3 v1 0 1 = 0 ∧ nbGrad U p xi1 xi3 v1 0 2 = 0
  | 3 => nbGrad U p xi1 xi3 0 0 0 = 0 ∧ nbGrad U p xi1 xi3 0 0 1 = 0

/-- The output stored for case 1, the two points in order: `xi1`, `xi3`, `v1`, `v2`
[Lamination_Parameters_sensitivity.ipynb, cell 19] -/
noncomputable def nbSol1 (U : Invariants) (p : NbPlate) : List (ℝ × ℝ × ℝ × ℝ) :=
  [(-1, 1,
    Real.pi ^ 2 * p.T ^ 3 * U.U2 * (p.a * p.n - p.b * p.m) * (p.a * p.n + p.b * p.m) * (p.a ^ 2 * p.n ^ 2 + p.b ^ 2 * p.m ^ 2)
      / (48 * p.a ^ 2 * p.b ^ 4 * p.m ^ 2),
    (-Real.pi ^ 2 * p.T ^ 3 * U.U2 * p.a ^ 4 * p.n ^ 4 + Real.pi ^ 2 * p.T ^ 3 * U.U2 * p.b ^ 4 * p.m ^ 4
      - 4 * Real.pi ^ 2 * p.T ^ 3 * U.U3 * p.a ^ 4 * p.n ^ 4 + 24 * Real.pi ^ 2 * p.T ^ 3 * U.U3 * p.a ^ 2 * p.b ^ 2 * p.m ^ 2 * p.n ^ 2
      - 4 * Real.pi ^ 2 * p.T ^ 3 * U.U3 * p.b ^ 4 * p.m ^ 4) / (48 * p.a ^ 2 * p.b ^ 4 * p.m ^ 2)),
   (1, 1,
    -Real.pi ^ 2 * p.T ^ 3 * U.U2 * (p.a * p.n - p.b * p.m) * (p.a * p.n + p.b * p.m) * (p.a ^ 2 * p.n ^ 2 + p.b ^ 2 * p.m ^ 2)
      / (48 * p.a ^ 2 * p.b ^ 4 * p.m ^ 2),
    (Real.pi ^ 2 * p.T ^ 3 * U.U2 * p.a ^ 4 * p.n ^ 4 - Real.pi ^ 2 * p.T ^ 3 * U.U2 * p.b ^ 4 * p.m ^ 4
      - 4 * Real.pi ^ 2 * p.T ^ 3 * U.U3 * p.a ^ 4 * p.n ^ 4 + 24 * Real.pi ^ 2 * p.T ^ 3 * U.U3 * p.a ^ 2 * p.b ^ 2 * p.m ^ 2 * p.n ^ 2
      - 4 * Real.pi ^ 2 * p.T ^ 3 * U.U3 * p.b ^ 4 * p.m ^ 4) / (48 * p.a ^ 2 * p.b ^ 4 * p.m ^ 2))]

/-- `xi1_opt`  [Lamination_Parameters_sensitivity.ipynb, cells 23 and 25] -/
noncomputable def nbXi1Opt (U : Invariants) (p : NbPlate) : ℝ :=
  U.U2 * (p.a * p.n - p.b * p.m) * (p.a * p.n + p.b * p.m) * (p.a ^ 2 * p.n ^ 2 + p.b ^ 2 * p.m ^ 2)
    / (4 * U.U3 * (p.a ^ 2 * p.n ^ 2 - 2 * p.a * p.b * p.m * p.n - p.b ^ 2 * p.m ^ 2)
        * (p.a ^ 2 * p.n ^ 2 + 2 * p.a * p.b * p.m * p.n - p.b ^ 2 * p.m ^ 2))

/-- `xi3_opt`  [Lamination_Parameters_sensitivity.ipynb, cells 23 to 25] -/
noncomputable def nbXi3Opt (U : Invariants) (p : NbPlate) : ℝ :=
  (U.U2 ^ 2 * p.a ^ 8 * p.n ^ 8 - 2 * U.U2 ^ 2 * p.a ^ 4 * p.b ^ 4 * p.m ^ 4 * p.n ^ 4 + U.U2 ^ 2 * p.b ^ 8 * p.m ^ 8
      - 8 * U.U3 ^ 2 * p.a ^ 8 * p.n ^ 8 + 96 * U.U3 ^ 2 * p.a ^ 6 * p.b ^ 2 * p.m ^ 2 * p.n ^ 6
      - 304 * U.U3 ^ 2 * p.a ^ 4 * p.b ^ 4 * p.m ^ 4 * p.n ^ 4 + 96 * U.U3 ^ 2 * p.a ^ 2 * p.b ^ 6 * p.m ^ 6 * p.n ^ 2
      - 8 * U.U3 ^ 2 * p.b ^ 8 * p.m ^ 8)
    / (8 * U.U3 ^ 2 * (p.a ^ 2 * p.n ^ 2 - 2 * p.a * p.b * p.m * p.n - p.b ^ 2 * p.m ^ 2) ^ 2
        * (p.a ^ 2 * p.n ^ 2 + 2 * p.a * p.b * p.m * p.n - p.b ^ 2 * p.m ^ 2) ^ 2)

/-- `v1` of the solution stored for case 3  [Lamination_Parameters_sensitivity.ipynb, cell 23] -/
noncomputable def nbV1Opt (U : Invariants) (p : NbPlate) : ℝ :=
  -Real.pi ^ 2 * p.T ^ 3 * U.U3 * (p.a ^ 2 * p.n ^ 2 - 2 * p.a * p.b * p.m * p.n - p.b ^ 2 * p.m ^ 2)
      * (p.a ^ 2 * p.n ^ 2 + 2 * p.a * p.b * p.m * p.n - p.b ^ 2 * p.m ^ 2)
    / (12 * p.a ^ 2 * p.b ^ 4 * p.m ^ 2)

/-- `mat1`  [Lamination_Parameters_sensitivity.ipynb, cell 31] -/
noncomputable def nbMat : OrthoMat ℝ := ⟨60000, 7000, 0.3, 400, 0.21, 0, 0, 0, 0, 0⟩

/-- `U1_val` to `U5_val`  [Lamination_Parameters_sensitivity.ipynb, cell 33] -/
noncomputable def nbUval (Q : M3) : Invariants :=
  { U1 := 1/8 * (3*Q 0 0 + 3*Q 1 1 + 2*Q 0 1 + 4*Q 2 2)
    U2 := 1/2 * (Q 0 0 - Q 1 1)
    U3 := 1/8 * (Q 0 0 + Q 1 1 - 2*Q 0 1 - 4*Q 2 2)
    U4 := 1/8 * (Q 0 0 + Q 1 1 + 6*Q 0 1 - 4*Q 2 2)
    U5 := 1/8 * (Q 0 0 + Q 1 1 - 2*Q 0 1 + 4*Q 2 2) }

/-- The values put in for the symbols  [Lamination_Parameters_sensitivity.ipynb, cell 30] -/
noncomputable def nbVal : NbPlate := ⟨1, 200, 200, 1, 1⟩

end Composipy
