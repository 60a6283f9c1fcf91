import Verif.Model.Laminate

/-!
# Model of the stiffness calculations in floating-point arithmetic

The other numeric models compute with exact real numbers.  Here the calculations of `material.py` and `property.py` are
repeated operation by operation with a rounding after each of them, in the order of the Python expressions.
Contracts: a rounded result differs from the exact one by at most `u` times its size (no overflow or underflow); NumPy's matrix
product sums three products in any order; `np.linalg.inv` is any function on matrices, possibly raising.
-/

namespace Composipy

/-- Floating-point arithmetic: `fl` rounds the result of an operation, `pw x n` is `x**n` (the C library's `pow`).  `u` bounds the relative
error; for IEEE doubles rounded to nearest it is `2^-53`, and `2^-52` covers a `pow` with an error below one unit in the last place. -/
structure FloatArith where
  u : ℝ
  fl : ℝ → ℝ
  pw : ℝ → ℕ → ℝ
  near : ∀ x, |fl x - x| ≤ u * |x|
  nearPw : ∀ x n, |pw x n - x ^ n| ≤ u * |x ^ n|

/-- The NumPy functions used on floats: `cos`, `sin`, the product `@` of two 3x3 matrices and `np.linalg.inv`. -/
structure FloatLib extends FloatArith where
  cos : ℝ → ℝ
  sin : ℝ → ℝ
  mm : M3 → M3 → M3
  inv : M3 → Except PyErr M3
  nearCos : ∀ x, |cos x - Real.cos x| ≤ u * |Real.cos x|
  nearSin : ∀ x, |sin x - Real.sin x| ≤ u * |Real.sin x|
  nearMm : ∀ A B i j, |mm A B i j - (A * B) i j| ≤ ((1 + u) ^ 3 - 1) * ∑ k, |A i k| * |B k j|

namespace FloatArith
variable (F : FloatArith)

/-- First loop of `z_position`  [property.py:113-115] -/
def totalThickness (layup : List (ℝ × Mat)) : ℝ :=
  layup.foldl (fun tot p => F.fl (tot + p.2.thickness)) 0

/-- `z_position`  [property.py:110-123]; the sign change is exact. -/
noncomputable def zPositionOf (layup : List (ℝ × Mat)) : List ℝ :=
  let z0 := F.fl (-(F.totalThickness layup) / 2)
  (layup.foldl (fun st p => (F.fl (st.1 + p.2.thickness), st.2 ++ [F.fl (st.1 + p.2.thickness)])) (z0, [z0])).2

/-- `M += w * Q`, entry by entry  [property.py:205, 228, 261] -/
def addTerm (w : ℝ) (acc Q : M3) : M3 := fun i j => F.fl (acc i j + F.fl (w * Q i j))

/-- The loop of `A`, `B`, `D`  [property.py:202-205, 225-228, 258-261] -/
def momentLoop (w : ℝ → ℝ → ℝ) (z : List ℝ) (Qs : List M3) (acc : M3) : Except PyErr M3 :=
  Qs.zipIdx.foldlM (fun acc (Qi : M3 × Nat) => do
    let zk1 ← pyIdx z (Qi.2 + 1)
    let zk0 ← pyIdx z Qi.2
    return F.addTerm (w zk0 zk1) acc Qi.1) acc

/-- Weight `(zk1-zk0)`  [property.py:205] -/
def wA (zk0 zk1 : ℝ) : ℝ := F.fl (zk1 - zk0)
/-- Weight `(1/2)*(zk1**2-zk0**2)`  [property.py:228] -/
noncomputable def wB (zk0 zk1 : ℝ) : ℝ := F.fl (F.fl (1/2) * F.fl (F.pw zk1 2 - F.pw zk0 2))
/-- Weight `(1/3)*(zk1**3-zk0**3)`  [property.py:261] -/
noncomputable def wD (zk0 zk1 : ℝ) : ℝ := F.fl (F.fl (1/3) * F.fl (F.pw zk1 3 - F.pw zk0 3))

/-- A stiffness matrix of a layup whose rotated stiffnesses were computed as `Qs`  [property.py:199-206, 222-229, 255-262] -/
noncomputable def loopMatrix (layup : List (ℝ × Mat)) (Qs : List M3) (w : ℝ → ℝ → ℝ) : Except PyErr M3 :=
  F.momentLoop w (F.zPositionOf layup) Qs 0

/-- `self.__v21 = self.v12 * (self.e2/self.e1)`  [material.py:82] -/
noncomputable def v21 (m : OrthoMat ℝ) : ℝ := F.fl (m.v12 * F.fl (m.e2 / m.e1))

/-- The denominator `1-self.v12*self.v21`  [material.py:141-143] -/
noncomputable def orthoDen (m : OrthoMat ℝ) : ℝ := F.fl (1 - F.fl (m.v12 * F.v21 m))

/-- `OrthotropicMaterial.Q_0`  [material.py:129-148] -/
noncomputable def orthoQ0 (m : OrthoMat ℝ) : Except PyErr M3 := do
  let Q11 ← pyDiv m.e1 (F.orthoDen m)
  let Q12 ← pyDiv (F.fl (m.v12 * m.e2)) (F.orthoDen m)
  let Q22 ← pyDiv m.e2 (F.orthoDen m)
  return !![F.fl Q11, F.fl Q12, 0; F.fl Q12, F.fl Q22, 0; 0, 0, m.g12]

/-- The denominator `1-self.v*self.v`  [material.py:289-291] -/
noncomputable def isoDen (m : IsoMat ℝ) : ℝ := F.fl (1 - F.fl (m.v * m.v))

/-- `IsotropicMaterial.Q_0`  [material.py:277-296] -/
noncomputable def isoQ0 (m : IsoMat ℝ) : Except PyErr M3 := do
  let Q11 ← pyDiv m.e (F.isoDen m)
  let Q12 ← pyDiv (F.fl (m.v * m.e)) (F.isoDen m)
  let Q22 ← pyDiv m.e (F.isoDen m)
  return !![F.fl Q11, F.fl Q12, 0; F.fl Q12, F.fl Q22, 0; 0, 0, m.g]

/-- `Q_0` of either material. -/
noncomputable def Q0 : Mat → Except PyErr M3
  | .ortho m => F.orthoQ0 m
  | .iso m => F.isoQ0 m

/-- Body of `Invariants`, sums from left to right  [material.py:161-172] -/
noncomputable def invariantsOf (Q : M3) : Invariants :=
  let Q11 := Q 0 0
  let Q12 := Q 0 1
  let Q22 := Q 1 1
  let Q66 := Q 2 2
  { U1 := F.fl (F.fl (1/8) * F.fl (F.fl (F.fl (F.fl (3*Q11) + F.fl (3*Q22)) + F.fl (2*Q12)) + F.fl (4*Q66)))
    U2 := F.fl (F.fl (1/2) * F.fl (Q11 - Q22))
    U3 := F.fl (F.fl (1/8) * F.fl (F.fl (F.fl (Q11 + Q22) - F.fl (2*Q12)) - F.fl (4*Q66)))
    U4 := F.fl (F.fl (1/8) * F.fl (F.fl (F.fl (Q11 + Q22) + F.fl (6*Q12)) - F.fl (4*Q66)))
    U5 := F.fl (F.fl (1/8) * F.fl (F.fl (F.fl (Q11 + Q22) - F.fl (2*Q12)) + F.fl (4*Q66))) }

/-- The brackets of the lamination-parameter formulas, in the order 11, 12, 13, 22, 23, 33  [property.py:185-193, 241-249] -/
noncomputable def lpBracket (U : Invariants) (xi1 xi2 xi3 xi4 : ℝ) : M3 :=
  let b11 := F.fl (F.fl (U.U1 + F.fl (U.U2*xi1)) + F.fl (U.U3*xi3))
  let b12 := F.fl (F.fl (-U.U3*xi3) + U.U4)
  let b13 := F.fl (F.fl (F.fl (U.U2*xi2)/2) + F.fl (U.U3*xi4))
  let b22 := F.fl (F.fl (U.U1 - F.fl (U.U2*xi1)) + F.fl (U.U3*xi3))
  let b23 := F.fl (F.fl (F.fl (U.U2*xi2)/2) - F.fl (U.U3*xi4))
  let b33 := F.fl (F.fl (-U.U3*xi3) + U.U5)
  !![b11, b12, b13; b12, b22, b23; b13, b23, b33]

/-- `A` from lamination parameters: `T*(...)`  [property.py:182-197] -/
noncomputable def lpA (U : Invariants) (xi1 xi2 xi3 xi4 T : ℝ) : M3 :=
  fun i j => F.fl (T * F.lpBracket U xi1 xi2 xi3 xi4 i j)

/-- `D` from lamination parameters: `T**3*(...)/12`  [property.py:237-253] -/
noncomputable def lpD (U : Invariants) (xi1 xi2 xi3 xi4 T : ℝ) : M3 :=
  fun i j => F.fl (F.fl (F.pw T 3 * F.lpBracket U xi1 xi2 xi3 xi4 i j) / 12)

end FloatArith

namespace FloatLib
variable (F : FloatLib)

/-- `theta*np.pi/180`  [property.py:131-132] -/
noncomputable def rad (theta : ℝ) : ℝ := F.fl (F.fl (theta * F.fl Real.pi) / 180)

/-- `T_real`  [property.py:134-138]; `2*c*s` is `(2*c)*s` and the signs are exact. -/
noncomputable def Treal (theta : ℝ) : M3 :=
  let c := F.cos (F.rad theta)
  let s := F.sin (F.rad theta)
  !![F.pw c 2, F.pw s 2, F.fl (F.fl (2*c)*s);
     F.pw s 2, F.pw c 2, F.fl (F.fl (-2*c)*s);
     F.fl (-c*s), F.fl (c*s), F.fl (F.pw c 2 - F.pw s 2)]

/-- `T_engineering`  [property.py:139-143] -/
noncomputable def Teng (theta : ℝ) : M3 :=
  let c := F.cos (F.rad theta)
  let s := F.sin (F.rad theta)
  !![F.pw c 2, F.pw s 2, F.fl (c*s);
     F.pw s 2, F.pw c 2, F.fl (-c*s);
     F.fl (F.fl (-2*c)*s), F.fl (F.fl (2*c)*s), F.fl (F.pw c 2 - F.pw s 2)]

/-- One iteration of the loop of `Q_layup`  [property.py:130-149] -/
noncomputable def plyQ (p : ℝ × Mat) : Except PyErr M3 := do
  let Tinv ← F.inv (F.Treal p.1)
  let Q ← F.Q0 p.2
  return F.mm (F.mm Tinv Q) (F.Teng p.1)

/-- `Q_layup` on a fresh object  [property.py:125-150] -/
noncomputable def Qlayup (layup : List (ℝ × Mat)) : Except PyErr (List M3) := layup.mapM F.plyQ

/-- `A`, `B` or `D` of a stack on a fresh object  [property.py:199-206, 222-229, 255-262] -/
noncomputable def stiffness (layup : List (ℝ × Mat)) (w : ℝ → ℝ → ℝ) : Except PyErr M3 := do
  let Qs ← F.Qlayup layup
  F.loopMatrix layup Qs w

end FloatLib

end Composipy
