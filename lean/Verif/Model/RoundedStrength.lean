import Verif.Model.Rounded
import Verif.Model.Strength

/-!
# Model of `composipy/core/strength.py` in floating-point arithmetic

The calculation of `Model/Strength.lean` for a stack, on the stiffnesses of `Model/Rounded.lean`, with a rounding after every operation.
Contracts: a product of a matrix and a vector sums its products in any order; `np.linalg.inv` is any function, possibly raising.
-/

namespace Composipy
open Matrix

/-- The NumPy functions used on floats by `strength.py`: products with vectors and the inverse of a 6x6 matrix. -/
structure FloatClt extends FloatLib where
  mv : M3 → V3 → V3
  mv6 : M6 → V6 → V6
  inv6 : M6 → Except PyErr M6
  nearMv : ∀ A x i, |mv A x i - (A *ᵥ x) i| ≤ ((1 + u) ^ 3 - 1) * ∑ k, |A i k| * |x k|
  nearMv6 : ∀ A x i, |mv6 A x i - (A *ᵥ x) i| ≤ ((1 + u) ^ 6 - 1) * ∑ k, |A i k| * |x k|

namespace FloatClt
variable (F : FloatClt)

/-- `ABD`  [property.py:264-271] -/
noncomputable def ABD (layup : List (ℝ × Mat)) : Except PyErr M6 := do
  let A ← F.stiffness layup F.wA
  let B ← F.stiffness layup F.wB
  let D ← F.stiffness layup F.wD
  return Matrix.fromBlocks A B B D

/-- `epsilon0`  [strength.py:53-66] -/
noncomputable def epsilon0 (layup : List (ℝ × Mat)) (N : V6) : Except PyErr V6 := do
  let ABD ← F.ABD layup
  let abd ← F.inv6 ABD
  return F.mv6 abd N

/-- `epsilon + h * kappa`  [strength.py:92-96] -/
def strainAt (e : V6) (h : ℝ) : V3 := fun i => F.fl (membrane e i + F.fl (h * curvature e i))

/-- `_epsilonk`  [strength.py:69-97] -/
noncomputable def epsilonk (layup : List (ℝ × Mat)) (N : V6) : Except PyErr (List (V3 × V3)) := do
  let zmid ← zPairs (F.zPositionOf layup) layup.length
  let e ← F.epsilon0 layup N
  return zmid.map fun h => (F.strainAt e h.1, F.strainAt e h.2)

/-- `_stressk`  [strength.py:100-121] -/
noncomputable def stressk (layup : List (ℝ × Mat)) (N : V6) : Except PyErr (List (V3 × V3)) := do
  let Qk ← F.Qlayup layup
  let ek ← F.epsilonk layup N
  return (Qk.zip ek).map fun p => (F.mv p.1 p.2.1, F.mv p.1 p.2.2)

/-- `v[2] /= 2`  [strength.py:133-134] -/
noncomputable def halveShear (v : V3) : V3 := Function.update v 2 (F.fl (v 2 / 2))
/-- `v[2] *= 2`  [strength.py:144-145] -/
noncomputable def doubleShear (v : V3) : V3 := Function.update v 2 (F.fl (v 2 * 2))

/-- `_epsilonk_123`  [strength.py:123-148] -/
noncomputable def epsilonk123 (layup : List (ℝ × Mat)) (N : V6) : Except PyErr (List (V3 × V3)) := do
  let ek ← F.epsilonk layup N
  return ((layup.map Prod.fst).zip ek).map fun p =>
    (F.doubleShear (F.mv (F.Treal p.1) (F.halveShear p.2.1)), F.doubleShear (F.mv (F.Treal p.1) (F.halveShear p.2.2)))

/-- `_stressk_123`  [strength.py:151-176] -/
noncomputable def stressk123 (layup : List (ℝ × Mat)) (N : V6) : Except PyErr (List (V3 × V3)) := do
  let sk ← F.stressk layup N
  return ((layup.map Prod.fst).zip sk).map fun p => (F.mv (F.Treal p.1) p.2.1, F.mv (F.Treal p.1) p.2.2)

/-- `calculate_strain`  [strength.py:202-266] -/
noncomputable def calculateStrain (layup : List (ℝ × Mat)) (N : V6) : Except PyErr (List Row) := do
  let ek ← F.epsilonk layup N
  let ek123 ← F.epsilonk123 layup N
  fillRows (F.zPositionOf layup) ek ek123 (layup.map Prod.fst)

/-- `calculate_stress`  [strength.py:269-334] -/
noncomputable def calculateStress (layup : List (ℝ × Mat)) (N : V6) : Except PyErr (List Row) := do
  let sk ← F.stressk layup N
  let sk123 ← F.stressk123 layup N
  fillRows (F.zPositionOf layup) sk sk123 (layup.map Prod.fst)

/-- `q - 1` for a quotient `q`, both rounded  [strength.py:408-412] -/
noncomputable def subOne : PyFloat → PyFloat
  | .fin r => .fin (F.fl (F.fl r - 1))
  | x => x

open Classical in
/-- `allow / stress.mask(stress < 0, 0) - 1`  [strength.py:408, 410] -/
noncomputable def marginT (allow stress : ℝ) : PyFloat := F.subOne (npDiv allow (if stress < 0 then 0 else stress))

open Classical in
/-- `allow / stress.mask(stress > 0, 0).abs() - 1`  [strength.py:409, 411] -/
noncomputable def marginC (allow stress : ℝ) : PyFloat := F.subOne (npDiv allow |if stress > 0 then 0 else stress|)

/-- `allow / stress.abs() - 1`  [strength.py:412] -/
noncomputable def marginS (allow stress : ℝ) : PyFloat := F.subOne (npDiv allow |stress|)

/-- The five margins in column order  [strength.py:408-412] -/
noncomputable def margins (a : V5) (s : V3) : Fin 5 → PyFloat :=
  ![F.marginT (a 0) (s 0), F.marginC (a 1) (s 0), F.marginT (a 2) (s 1), F.marginC (a 3) (s 1), F.marginS (a 4) (s 2)]

/-- `calculate_maxstressmargin` of a stack  [strength.py:391-426] -/
noncomputable def calculateMargin (l : Lam) (N : V6) : Except PyErr (List MarginRow) := do
  let al ← calculateAllowable l
  let st ← F.calculateStress l.layup N
  return (al.zip st).map fun p =>
    let m := F.margins p.1.allow p.2.m12
    { ply := p.1.ply, position := p.1.position, angle := p.1.angle, margin := m, critical := idxmin m }

end FloatClt
end Composipy
