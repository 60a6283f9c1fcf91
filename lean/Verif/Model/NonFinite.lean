import Verif.Model.Strength

/-!
# Materials and stacks with NaN or infinite parameters

The validators accept NaN and infinity (`float(value)` succeeds and `nan < n_min` is false; `inf` exceeds no bound where there is none).
Here the stiffness of materials and stacks is modelled on all accepted values.  Rounding, overflow of finite values and the sign of zero
are left out as in `Verif.Model.Material`.  The order of summation inside `@` does not matter for the theorems.
-/

namespace Composipy
namespace XF

/-- `a + b` -/
noncomputable def add : PyFloat → PyFloat → PyFloat
  | fin a, fin b => fin (a + b)
  | nan, _ => nan
  | _, nan => nan
  | pinf, ninf => nan
  | ninf, pinf => nan
  | pinf, _ => pinf
  | _, pinf => pinf
  | ninf, _ => ninf
  | _, ninf => ninf

/-- `-a` -/
noncomputable def neg : PyFloat → PyFloat
  | fin a => fin (-a)
  | nan => nan
  | pinf => ninf
  | ninf => pinf

/-- `a - b` -/
noncomputable def sub (a b : PyFloat) : PyFloat := a.add b.neg

open Classical in
/-- Infinity (positive for `pos = true`) times a finite number. -/
noncomputable def infTimes (pos : Bool) (b : ℝ) : PyFloat :=
  if b = 0 then nan else if (0 < b) = pos then pinf else ninf

/-- `a * b` -/
noncomputable def mul : PyFloat → PyFloat → PyFloat
  | fin a, fin b => fin (a * b)
  | nan, _ => nan
  | _, nan => nan
  | pinf, fin b => infTimes true b
  | ninf, fin b => infTimes false b
  | fin a, pinf => infTimes true a
  | fin a, ninf => infTimes false a
  | pinf, pinf => pinf
  | ninf, ninf => pinf
  | _, _ => ninf

/-- `a ** n` as repeated multiplication; for infinite and NaN `a` and `n > 0` this is what the power gives. -/
noncomputable def pow (a : PyFloat) : ℕ → PyFloat
  | 0 => fin 1
  | n + 1 => (pow a n).mul a

open Classical in
/-- `a / b` of Python floats: raises for a zero divisor only. -/
noncomputable def div (a b : PyFloat) : Except PyErr PyFloat :=
  match a, b with
  | fin a, fin b => if b = 0 then .error .zeroDivisionError else .ok (fin (a / b))
  | nan, fin b => if b = 0 then .error .zeroDivisionError else .ok nan
  | pinf, fin b => if b = 0 then .error .zeroDivisionError else .ok (infTimes true b)
  | ninf, fin b => if b = 0 then .error .zeroDivisionError else .ok (infTimes false b)
  | _, nan => .ok nan
  | fin _, _ => .ok (fin 0)
  | _, _ => .ok nan

end XF

/-- 3x3 arrays of floats. -/
abbrev X3 := Fin 3 → Fin 3 → PyFloat

/-- `np.array([[Q11, Q12, 0], [Q12, Q22, 0], [0, 0, Q66]])`  [material.py:145-147, 293-295] -/
noncomputable def xArray (Q11 Q12 Q22 Q66 : PyFloat) : X3 :=
  ![![Q11, Q12, .fin 0], ![Q12, Q22, .fin 0], ![.fin 0, .fin 0, Q66]]

/-- `OrthotropicMaterial.Q_0`  [material.py:82, 129-148] -/
noncomputable def OrthoMat.xQ0 (m : OrthoMat PyFloat) : Except PyErr X3 := do
  let r ← m.e2.div m.e1
  let v21 := m.v12.mul r
  let den := (XF.fin 1).sub (m.v12.mul v21)
  let Q11 ← m.e1.div den
  let Q12 ← (m.v12.mul m.e2).div den
  let Q22 ← m.e2.div den
  return xArray Q11 Q12 Q22 m.g12

/-- `IsotropicMaterial.Q_0`  [material.py:277-296] -/
noncomputable def IsoMat.xQ0 (m : IsoMat PyFloat) : Except PyErr X3 := do
  let den := (XF.fin 1).sub (m.v.mul m.v)
  let Q11 ← m.e.div den
  let Q12 ← (m.v.mul m.e).div den
  let Q22 ← m.e.div den
  return xArray Q11 Q12 Q22 m.g

/-- `Invariants`  [material.py:161-172] -/
noncomputable def xInvariants (Q : X3) : Fin 5 → PyFloat :=
  let Q11 := Q 0 0
  let Q12 := Q 0 1
  let Q22 := Q 1 1
  let Q66 := Q 2 2
  let k (c : ℝ) (x : PyFloat) : PyFloat := (XF.fin c).mul x
  ![k (1/8) ((((k 3 Q11).add (k 3 Q22)).add (k 2 Q12)).add (k 4 Q66)),
    k (1/2) (Q11.sub Q22),
    k (1/8) (((Q11.add Q22).sub (k 2 Q12)).sub (k 4 Q66)),
    k (1/8) (((Q11.add Q22).add (k 6 Q12)).sub (k 4 Q66)),
    k (1/8) (((Q11.add Q22).sub (k 2 Q12)).add (k 4 Q66))]

/-- A material of either class, with all accepted values. -/
inductive XMat where
  | ortho (m : OrthoMat PyFloat)
  | iso (m : IsoMat PyFloat)

/-- `Q_0` -/
noncomputable def XMat.Q0 : XMat → Except PyErr X3
  | .ortho m => m.xQ0
  | .iso m => m.xQ0

/-- `thickness` -/
def XMat.thickness : XMat → PyFloat
  | .ortho m => m.thickness
  | .iso m => m.thickness

/-- An array of finite numbers. -/
def toX3 (M : M3) : X3 := fun i j => .fin (M i j)

/-- The array that holds NaN everywhere. -/
def nan3 : X3 := fun _ _ => .nan

/-- `A @ B` -/
noncomputable def xMul (A B : X3) : X3 := fun i j =>
  (((A i 0).mul (B 0 j)).add ((A i 1).mul (B 1 j))).add ((A i 2).mul (B 2 j))

/-- `np.linalg.inv(T_real)`: the cosine of NaN or infinity is NaN, so is every entry of the array, and `inv` of it is NaN (external
contract).  [property.py:131-146] -/
noncomputable def xTinv : PyFloat → Except PyErr X3
  | .fin theta => (npInv (Treal theta)).map toX3
  | _ => .ok nan3

/-- `T_engineering`  [property.py:131-143] -/
noncomputable def xTeng : PyFloat → X3
  | .fin theta => toX3 (Teng theta)
  | _ => nan3

/-- One iteration of the loop of `Q_layup`  [property.py:130-149] -/
noncomputable def xPlyQ (p : PyFloat × XMat) : Except PyErr X3 := do
  let Tinv ← xTinv p.1
  let Q ← p.2.Q0
  return xMul (xMul Tinv Q) (xTeng p.1)

/-- `z_position`  [property.py:110-123] -/
noncomputable def xZPosition (layup : List (PyFloat × XMat)) : Except PyErr (List PyFloat) := do
  let total := layup.foldl (fun (tot : PyFloat) p => tot.add p.2.thickness) (.fin 0)
  let z0 ← total.neg.div (.fin 2)
  return (layup.foldl (fun (st : PyFloat × List PyFloat) p => (st.1.add p.2.thickness, st.2 ++ [st.1.add p.2.thickness])) (z0, [z0])).2

/-- `A += w * Q` -/
noncomputable def xAccum (acc : X3) (w : PyFloat) (Q : X3) : X3 := fun i j => (acc i j).add (w.mul (Q i j))

/-- The common loop of `A`, `B`, `D` of a stack  [property.py:199-206, 222-229, 255-262] -/
noncomputable def xMoment (w : PyFloat → PyFloat → PyFloat) (layup : List (PyFloat × XMat)) : Except PyErr X3 := do
  let Qs ← layup.mapM xPlyQ
  let z ← xZPosition layup
  Qs.zipIdx.foldlM (fun acc (Qi : X3 × Nat) => do
    let zk1 ← pyIdx z (Qi.2 + 1)
    let zk0 ← pyIdx z Qi.2
    return xAccum acc (w zk0 zk1) Qi.1) (fun _ _ => .fin 0)

/-- `A` of a stack  [property.py:199-206] -/
noncomputable def xA : List (PyFloat × XMat) → Except PyErr X3 := xMoment fun zk0 zk1 => zk1.sub zk0
/-- `B` of a stack  [property.py:222-229] -/
noncomputable def xB : List (PyFloat × XMat) → Except PyErr X3 :=
  xMoment fun zk0 zk1 => (XF.fin (1/2)).mul ((zk1.pow 2).sub (zk0.pow 2))
/-- `D` of a stack  [property.py:255-262] -/
noncomputable def xD : List (PyFloat × XMat) → Except PyErr X3 :=
  xMoment fun zk0 zk1 => (XF.fin (1/3)).mul ((zk1.pow 3).sub (zk0.pow 3))

/-! ## Strains, stresses and margins -/

/-- 3-vectors and 6-vectors of floats; 6x6 arrays of floats. -/
abbrev XV3 := Fin 3 → PyFloat
/-- `[Nxx, Nyy, Nxy, Mxx, Myy, Mxy]`: the constructor keeps what it is given  [strength.py:44-49, 65] -/
abbrev XV6 := I6 → PyFloat
/-- 6x6 arrays of floats. -/
abbrev X6 := I6 → I6 → PyFloat

/-- `ABD`  [property.py:265-271] -/
def xABD (A B D : X3) : X6
  | .inl i, .inl j => A i j
  | .inl i, .inr j => B i j
  | .inr i, .inl j => B i j
  | .inr i, .inr j => D i j

/-- `abd @ N` -/
noncomputable def xMulVec6 (M : X6) (N : XV6) : XV6 := fun i =>
  ((((((M i (.inl 0)).mul (N (.inl 0))).add ((M i (.inl 1)).mul (N (.inl 1)))).add ((M i (.inl 2)).mul (N (.inl 2)))).add
    ((M i (.inr 0)).mul (N (.inr 0)))).add ((M i (.inr 1)).mul (N (.inr 1)))).add ((M i (.inr 2)).mul (N (.inr 2)))

/-- `Q @ epsilon` -/
noncomputable def xMulVec3 (M : X3) (v : XV3) : XV3 := fun i =>
  (((M i 0).mul (v 0)).add ((M i 1).mul (v 1))).add ((M i 2).mul (v 2))

/-- `epsilon0`, with `np.linalg.inv` a parameter  [strength.py:53-66] -/
noncomputable def xEpsilon0 (inv : X6 → Except PyErr X6) (L : List (PyFloat × XMat)) (N : XV6) : Except PyErr XV6 := do
  let A ← xA L
  let B ← xB L
  let D ← xD L
  let abd ← inv (xABD A B D)
  return xMulVec6 abd N

/-- `epsilon + h * kappa`  [strength.py:85-96] -/
noncomputable def xStrainAt (e : XV6) (h : PyFloat) : XV3 := fun i => (e (.inl i)).add (h.mul (e (.inr i)))

/-- `zmid`  [strength.py:82-83] -/
noncomputable def xPairs (z : List PyFloat) (n : ℕ) : Except PyErr (List (PyFloat × PyFloat)) :=
  (List.range n).mapM fun i => do
    let a ← pyIdx z i
    let b ← pyIdx z (i + 1)
    return (a, b)

/-- `_epsilonk`  [strength.py:69-97] -/
noncomputable def xEpsilonk (inv : X6 → Except PyErr X6) (L : List (PyFloat × XMat)) (N : XV6) : Except PyErr (List (XV3 × XV3)) := do
  let z ← xZPosition L
  let zmid ← xPairs z L.length
  let e ← xEpsilon0 inv L N
  return zmid.map fun h => (xStrainAt e h.1, xStrainAt e h.2)

/-- `_stressk`  [strength.py:100-121] -/
noncomputable def xStressk (inv : X6 → Except PyErr X6) (L : List (PyFloat × XMat)) (N : XV6) : Except PyErr (List (XV3 × XV3)) := do
  let Qk ← L.mapM xPlyQ
  let ek ← xEpsilonk inv L N
  return (Qk.zip ek).map fun p => (xMulVec3 p.1 p.2.1, xMulVec3 p.1 p.2.2)

/-- `T`  [strength.py:131-140, 159-169] -/
noncomputable def xTreal : PyFloat → X3
  | .fin theta => toX3 (Treal theta)
  | _ => nan3

/-- `v[2] /= 2`, written as a product with 1/2 (same value for every float)  [strength.py:133-134] -/
noncomputable def xHalve (v : XV3) : XV3 := Function.update v 2 ((v 2).mul (.fin (1/2)))
/-- `v[2] *= 2`  [strength.py:144-145] -/
noncomputable def xDouble (v : XV3) : XV3 := Function.update v 2 ((v 2).mul (.fin 2))

/-- `_epsilonk_123`  [strength.py:123-148] -/
noncomputable def xEpsilonk123 (inv : X6 → Except PyErr X6) (L : List (PyFloat × XMat)) (N : XV6) : Except PyErr (List (XV3 × XV3)) := do
  let ek ← xEpsilonk inv L N
  return ((L.map Prod.fst).zip ek).map fun p =>
    (xDouble (xMulVec3 (xTreal p.1) (xHalve p.2.1)), xDouble (xMulVec3 (xTreal p.1) (xHalve p.2.2)))

/-- `_stressk_123`  [strength.py:151-176] -/
noncomputable def xStressk123 (inv : X6 → Except PyErr X6) (L : List (PyFloat × XMat)) (N : XV6) : Except PyErr (List (XV3 × XV3)) := do
  let sk ← xStressk inv L N
  return ((L.map Prod.fst).zip sk).map fun p => (xMulVec3 (xTreal p.1) p.2.1, xMulVec3 (xTreal p.1) p.2.2)

/-- pandas `a / b`: never raises; the sign of a zero divisor is left out (it is never negative here). -/
noncomputable def xNpDiv : PyFloat → PyFloat → PyFloat
  | .fin a, .fin b => npDiv a b
  | .nan, _ => .nan
  | _, .nan => .nan
  | .pinf, .fin b => if b < 0 then .ninf else .pinf
  | .ninf, .fin b => if b < 0 then .pinf else .ninf
  | .fin _, _ => .fin 0
  | _, _ => .nan

/-- `abs` -/
noncomputable def xAbs : PyFloat → PyFloat
  | .fin a => .fin |a|
  | .nan => .nan
  | _ => .pinf

open Classical in
/-- `allow / stress.mask(stress < 0, 0) - 1`  [strength.py:408, 410] -/
noncomputable def xMarginT (allow stress : PyFloat) : PyFloat :=
  (xNpDiv allow (if stress.lt (.fin 0) then .fin 0 else stress)).sub (.fin 1)

open Classical in
/-- `allow / stress.mask(stress > 0, 0).abs() - 1`  [strength.py:409, 411] -/
noncomputable def xMarginC (allow stress : PyFloat) : PyFloat :=
  (xNpDiv allow (xAbs (if XF.lt (.fin 0) stress then .fin 0 else stress))).sub (.fin 1)

/-- `allow / stress.abs() - 1`  [strength.py:412] -/
noncomputable def xMarginS (allow stress : PyFloat) : PyFloat := (xNpDiv allow (xAbs stress)).sub (.fin 1)

end Composipy
