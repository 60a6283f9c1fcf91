import Verif.Model.Validators
import Mathlib.LinearAlgebra.Matrix.Notation

/-!
# Model of `composipy/core/material.py`
-/

namespace Composipy

/-- 3x3 real matrices (`numpy.ndarray` of shape (3,3)). -/
abbrev M3 := Matrix (Fin 3) (Fin 3) ℝ

/-- The attributes of an `OrthotropicMaterial`  [material.py:72-82].  `α` is `PyFloat` for the
constructor and `ℝ` for the numeric model. -/
structure OrthoMat (α : Type) where
  e1 : α
  e2 : α
  v12 : α
  g12 : α
  thickness : α
  t1 : α
  c1 : α
  t2 : α
  c2 : α
  s : α

/-- The attributes of an `IsotropicMaterial`  [material.py:232-238]. -/
structure IsoMat (α : Type) where
  e : α
  v : α
  g : α
  thickness : α
  t : α
  c : α
  s : α

/-! ## Constructors -/

open Classical in
/-- Python float division where operands may be NaN or infinite: raises iff the divisor is 0.
The quotient itself is not needed by the constructor.  [material.py:82] -/
noncomputable def divCheck (b : PyFloat) : Except PyErr Unit :=
  if b = .fin 0 then .error .zeroDivisionError else .ok ()

/-- `OrthotropicMaterial.__init__`  [material.py:59-85].
The arguments are bundled in an `OrthoMat PyVal`; the omitted-argument default of
`t1..s` is `PyVal.num 0`.  `v21 = v12*(e2/e1)` is computed here (it may raise); its value is
recomputed by `OrthoMat.v21`. -/
noncomputable def OrthoMat.init (a : OrthoMat PyVal) : Except PyErr (OrthoMat PyFloat) := do
  let e1 ← floatNumber a.e1 (some 0) none
  let e2 ← floatNumber a.e2 (some 0) none
  let v12 ← floatNumber a.v12 (some (-0.5)) (some 0.5)
  let g12 ← floatNumber a.g12 (some 0) none
  let thickness ← floatNumber a.thickness (some 0) none
  let t1 ← floatNumber a.t1 (some 0) none
  let c1 ← floatNumber a.c1 (some 0) none
  let t2 ← floatNumber a.t2 (some 0) none
  let c2 ← floatNumber a.c2 (some 0) none
  let s ← floatNumber a.s (some 0) none
  let _ ← divCheck e1
  return { e1, e2, v12, g12, thickness, t1, c1, t2, c2, s }

/-- The default values of the allowables of `OrthotropicMaterial`  [material.py:66-70] -/
noncomputable def OrthoMat.args (e1 e2 v12 g12 thickness : PyVal)
    (t1 c1 t2 c2 s : PyVal := .num (.fin 0)) : OrthoMat PyVal :=
  { e1, e2, v12, g12, thickness, t1, c1, t2, c2, s }

/-- `IsotropicMaterial.__init__`  [material.py:222-241] -/
noncomputable def IsoMat.init (a : IsoMat PyVal) : Except PyErr (IsoMat PyFloat) := do
  let e ← floatNumber a.e (some 0) none
  let v ← floatNumber a.v (some (-0.5)) (some 0.5)
  let g ← floatNumber a.g (some 0) none
  let thickness ← floatNumber a.thickness (some 0) none
  let t ← floatNumber a.t (some 0) none
  let c ← floatNumber a.c (some 0) none
  let s ← floatNumber a.s (some 0) none
  return { e, v, g, thickness, t, c, s }

/-- The default values of the allowables of `IsotropicMaterial`  [material.py:228-230] -/
def IsoMat.args (e v g thickness : PyVal)
    (t c s : PyVal := .none) : IsoMat PyVal :=
  { e, v, g, thickness, t, c, s }

/-- All attributes finite: the object as seen by the numeric model. -/
def OrthoMat.toReal? (m : OrthoMat PyFloat) : Option (OrthoMat ℝ) := do
  let e1 ← m.e1.toFin?
  let e2 ← m.e2.toFin?
  let v12 ← m.v12.toFin?
  let g12 ← m.g12.toFin?
  let thickness ← m.thickness.toFin?
  let t1 ← m.t1.toFin?
  let c1 ← m.c1.toFin?
  let t2 ← m.t2.toFin?
  let c2 ← m.c2.toFin?
  let s ← m.s.toFin?
  return { e1, e2, v12, g12, thickness, t1, c1, t2, c2, s }

/-- All attributes finite: the object as seen by the numeric model. -/
def IsoMat.toReal? (m : IsoMat PyFloat) : Option (IsoMat ℝ) := do
  let e ← m.e.toFin?
  let v ← m.v.toFin?
  let g ← m.g.toFin?
  let thickness ← m.thickness.toFin?
  let t ← m.t.toFin?
  let c ← m.c.toFin?
  let s ← m.s.toFin?
  return { e, v, g, thickness, t, c, s }

/-! ## Calculated properties -/

/-- `self.__v21 = self.v12 * (self.e2/self.e1)`  [material.py:82] -/
noncomputable def OrthoMat.v21 (m : OrthoMat ℝ) : ℝ := m.v12 * (m.e2 / m.e1)

/-- `OrthotropicMaterial.Q_0`  [material.py:129-148].  The result is cached by the code after the
first success; a failing read leaves the cache empty, so the cache is not observable. -/
noncomputable def OrthoMat.Q0 (m : OrthoMat ℝ) : Except PyErr M3 := do
  let Q11 ← pyDiv m.e1 (1 - m.v12 * m.v21)
  let Q12 ← pyDiv (m.v12 * m.e2) (1 - m.v12 * m.v21)
  let Q22 ← pyDiv m.e2 (1 - m.v12 * m.v21)
  let Q66 := m.g12
  return !![Q11, Q12, 0; Q12, Q22, 0; 0, 0, Q66]

/-- `IsotropicMaterial.Q_0`  [material.py:277-296] -/
noncomputable def IsoMat.Q0 (m : IsoMat ℝ) : Except PyErr M3 := do
  let Q11 ← pyDiv m.e (1 - m.v * m.v)
  let Q12 ← pyDiv (m.v * m.e) (1 - m.v * m.v)
  let Q22 ← pyDiv m.e (1 - m.v * m.v)
  let Q66 := m.g
  return !![Q11, Q12, 0; Q12, Q22, 0; 0, 0, Q66]

/-- The tuple `U1, U2, U3, U4, U5`. -/
structure Invariants where
  U1 : ℝ
  U2 : ℝ
  U3 : ℝ
  U4 : ℝ
  U5 : ℝ

/-- Body of `Invariants`, from the entries of `Q_0`  [material.py:161-172] -/
noncomputable def invariantsOf (Q : M3) : Invariants :=
  let Q11 := Q 0 0
  let Q12 := Q 0 1
  let Q22 := Q 1 1
  let Q66 := Q 2 2
  { U1 := 1/8 * (3*Q11 + 3*Q22 + 2*Q12 + 4*Q66)
    U2 := 1/2 * (Q11 - Q22)
    U3 := 1/8 * (Q11 + Q22 - 2*Q12 - 4*Q66)
    U4 := 1/8 * (Q11 + Q22 + 6*Q12 - 4*Q66)
    U5 := 1/8 * (Q11 + Q22 - 2*Q12 + 4*Q66) }

/-- `OrthotropicMaterial.Invariants`  [material.py:150-172] -/
noncomputable def OrthoMat.invariants (m : OrthoMat ℝ) : Except PyErr Invariants := do
  let Q ← m.Q0
  return invariantsOf Q

/-! ## Comparisons -/

/-- An object as seen by `isinstance` in the two `__eq__` methods. -/
inductive PyObj where
  | ortho (m : OrthoMat PyFloat)
  | iso (m : IsoMat PyFloat)
  | other

open Classical in
/-- `OrthotropicMaterial.__eq__`  [material.py:182-195] -/
noncomputable def OrthoMat.pyEq (m : OrthoMat PyFloat) (obj : PyObj) : Except PyErr Bool :=
  match obj with
  | .ortho o =>
    .ok (decide (XF.eqv m.e1 o.e1)
      && decide (XF.eqv m.e2 o.e2)
      && decide (XF.eqv m.v12 o.v12)
      && decide (XF.eqv m.g12 o.g12)
      && decide (XF.eqv m.thickness o.thickness)
      && decide (XF.eqv m.t1 o.t1)
      && decide (XF.eqv m.c1 o.c1)
      && decide (XF.eqv m.t2 o.t2)
      && decide (XF.eqv m.c2 o.c2)
      && decide (XF.eqv m.s o.s))
  | _ => .error .valueError

open Classical in
/-- `IsotropicMaterial.__eq__`  [material.py:305-315] -/
noncomputable def IsoMat.pyEq (m : IsoMat PyFloat) (obj : PyObj) : Except PyErr Bool :=
  match obj with
  | .iso o =>
    .ok (decide (XF.eqv m.e o.e)
      && decide (XF.eqv m.v o.v)
      && decide (XF.eqv m.g o.g)
      && decide (XF.eqv m.thickness o.thickness)
      && decide (XF.eqv m.t o.t)
      && decide (XF.eqv m.c o.c)
      && decide (XF.eqv m.s o.s))
  | _ => .error .valueError

/-! ## Materials as plies -/

/-- A material object with finite attributes, as used by the rest of the model. -/
inductive Mat where
  | ortho (m : OrthoMat ℝ)
  | iso (m : IsoMat ℝ)

namespace Mat

/-- `.thickness`  [material.py:101-102, 255-256] -/
def thickness : Mat → ℝ
  | ortho m => m.thickness
  | iso m => m.thickness

/-- `.Q_0`  [material.py:129-148, 277-296] -/
noncomputable def Q0 : Mat → Except PyErr M3
  | ortho m => m.Q0
  | iso m => m.Q0

/-- `.Invariants()`; `IsotropicMaterial` has no such method  [material.py:150, 198-315] -/
noncomputable def invariants : Mat → Except PyErr Invariants
  | ortho m => m.invariants
  | iso _ => .error .attributeError

end Mat

end Composipy
