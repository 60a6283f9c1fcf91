import Verif.Model.Material
import Mathlib.LinearAlgebra.Matrix.NonsingularInverse
import Mathlib.Analysis.SpecialFunctions.Trigonometric.Basic

/-!
# Model of `composipy/core/property.py` (pure reading)

`Lam` is a constructed `LaminateProperty`; the getters below return what a read on a *fresh* object
returns.  The caches are modelled in `Verif.Model.LaminateCache`.
Simplification: angles, thicknesses and lamination parameters are finite real numbers.
-/

namespace Composipy

/-! ## Construction -/

/-- A value stored in a lamination-parameter dictionary: `None`, a list/tuple of numbers, or a
number. -/
inductive LPVal where
  | none
  | vec (l : List ℝ)
  | num (x : ℝ)

/-- The dictionary form of `stacking`: `Option.none` means the key is absent. Other keys are ignored
by the code and not represented.  [property.py:75-90] -/
structure LPDict where
  xiA : Option LPVal
  xiB : Option LPVal
  xiD : Option LPVal
  T : Option LPVal

/-- The `stacking` argument: a list of angles in degrees, or a dictionary.  [property.py:63] -/
inductive Stacking where
  | angles (l : List ℝ)
  | dict (d : LPDict)

/-- The `plies` argument: one material or a list of materials.  [property.py:64-68] -/
inductive Plies where
  | single (m : Mat)
  | list (l : List Mat)

/-- A constructed `LaminateProperty`  [property.py:93-107] (cache attributes excluded). -/
structure Lam where
  stacking : Stacking
  plies : Plies
  layup : List (ℝ × Mat)
  xiA : LPVal
  xiB : LPVal
  xiD : LPVal
  T : LPVal

/-- `LaminateProperty.__init__`  [property.py:61-107].
In the dictionary branch a missing `xiA`/`xiB` becomes `None` (lines 75-82); for a missing `xiD`/`T`
the handler builds a `KeyError` without raising it (lines 83-90), so the local variable stays unbound
and lines 106-107 raise `UnboundLocalError`. -/
def Lam.init (stacking : Stacking) (plies : Plies) : Except PyErr Lam :=
  match stacking with
  | .angles s =>
    match plies with
    | .single m =>
      let ps := (List.range s.length).map fun _ => m
      .ok { stacking, plies := .list ps, layup := s.zip ps,
            xiA := .none, xiB := .none, xiD := .none, T := .none }
    | .list ps =>
      if ps.length ≠ s.length then .error .valueError
      else .ok { stacking, plies := .list ps, layup := s.zip ps,
                 xiA := .none, xiB := .none, xiD := .none, T := .none }
  | .dict d =>
    let xiA := d.xiA.getD .none
    let xiB := d.xiB.getD .none
    match d.xiD with
    | none => .error .unboundLocalError
    | some xiD =>
      match d.T with
      | none => .error .unboundLocalError
      | some T => .ok { stacking, plies, layup := [], xiA, xiB, xiD, T }

/-! ## Geometry -/

/-- First loop of `z_position`  [property.py:113-115] -/
def totalThickness (layup : List (ℝ × Mat)) : ℝ :=
  layup.foldl (fun tot p => tot + p.2.thickness) 0

/-- `z_position` of a layup  [property.py:110-123]; the second loop carries `current_z` and the list
built by `append`. -/
noncomputable def zPositionOf (layup : List (ℝ × Mat)) : List ℝ :=
  let z0 := -(totalThickness layup) / 2
  (layup.foldl (fun st p => (st.1 + p.2.thickness, st.2 ++ [st.1 + p.2.thickness])) (z0, [z0])).2

/-- `LaminateProperty.z_position`  [property.py:110-123] -/
noncomputable def Lam.zPosition (l : Lam) : List ℝ := zPositionOf l.layup

/-- `np.cos(theta*np.pi/180)`  [property.py:131] -/
noncomputable def cosd (theta : ℝ) : ℝ := Real.cos (theta * Real.pi / 180)

/-- `np.sin(theta*np.pi/180)`  [property.py:132] -/
noncomputable def sind (theta : ℝ) : ℝ := Real.sin (theta * Real.pi / 180)

/-- `T_real`  [property.py:134-138, 161-165] -/
noncomputable def Treal (theta : ℝ) : M3 :=
  let c := cosd theta
  let s := sind theta
  !![c^2, s^2, 2*c*s;
     s^2, c^2, -2*c*s;
     -c*s, c*s, c^2-s^2]

/-- `T_engineering`  [property.py:139-143, 167-171] -/
noncomputable def Teng (theta : ℝ) : M3 :=
  let c := cosd theta
  let s := sind theta
  !![c^2, s^2, c*s;
     s^2, c^2, -c*s;
     -2*c*s, 2*c*s, c^2-s^2]

open Classical in
/-- `np.linalg.inv`: raises `LinAlgError` for a singular matrix.  (External contract.) -/
noncomputable def npInv {n : Type} [Fintype n] [DecidableEq n] (M : Matrix n n ℝ) :
    Except PyErr (Matrix n n ℝ) :=
  if M.det = 0 then .error .linAlgError else .ok M⁻¹

/-- One iteration of the loop of `Q_layup`  [property.py:130-149] -/
noncomputable def plyQ (p : ℝ × Mat) : Except PyErr M3 := do
  let Tinv ← npInv (Treal p.1)
  let Q ← p.2.Q0
  return Tinv * Q * Teng p.1

/-- `LaminateProperty.Q_layup` on a fresh object  [property.py:125-150] -/
noncomputable def Lam.Qlayup (l : Lam) : Except PyErr (List M3) := l.layup.mapM plyQ

/-- `LaminateProperty.T_layup`  [property.py:152-174] -/
noncomputable def Lam.Tlayup (l : Lam) : List (M3 × M3) :=
  l.layup.map fun p => (Treal p.1, Teng p.1)

/-! ## Stiffness matrices -/

/-- The common loop of `A`, `B`, `D`: `for i in enumerate(Q_layup)`, reading `z[i+1]` then `z[i]` and
adding `w zk0 zk1 * Q`.  [property.py:202-205, 225-228, 258-261] -/
noncomputable def momentLoop (w : ℝ → ℝ → ℝ) (z : List ℝ) (Qs : List M3) (acc : M3) :
    Except PyErr M3 :=
  Qs.zipIdx.foldlM (fun acc (Qi : M3 × Nat) => do
    let zk1 ← pyIdx z (Qi.2 + 1)
    let zk0 ← pyIdx z Qi.2
    return acc + w zk0 zk1 • Qi.1) acc

/-- Weight `(zk1-zk0)`  [property.py:205] -/
def wA (zk0 zk1 : ℝ) : ℝ := zk1 - zk0
/-- Weight `(1/2)*(zk1**2-zk0**2)`  [property.py:228] -/
noncomputable def wB (zk0 zk1 : ℝ) : ℝ := (1/2) * (zk1^2 - zk0^2)
/-- Weight `(1/3)*(zk1**3-zk0**3)`  [property.py:261] -/
noncomputable def wD (zk0 zk1 : ℝ) : ℝ := (1/3) * (zk1^3 - zk0^3)

/-- `self.plies.Invariants()`: a list has no such attribute  [property.py:182, 237] -/
noncomputable def Plies.invariants : Plies → Except PyErr Invariants
  | .single m => m.invariants
  | .list _ => .error .attributeError

/-- `xi1, xi2, xi3, xi4 = v`: `TypeError` for a non-iterable, `ValueError` for a wrong length
[property.py:183, 238] -/
def LPVal.unpack4 : LPVal → Except PyErr (ℝ × ℝ × ℝ × ℝ)
  | .none => .error .typeError
  | .num _ => .error .typeError
  | .vec [a, b, c, d] => .ok (a, b, c, d)
  | .vec _ => .error .valueError

/-- Use of `T` in a product or power: `None` and lists raise `TypeError`  [property.py:185, 241] -/
def LPVal.asNum : LPVal → Except PyErr ℝ
  | .num x => .ok x
  | .none => .error .typeError
  | .vec _ => .error .typeError

/-- The lamination-parameter `A`  [property.py:182-197] -/
noncomputable def lpA (plies : Plies) (xiA T : LPVal) : Except PyErr M3 := do
  let U ← plies.invariants
  let (xi1, xi2, xi3, xi4) ← xiA.unpack4
  let T ← T.asNum
  let A11 := T*(U.U1 + U.U2*xi1 + U.U3*xi3)
  let A12 := T*(-U.U3*xi3 + U.U4)
  let A13 := T*(U.U2*xi2/2 + U.U3*xi4)
  let A21 := T*(-U.U3*xi3 + U.U4)
  let A22 := T*(U.U1 - U.U2*xi1 + U.U3*xi3)
  let A23 := T*(U.U2*xi2/2 - U.U3*xi4)
  let A31 := T*(U.U2*xi2/2 + U.U3*xi4)
  let A32 := T*(U.U2*xi2/2 - U.U3*xi4)
  let A33 := T*(-U.U3*xi3 + U.U5)
  return !![A11, A12, A13; A21, A22, A23; A31, A32, A33]

/-- The lamination-parameter `D`  [property.py:237-253] -/
noncomputable def lpD (plies : Plies) (xiD T : LPVal) : Except PyErr M3 := do
  let U ← plies.invariants
  let (xi1, xi2, xi3, xi4) ← xiD.unpack4
  let T ← T.asNum
  let D11 := T^3*(U.U1 + U.U2*xi1 + U.U3*xi3)/12
  let D12 := T^3*(-U.U3*xi3 + U.U4)/12
  let D13 := T^3*(U.U2*xi2/2 + U.U3*xi4)/12
  let D21 := T^3*(-U.U3*xi3 + U.U4)/12
  let D22 := T^3*(U.U1 - U.U2*xi1 + U.U3*xi3)/12
  let D23 := T^3*(U.U2*xi2/2 - U.U3*xi4)/12
  let D31 := T^3*(U.U2*xi2/2 + U.U3*xi4)/12
  let D32 := T^3*(U.U2*xi2/2 - U.U3*xi4)/12
  let D33 := T^3*(-U.U3*xi3 + U.U5)/12
  return !![D11, D12, D13; D21, D22, D23; D31, D32, D33]

/-- The loop reading of a stiffness matrix on a fresh object. -/
noncomputable def Lam.loopMatrix (l : Lam) (w : ℝ → ℝ → ℝ) : Except PyErr M3 := do
  let Qs ← l.Qlayup
  momentLoop w l.zPosition Qs 0

/-- `LaminateProperty.A` on a fresh object  [property.py:176-206] -/
noncomputable def Lam.A (l : Lam) : Except PyErr M3 :=
  match l.xiA with
  | .none => l.loopMatrix wA
  | xi => lpA l.plies xi l.T

/-- `LaminateProperty.B` on a fresh object  [property.py:208-229]. The assignment to `_A` in lines
216-220 is in `Verif.Model.LaminateCache`. -/
noncomputable def Lam.B (l : Lam) : Except PyErr M3 := l.loopMatrix wB

/-- `LaminateProperty.D` on a fresh object  [property.py:231-262] -/
noncomputable def Lam.D (l : Lam) : Except PyErr M3 :=
  match l.xiD with
  | .none => l.loopMatrix wD
  | xi => lpD l.plies xi l.T

/-- Indices of 6-vectors: membrane (`inl`) and bending (`inr`) components. -/
abbrev I6 := Fin 3 ⊕ Fin 3

/-- 6x6 matrices. -/
abbrev M6 := Matrix I6 I6 ℝ

/-- `LaminateProperty.ABD`  [property.py:264-271]; reads `A`, `B`, `B`, `D`. -/
noncomputable def Lam.ABD (l : Lam) : Except PyErr M6 := do
  let A ← l.A
  let B ← l.B
  let B' ← l.B
  let D ← l.D
  return Matrix.fromBlocks A B B' D

/-! ## Lamination parameters of a stack -/

/-- The four accumulators `xi[0..3]`. -/
abbrev V4 := Fin 4 → ℝ

/-- `cos 2a, sin 2a, cos 4a, sin 4a` with `a = angle*pi/180`  [property.py:279-286, 296-303] -/
noncomputable def xiTerm (angle : ℝ) : V4 :=
  let a := angle * (Real.pi / 180)
  ![Real.cos (2*a), Real.sin (2*a), Real.cos (4*a), Real.sin (4*a)]

/-- The loop of `xiA`/`xiD`: `for i, angle in enumerate(stacking)` with `z[i+1]`, `z[i]`
[property.py:278-286, 295-303] -/
noncomputable def xiLoop (w : ℝ → ℝ → ℝ) (z : List ℝ) (angles : List ℝ) : Except PyErr V4 :=
  angles.zipIdx.foldlM (fun (acc : V4) (ai : ℝ × Nat) => do
    let zk1 ← pyIdx z (ai.2 + 1)
    let zk0 ← pyIdx z ai.2
    return acc + w zk0 zk1 • xiTerm ai.1) 0

/-- `sum([ply.thickness for ply in self.plies])`: a single material is not iterable
[property.py:277, 294] -/
def Plies.sumThickness : Plies → Except PyErr ℝ
  | .single _ => .error .typeError
  | .list ps => .ok (ps.map Mat.thickness).sum

/-- `enumerate(self.stacking)` with `angle *= ...`: the keys of a dictionary are strings, which
raise `TypeError` when multiplied by a float (the dictionary is never empty here)
[property.py:278-279, 295-296] -/
def Stacking.toAngles : Stacking → Except PyErr (List ℝ)
  | .angles l => .ok l
  | .dict _ => .error .typeError

/-- `LaminateProperty.xiA` with NumPy division  [property.py:273-288] -/
noncomputable def Lam.xiAread (l : Lam) : Except PyErr (Fin 4 → PyFloat) := do
  let T ← l.plies.sumThickness
  let angles ← l.stacking.toAngles
  let v ← xiLoop (fun zk0 zk1 => zk1 - zk0) l.zPosition angles
  return fun i => npDiv (v i) T

/-- `LaminateProperty.xiD` with NumPy division  [property.py:290-304] -/
noncomputable def Lam.xiDread (l : Lam) : Except PyErr (Fin 4 → PyFloat) := do
  let T ← l.plies.sumThickness
  let angles ← l.stacking.toAngles
  let v ← xiLoop (fun zk0 zk1 => zk1^3 - zk0^3) l.zPosition angles
  return fun i => npDiv (4 * v i) (T^3)

/-! ## Comparison -/

open Classical in
/-- `==` of two materials inside `layup == layup`: comparing an orthotropic with an isotropic
material raises `ValueError`  [material.py:182-195, 305-315].  Attributes are finite here. -/
noncomputable def Mat.pyEq : Mat → Mat → Except PyErr Bool
  | .ortho a, .ortho b =>
    .ok (decide (a.e1 = b.e1) && decide (a.e2 = b.e2) && decide (a.v12 = b.v12)
      && decide (a.g12 = b.g12) && decide (a.thickness = b.thickness) && decide (a.t1 = b.t1)
      && decide (a.c1 = b.c1) && decide (a.t2 = b.t2) && decide (a.c2 = b.c2) && decide (a.s = b.s))
  | .iso a, .iso b =>
    .ok (decide (a.e = b.e) && decide (a.v = b.v) && decide (a.g = b.g)
      && decide (a.thickness = b.thickness) && decide (a.t = b.t) && decide (a.c = b.c)
      && decide (a.s = b.s))
  | _, _ => .error .valueError

open Classical in
/-- Tuple comparison `(theta, ply) == (theta', ply')`, left to right, stopping at the first
difference. -/
noncomputable def entryEq (p q : ℝ × Mat) : Except PyErr Bool :=
  if p.1 = q.1 then p.2.pyEq q.2 else .ok false

/-- Python list equality on entries of equal index, after the length check. -/
noncomputable def entriesEq : List (ℝ × Mat) → List (ℝ × Mat) → Except PyErr Bool
  | [], _ => .ok true
  | _, [] => .ok true
  | p :: ps, q :: qs => do
    if ← entryEq p q then entriesEq ps qs else return false

/-- `LaminateProperty.__eq__` for another `LaminateProperty`  [property.py:314-316].
CPython compares lists of different length unequal at once, and otherwise entry by entry (identical
objects are taken as equal without calling `__eq__`, which gives the same answer because
attributes are not NaN here). -/
noncomputable def Lam.pyEq (l l' : Lam) : Except PyErr Bool :=
  if l.layup.length ≠ l'.layup.length then .ok false else entriesEq l.layup l'.layup

end Composipy
