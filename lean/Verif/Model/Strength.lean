import Verif.Model.Laminate

/-!
# Model of `composipy/core/strength.py`

Simplifications: loads are finite numbers; the laminate is read as a fresh object (see
`Verif.Props.Cache` for why the reading order does not matter); a `DataFrame` is a list of rows.
-/

namespace Composipy
open Matrix

/-- 3-vectors `[x, y, xy]`. -/
abbrev V3 := Fin 3 → ℝ

/-- `[Nxx, Nyy, Nxy, Mxx, Myy, Mxy]`  [strength.py:44-49, 65] -/
abbrev V6 := I6 → ℝ

/-- `epsilon0`  [strength.py:53-66] -/
noncomputable def epsilon0 (l : Lam) (N : V6) : Except PyErr V6 := do
  let ABD ← l.ABD
  let abd ← npInv ABD
  return abd *ᵥ N

/-- `len(self.dproperty.stacking)`; for a dictionary the number of its keys (further keys, which the
model does not represent, would only make it larger)  [strength.py:80] -/
def Stacking.len : Stacking → Nat
  | .angles l => l.length
  | .dict d => [d.xiA, d.xiB, d.xiD, d.T].countP Option.isSome

/-- `zmid`  [strength.py:82-83] -/
noncomputable def zPairs (z : List ℝ) (n : Nat) : Except PyErr (List (ℝ × ℝ)) :=
  (List.range n).mapM fun i => do
    let a ← pyIdx z i
    let b ← pyIdx z (i + 1)
    return (a, b)

/-- First three entries  [strength.py:85-87] -/
def membrane (e : V6) : V3 := fun i => e (.inl i)
/-- Last three entries  [strength.py:88-90] -/
def curvature (e : V6) : V3 := fun i => e (.inr i)

/-- `_epsilonk`  [strength.py:69-97] (the first component of each pair belongs to `z[i]`) -/
noncomputable def epsilonk (l : Lam) (N : V6) : Except PyErr (List (V3 × V3)) := do
  let zmid ← zPairs l.zPosition l.stacking.len
  let e ← epsilon0 l N
  return zmid.map fun h => (membrane e + h.1 • curvature e, membrane e + h.2 • curvature e)

/-- `_stressk`  [strength.py:100-121] -/
noncomputable def stressk (l : Lam) (N : V6) : Except PyErr (List (V3 × V3)) := do
  let Qk ← l.Qlayup
  let ek ← epsilonk l N
  return (Qk.zip ek).map fun p => (p.1 *ᵥ p.2.1, p.1 *ᵥ p.2.2)

/-- `v[2] /= 2`  [strength.py:133-134] -/
noncomputable def halveShear (v : V3) : V3 := Function.update v 2 (v 2 / 2)
/-- `v[2] *= 2`  [strength.py:144-145] -/
noncomputable def doubleShear (v : V3) : V3 := Function.update v 2 (v 2 * 2)

/-- `_epsilonk_123`  [strength.py:123-148] (value semantics; see `Verif.Model.StrengthHeap` for the
in-place updates) -/
noncomputable def epsilonk123 (l : Lam) (N : V6) : Except PyErr (List (V3 × V3)) := do
  let ek ← epsilonk l N
  let angles ← l.stacking.toAngles
  return (angles.zip ek).map fun p =>
    (doubleShear (Treal p.1 *ᵥ halveShear p.2.1), doubleShear (Treal p.1 *ᵥ halveShear p.2.2))

/-- `_stressk_123`  [strength.py:151-176] -/
noncomputable def stressk123 (l : Lam) (N : V6) : Except PyErr (List (V3 × V3)) := do
  let sk ← stressk l N
  let angles ← l.stacking.toAngles
  return (angles.zip sk).map fun p => (Treal p.1 *ᵥ p.2.1, Treal p.1 *ᵥ p.2.2)

/-- The `position` column. -/
inductive Pos where
  | bot | top
  deriving DecidableEq, Repr

/-- A row of the strain or stress table: `ply, z, position, angle`, plate-axis and material-axis
components  [strength.py:223-238, 291-306] -/
structure Row where
  ply : Nat
  z : ℝ
  position : Pos
  angle : ℝ
  xy : V3
  m12 : V3

/-- The loop filling the table  [strength.py:239-264, 307-332]; `cur_ply` is `i + 1`. -/
noncomputable def fillRows (z : List ℝ) (xy m12 : List (V3 × V3)) (angles : List ℝ) :
    Except PyErr (List Row) := do
  let pairs ← ((xy.zip (m12.zip angles)).zipIdx).mapM fun p => do
    let z0 ← pyIdx z p.2
    let z1 ← pyIdx z (p.2 + 1)
    return [(⟨p.2 + 1, z0, .bot, p.1.2.2, p.1.1.1, p.1.2.1.1⟩ : Row),
            ⟨p.2 + 1, z1, .top, p.1.2.2, p.1.1.2, p.1.2.1.2⟩]
  return pairs.flatten

/-- `calculate_strain`  [strength.py:202-266] -/
noncomputable def calculateStrain (l : Lam) (N : V6) : Except PyErr (List Row) := do
  let ek ← epsilonk l N
  let ek123 ← epsilonk123 l N
  let angles ← l.stacking.toAngles
  fillRows l.zPosition ek ek123 angles

/-- `calculate_stress`  [strength.py:269-334] -/
noncomputable def calculateStress (l : Lam) (N : V6) : Except PyErr (List Row) := do
  let sk ← stressk l N
  let sk123 ← stressk123 l N
  let angles ← l.stacking.toAngles
  fillRows l.zPosition sk sk123 angles

/-! ## Margins -/

/-- The five allowables `t1, c1, t2, c2, s`. -/
abbrev V5 := Fin 5 → ℝ

/-- `ply.t1, ply.c1, ply.t2, ply.c2, ply.s`: an `IsotropicMaterial` has no `t1`
[strength.py:193-197, material.py:104-118, 258-264] -/
def Mat.allowables : Mat → Except PyErr V5
  | .ortho m => .ok ![m.t1, m.c1, m.t2, m.c2, m.s]
  | .iso _ => .error .attributeError

/-- `_allowablek_123`  [strength.py:178-200] -/
def allowablek (l : Lam) : Except PyErr (List V5) := l.layup.mapM fun p => p.2.allowables

/-- Iteration over `stacking` in `zip(allowablek_123, stacking)`.  For a dictionary the allowables list
is empty (its layup is), so that no key is ever used; the model yields nothing. [strength.py:370] -/
def Stacking.iter : Stacking → List ℝ
  | .angles l => l
  | .dict _ => []

/-- A row of the allowables table. -/
structure AllowRow where
  ply : Nat
  position : Pos
  angle : ℝ
  allow : V5

/-- `_calculate_maxstressallowable`  [strength.py:336-389]; the first row of a ply is labelled
`'top'` (lines 373-374). -/
def calculateAllowable (l : Lam) : Except PyErr (List AllowRow) := do
  let ak ← allowablek l
  return ((ak.zip l.stacking.iter).zipIdx).flatMap fun p =>
    [(⟨p.2 + 1, .top, p.1.2, p.1.1⟩ : AllowRow), ⟨p.2 + 1, .bot, p.1.2, p.1.1⟩]

/-- `x - 1` on floats  [strength.py:408-412] -/
noncomputable def subOne : PyFloat → PyFloat
  | .fin r => .fin (r - 1)
  | x => x

open Classical in
/-- `allow / stress.mask(stress < 0, 0) - 1`  [strength.py:408, 410].
Simplification: one zero; see `Verif.Model.SignedZero` for a stress of `-0.0`. -/
noncomputable def marginT (allow stress : ℝ) : PyFloat :=
  subOne (npDiv allow (if stress < 0 then 0 else stress))

open Classical in
/-- `allow / stress.mask(stress > 0, 0).abs() - 1`  [strength.py:409, 411] -/
noncomputable def marginC (allow stress : ℝ) : PyFloat :=
  subOne (npDiv allow |if stress > 0 then 0 else stress|)

/-- `allow / stress.abs() - 1`  [strength.py:412] -/
noncomputable def marginS (allow stress : ℝ) : PyFloat := subOne (npDiv allow |stress|)

/-- The five margins in column order `margin_t1, margin_c1, margin_t2, margin_c2, margin_s`
[strength.py:408-412] -/
noncomputable def margins (a : V5) (s : V3) : Fin 5 → PyFloat :=
  ![marginT (a 0) (s 0), marginC (a 1) (s 0), marginT (a 2) (s 1), marginC (a 3) (s 1),
    marginS (a 4) (s 2)]

open Classical in
/-- `idxmin(axis=1)` (NaN skipped, first minimum wins; `none` when all entries are NaN)
[strength.py:423] -/
noncomputable def idxmin (m : Fin 5 → PyFloat) : Option (Fin 5) :=
  (List.finRange 5).foldl (fun best i =>
    if m i = .nan then best
    else match best with
      | none => some i
      | some b => if XF.lt (m i) (m b) then some i else best) none

/-- A row of the margin table  [strength.py:414-423] -/
structure MarginRow where
  ply : Nat
  position : Pos
  angle : ℝ
  margin : Fin 5 → PyFloat
  critical : Option (Fin 5)

/-- `calculate_maxstressmargin`  [strength.py:391-426].  The two tables are aligned by row number;
they always have the same number of rows when both calls succeed (`Props/Strength`). -/
noncomputable def calculateMargin (l : Lam) (N : V6) : Except PyErr (List MarginRow) := do
  let al ← calculateAllowable l
  let st ← calculateStress l N
  return (al.zip st).map fun p =>
    let m := margins p.1.allow p.2.m12
    { ply := p.1.ply, position := p.1.position, angle := p.1.angle, margin := m, critical := idxmin m }

end Composipy
