import Verif.Model.Strength
import Verif.Model.LaminateCache

/-!
# `LaminateStrength` on a live laminate object  [strength.py:35-425]

`Verif.Model.Strength` reads the laminate as a fresh object.  Here every access to `self.dproperty` goes through the
caches of the laminate, and the attributes left behind by an exception are kept.  `self.Nxx, ..., self.Mxy` are plain
attributes the user may set between calls; `dproperty.stacking` is the caller's own list (property.py:93).

In `calculate_maxstressmargin` pandas aligns the two tables by row number: the rows of the result are those of the allowables, and a
row without a stress has NaN margins (`alignMargins`).  For such a row `idxmin` is `none`, as elsewhere; pandas 2 warns and stores NaN
there, pandas 3 raises.
-/

namespace Composipy
open Matrix

/-- A computation on a laminate object: result or exception, and the caches left behind. -/
abbrev CM (α : Type) := Cache → Except PyErr α × Cache

/-- Sequencing of two computations; an exception of the first ends both. -/
def CM.bind {α β : Type} (m : CM α) (f : α → CM β) : CM β := fun c =>
  match m c with
  | (.error e, c) => (.error e, c)
  | (.ok a, c) => f a c

/-- A computation that does not touch the caches. -/
def CM.lift {α : Type} (x : Except PyErr α) : CM α := fun c => (x, c)

/-- `epsilon0`  [strength.py:53-66] -/
noncomputable def sEpsilon0 (l : Lam) (N : V6) : CM V6 :=
  CM.bind (readABD l) fun ABD => (CM.lift (npInv ABD)).bind fun abd => CM.lift (.ok (abd *ᵥ N))

/-- `_epsilonk`  [strength.py:69-97] -/
noncomputable def sEpsilonk (l : Lam) (N : V6) : CM (List (V3 × V3)) :=
  (CM.lift (zPairs l.zPosition l.stacking.len)).bind fun zmid => (sEpsilon0 l N).bind fun e =>
    CM.lift (.ok (zmid.map fun h => (membrane e + h.1 • curvature e, membrane e + h.2 • curvature e)))

/-- `_stressk`  [strength.py:100-121] -/
noncomputable def sStressk (l : Lam) (N : V6) : CM (List (V3 × V3)) :=
  CM.bind (readQ l) fun Qk => (sEpsilonk l N).bind fun ek =>
    CM.lift (.ok ((Qk.zip ek).map fun p => (p.1 *ᵥ p.2.1, p.1 *ᵥ p.2.2)))

/-- `_epsilonk_123`  [strength.py:123-148] -/
noncomputable def sEpsilonk123 (l : Lam) (N : V6) : CM (List (V3 × V3)) :=
  (sEpsilonk l N).bind fun ek => (CM.lift l.stacking.toAngles).bind fun angles =>
    CM.lift (.ok ((angles.zip ek).map fun p =>
      (doubleShear (Treal p.1 *ᵥ halveShear p.2.1), doubleShear (Treal p.1 *ᵥ halveShear p.2.2))))

/-- `_stressk_123`  [strength.py:151-176] -/
noncomputable def sStressk123 (l : Lam) (N : V6) : CM (List (V3 × V3)) :=
  (sStressk l N).bind fun sk => (CM.lift l.stacking.toAngles).bind fun angles =>
    CM.lift (.ok ((angles.zip sk).map fun p => (Treal p.1 *ᵥ p.2.1, Treal p.1 *ᵥ p.2.2)))

/-- `calculate_strain`  [strength.py:202-266] -/
noncomputable def sCalculateStrain (l : Lam) (N : V6) : CM (List Row) :=
  (sEpsilonk l N).bind fun ek => (sEpsilonk123 l N).bind fun ek123 =>
    (CM.lift l.stacking.toAngles).bind fun angles => CM.lift (fillRows l.zPosition ek ek123 angles)

/-- `calculate_stress`  [strength.py:269-334] -/
noncomputable def sCalculateStress (l : Lam) (N : V6) : CM (List Row) :=
  (sStressk l N).bind fun sk => (sStressk123 l N).bind fun sk123 =>
    (CM.lift l.stacking.toAngles).bind fun angles => CM.lift (fillRows l.zPosition sk sk123 angles)

/-- The columns of the margin table: quotients of columns are aligned by row number, and the frame takes its rows from `ply`, that is,
from the allowables  [strength.py:408-423] -/
noncomputable def alignMargins (al : List AllowRow) (st : List Row) : List MarginRow :=
  al.zipIdx.map fun p =>
    let m : Fin 5 → PyFloat := match st[p.2]? with
      | some s => margins p.1.allow s.m12
      | none => fun _ => .nan
    { ply := p.1.ply, position := p.1.position, angle := p.1.angle, margin := m, critical := idxmin m }

/-- `calculate_maxstressmargin`  [strength.py:391-426] -/
noncomputable def sCalculateMargin (l : Lam) (N : V6) : CM (List MarginRow) :=
  (CM.lift (calculateAllowable l)).bind fun al => (sCalculateStress l N).bind fun st =>
    CM.lift (.ok (alignMargins al st))

/-- A live `LaminateStrength`: the laminate it refers to and its six load attributes  [strength.py:43-49] -/
structure StrObj where
  lam : LamObj
  loads : V6

/-- What a user can do with it: use the laminate (also behind its back), set the loads, call a method. -/
inductive StrOp where
  | lam (op : LamOp)
  | setLoads (N : V6)
  | epsilon0 | strain | stress | margin

/-- The result of an operation. -/
inductive StrOut where
  | lam (r : LamOut)
  | done
  | vec (r : Except PyErr V6)
  | rows (r : Except PyErr (List Row))
  | margins (r : Except PyErr (List MarginRow))

/-- One operation on a live strength object. -/
noncomputable def StrObj.step (o : StrObj) : StrOp → StrOut × StrObj
  | .lam op => let (r, l) := o.lam.step op; (.lam r, { o with lam := l })
  | .setLoads N => (.done, { o with loads := N })
  | .epsilon0 => let (r, c) := sEpsilon0 o.lam.lam o.loads o.lam.cache; (.vec r, { o with lam.cache := c })
  | .strain => let (r, c) := sCalculateStrain o.lam.lam o.loads o.lam.cache; (.rows r, { o with lam.cache := c })
  | .stress => let (r, c) := sCalculateStress o.lam.lam o.loads o.lam.cache; (.rows r, { o with lam.cache := c })
  | .margin => let (r, c) := sCalculateMargin o.lam.lam o.loads o.lam.cache; (.margins r, { o with lam.cache := c })

/-- Run a history, collecting the results. -/
noncomputable def StrObj.run (o : StrObj) : List StrOp → List StrOut
  | [] => []
  | op :: ops => (o.step op).1 :: (o.step op).2.run ops

end Composipy
