import Verif.Model.Material
import Verif.Model.Plate

/-!
# Specification: which arguments a constructor accepts
-/

namespace Composipy.Spec

/-- `x` lies in `[lo, hi]` (no upper bound if `hi = none`); NaN counts as in range because every
comparison with NaN is false. -/
def InRange (lo : ℝ) (hi : Option ℝ) : PyFloat → Prop
  | .nan => True
  | .ninf => False
  | .pinf => hi = none
  | .fin r => lo ≤ r ∧ ∀ h, hi = some h → r ≤ h

/-- Every argument converts with `float()` and the results are the fields of `m`. -/
def OrthoConverts (a : OrthoMat PyVal) (m : OrthoMat PyFloat) : Prop :=
  a.e1.toFloat = some m.e1 ∧ a.e2.toFloat = some m.e2 ∧ a.v12.toFloat = some m.v12 ∧
  a.g12.toFloat = some m.g12 ∧ a.thickness.toFloat = some m.thickness ∧
  a.t1.toFloat = some m.t1 ∧ a.c1.toFloat = some m.c1 ∧ a.t2.toFloat = some m.t2 ∧
  a.c2.toFloat = some m.c2 ∧ a.s.toFloat = some m.s

/-- The documented ranges: everything at least 0, Poisson ratio between -1/2 and 1/2. -/
def OrthoRanges (m : OrthoMat PyFloat) : Prop :=
  InRange 0 none m.e1 ∧ InRange 0 none m.e2 ∧ InRange (-(1/2)) (some (1/2)) m.v12 ∧
  InRange 0 none m.g12 ∧ InRange 0 none m.thickness ∧ InRange 0 none m.t1 ∧
  InRange 0 none m.c1 ∧ InRange 0 none m.t2 ∧ InRange 0 none m.c2 ∧ InRange 0 none m.s

def IsoConverts (a : IsoMat PyVal) (m : IsoMat PyFloat) : Prop :=
  a.e.toFloat = some m.e ∧ a.v.toFloat = some m.v ∧ a.g.toFloat = some m.g ∧
  a.thickness.toFloat = some m.thickness ∧ a.t.toFloat = some m.t ∧
  a.c.toFloat = some m.c ∧ a.s.toFloat = some m.s

def IsoRanges (m : IsoMat PyFloat) : Prop :=
  InRange 0 none m.e ∧ InRange (-(1/2)) (some (1/2)) m.v ∧ InRange 0 none m.g ∧
  InRange 0 none m.thickness ∧ InRange 0 none m.t ∧ InRange 0 none m.c ∧ InRange 0 none m.s

/-- What `PlateStructure(...)` is documented to accept, and the values it then stores. -/
def PlateAccepts (p : PlateArgs) (d : PlateData) : Prop :=
  p.dpropertyIsProperty = true ∧
  (p.a.toFloat = some d.a ∧ InRange 0 none d.a) ∧
  (p.b.toFloat = some d.b ∧ InRange 0 none d.b) ∧
  p.Nxx.toFloat = some d.Nxx ∧ p.Nyy.toFloat = some d.Nyy ∧ p.Nxy.toFloat = some d.Nxy ∧
  (p.m.toFloat = some (.fin (d.m : ℝ)) ∧ 1 ≤ d.m) ∧
  (p.n.toFloat = some (.fin (d.n : ℝ)) ∧ 1 ≤ d.n)

end Composipy.Spec
