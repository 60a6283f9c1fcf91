import Verif.Model.Validators

/-!
# Model of `PlateStructure.__init__`  [core/structure.py:80-110]
-/

namespace Composipy

/-- The numeric arguments of `PlateStructure(dproperty, a, b, constraints, Nxx, Nyy, Nxy, m, n)`.
`dpropertyIsProperty` is the answer of `isinstance(dproperty, Property)`.  `constraints` is stored
without any check and is an argument of `_compute_constraints` in this model. -/
structure PlateArgs where
  dpropertyIsProperty : Bool
  a : PyVal
  b : PyVal
  Nxx : PyVal
  Nyy : PyVal
  Nxy : PyVal
  m : PyVal
  n : PyVal

/-- The numeric attributes of a constructed `PlateStructure`  [structure.py:97-105] -/
structure PlateData where
  a : PyFloat
  b : PyFloat
  Nxx : PyFloat
  Nyy : PyFloat
  Nxy : PyFloat
  m : ℤ
  n : ℤ

/-- `PlateStructure.__init__`  [structure.py:80-110] -/
noncomputable def PlateArgs.init (p : PlateArgs) : Except PyErr PlateData := do
  let _ ← isInstance p.dpropertyIsProperty
  let a ← floatNumber p.a (some 0) none
  let b ← floatNumber p.b (some 0) none
  let Nxx ← floatNumber p.Nxx none none
  let Nyy ← floatNumber p.Nyy none none
  let Nxy ← floatNumber p.Nxy none none
  let m ← intNumber p.m (some 1) none
  let n ← intNumber p.n (some 1) none
  return { a, b, Nxx, Nyy, Nxy, m, n }

/-- Omitted arguments: loads 0, `m = n = 10`  [structure.py:91-95] -/
noncomputable def PlateArgs.args (isProp : Bool) (a b : PyVal)
    (Nxx Nyy Nxy : PyVal := .num (.fin 0)) (m n : PyVal := .num (.fin 10)) : PlateArgs :=
  { dpropertyIsProperty := isProp, a, b, Nxx, Nyy, Nxy, m, n }

end Composipy
