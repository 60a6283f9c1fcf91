import Verif.Model.Strength

/-!
# The column `critical` with the versions of `DataFrame.idxmin`  [strength.py:423]

The documentation of pandas says that NaN is skipped; `Verif.Model.Strength.idxmin` follows it.  The implementation replaces NaN by
`+inf` before it looks for the minimum (`filled`).  A row that holds NaN only gives NaN in older versions of pandas and `ValueError` in
newer ones (`strict`).
-/

namespace Composipy

open Classical in
/-- A row with NaN replaced by `+inf`, as pandas does inside `idxmin`  [strength.py:423] -/
noncomputable def fillInf (m : Fin 5 → PyFloat) : Fin 5 → PyFloat := fun i => if m i = .nan then .pinf else m i

open Classical in
/-- `idxmin(axis=1)` of one row; `none` is NaN  [strength.py:423] -/
noncomputable def pandasIdxmin (filled strict : Bool) (m : Fin 5 → PyFloat) : Except PyErr (Option (Fin 5)) :=
  if ∀ i, m i = .nan then (if strict then .error .valueError else .ok none)
  else .ok (idxmin (if filled then fillInf m else m))

/-- `calculate_maxstressmargin` with a version of `idxmin`  [strength.py:391-426] -/
noncomputable def calculateMarginPandas (filled strict : Bool) (l : Lam) (N : V6) : Except PyErr (List MarginRow) := do
  let al ← calculateAllowable l
  let st ← calculateStress l N
  (al.zip st).mapM fun p => do
    let m := margins p.1.allow p.2.m12
    let c ← pandasIdxmin filled strict m
    return { ply := p.1.ply, position := p.1.position, angle := p.1.angle, margin := m, critical := c }

end Composipy
