import Verif.Model.NonFinitePlate
import Verif.Model.Optimize

/-!
# `composipy/optimize` with NaN or infinite arguments  [utils.py:11-104, _maximize_buckling.py, _minimize_panel_weight.py]

The same functions as in `Verif.Model.Optimize`, on all floats.  External: `eigsh` on arrays that may hold NaN or infinity (`XEigSolver`)
and `list.sort` on lists that may hold NaN (`sort`): its order then depends on the version of Python.
-/

namespace Composipy

/-- `eigsh` as in `EigSolver`, on arrays of floats; only the eigenvalues are kept. -/
abbrev XEigSolver := (N : ℕ) → (A M : XSq N) → (k : ℕ) → Except PyErr (List PyFloat)

/-- The arguments that describe the panel. -/
structure XPanel where
  a : PyFloat
  b : PyFloat
  E1 : PyFloat
  E2 : PyFloat
  v12 : PyFloat
  G12 : PyFloat
  m : PyFloat
  n : PyFloat
  c : Constraints

/-- Two square arrays of the same size: `K` and `KG`. -/
structure XPair where
  N : ℕ
  K : XSq N
  KG : XSq N

/-- `Ncr_from_lp` up to the arrays that `buckling_analysis` hands to `eigsh`.  [utils.py:16-24, structure.py:383-390] -/
noncomputable def xNcrArrays (g : XPanel) (T xi1 xi3 Nxx Nyy Nxy : PyFloat) : Except PyErr XPair := do
  let mat1 ← (OrthoMat.args (.num g.E1) (.num g.E2) (.num g.v12) (.num g.G12) (.num (.fin 0.1))).init
  let plate1 ← (PlateArgs.args true (.num g.a) (.num g.b) (.num Nxx) (.num Nyy) (.num Nxy) (.num g.m) (.num g.n)).init
  let p : XPlate := ⟨plate1.a, plate1.b, plate1.Nxx, plate1.Nyy, plate1.Nxy, plate1.m.toNat, plate1.n.toNat⟩
  let (K, KG) ← xCalcKKGD shipped (xLpD mat1 ![xi1, .fin 0, xi3, .fin 0] T) g.c p
  return ⟨p.m * p.n, K, KG⟩

/-- `Ncr_from_lp`  [utils.py:11-24; structure.py:391-404] -/
noncomputable def xNcrFromLp (S : XEigSolver) (g : XPanel) (T xi1 xi3 Nxx Nyy Nxy : PyFloat) : Except PyErr PyFloat := do
  let r ← xNcrArrays g T xi1 xi3 Nxx Nyy Nxy
  let k : ℤ := min 5 ((r.N : ℤ) - 2)
  let vals ← if k ≤ 0 then .error .valueError else S r.N r.KG r.K k.toNat
  pyIdx (vals.map (xNpDiv (.fin (-1)))) 0

/-- `normalize_critical_load`  [utils.py:27-37]; `sort` is `list.sort`. -/
noncomputable def xNormalize (sort : List PyFloat → List PyFloat) (Nxx Nyy Nxy : PyFloat) :
    Except PyErr (PyFloat × PyFloat × PyFloat × PyFloat) := do
  let loads := sort [xAbs Nxx, xAbs Nyy, xAbs Nxy]
  let maxAbs ← pyIdx loads (loads.length - 1)
  let x ← Nxx.div maxAbs
  let y ← Nyy.div maxAbs
  let s ← Nxy.div maxAbs
  return (x, y, s, maxAbs)

/-- The unpacking at the start of the three constraint functions.  [utils.py:43-46] -/
def xUnpackXi : List PyFloat → Except PyErr (PyFloat × PyFloat)
  | [xi1, xi3] => .ok (xi1, xi3)
  | [_, xi1, xi3] => .ok (xi1, xi3)
  | _ => .error .unboundLocalError

/-- `penalty_g1` [utils.py:40-49] -/
noncomputable def xPenaltyG1 (y0 : List PyFloat) : Except PyErr PyFloat := do
  let (xi1, xi3) ← xUnpackXi y0
  return (xi3.add ((XF.fin 2).mul xi1)).add (.fin 1)

/-- `penalty_g2` [utils.py:52-60] -/
noncomputable def xPenaltyG2 (y0 : List PyFloat) : Except PyErr PyFloat := do
  let (xi1, xi3) ← xUnpackXi y0
  return (xi3.sub ((XF.fin 2).mul xi1)).add (.fin 1)

/-- `natural_constraint_g` [utils.py:63-72] -/
noncomputable def xNaturalG (y0 : List PyFloat) : Except PyErr PyFloat := do
  let (xi1, xi3) ← xUnpackXi y0
  return (xi3.sub ((XF.fin 2).mul (xi1.pow 2))).add (.fin 1)

/-- `x >= r` -/
def xGe : PyFloat → ℝ → Prop
  | .fin x, r => x ≥ r
  | .pinf, _ => True
  | _, _ => False

open Classical in
/-- `check_loads` [utils.py:75-84] -/
noncomputable def xCheckLoads (Nxx Nyy Nxy : PyFloat) : List LoadWarning :=
  (if xGe Nxx 0 ∧ xGe Nyy 0 ∧ Nxy.eqv (.fin 0) then [.notCompressive] else []) ++
  (if (XF.fin 1).lt (xAbs Nxx) ∨ (XF.fin 1).lt (xAbs Nyy) ∨ (XF.fin 1).lt (xAbs Nxy) then [.willBeNormalized] else [])

open Classical in
/-- `_constraint` [utils.py:87-104] -/
noncomputable def xConstraintOk (xi1 xi3 : PyFloat) (penalty : Bool := true) : Bool :=
  let gNatural := (xi3.sub ((XF.fin 2).mul (xi1.pow 2))).add (.fin 1)
  let g1 := (xi3.add ((XF.fin 2).mul xi1)).add (.fin 1)
  let g2 := (xi3.sub ((XF.fin 2).mul xi1)).add (.fin 1)
  let g := if !penalty then gNatural else if xi1.lt (.fin 0) then g1 else g2
  if g.lt (.fin 0) then false else true

/-- `NonlinearConstraint(fun, lb, ub)` -/
structure XCon where
  f : List PyFloat → Except PyErr PyFloat
  lb : PyFloat
  ub : PyFloat

/-- The arguments of `minimize`. -/
structure XProblem where
  obj : List PyFloat → Except PyErr PyFloat
  cons : List XCon

/-- The nested function `critical_load` of `maximize_buckling_load` [_maximize_buckling.py:73-79] -/
noncomputable def xMaxCriticalLoad (S : XEigSolver) (g : XPanel) (T x y s : PyFloat) : List PyFloat → Except PyErr PyFloat
  | [xi1, xi3] => do
    let eig ← guardedNcr (xNcrFromLp S g T xi1 xi3 x y s)
    return negF eig
  | _ => .error .valueError

/-- `maximize_buckling_load` [_maximize_buckling.py:66-91]: the warnings, and the functions given to `minimize`. -/
noncomputable def xMaximize (S : XEigSolver) (sort : List PyFloat → List PyFloat) (g : XPanel) (T Nxx Nyy Nxy : PyFloat)
    (penalty : Bool := true) : List LoadWarning × Except PyErr XProblem :=
  (xCheckLoads Nxx Nyy Nxy, do
    let (x, y, s, _) ← xNormalize sort Nxx Nyy Nxy
    let con (f : List PyFloat → Except PyErr PyFloat) : XCon := ⟨f, .fin (-0.0001), .fin 10000⟩
    return { obj := xMaxCriticalLoad S g T x y s
             cons := if penalty then [con xPenaltyG1, con xPenaltyG2] else [con xNaturalG] })

/-- `_objective_function` [_minimize_panel_weight.py:13-15] -/
noncomputable def xWeightObjective : List PyFloat → Except PyErr PyFloat
  | T :: _ => .ok (T.pow 3)
  | [] => .error .valueError

/-- The nested function `critical_load` of `minimize_panel_weight` [_minimize_panel_weight.py:74-80] -/
noncomputable def xMinCriticalLoad (S : XEigSolver) (g : XPanel) (x y s : PyFloat) : List PyFloat → Except PyErr PyFloat
  | [T, xi1, xi3] => guardedNcr (xNcrFromLp S g T xi1 xi3 x y s)
  | _ => .error .valueError

/-- `minimize_panel_weight` [_minimize_panel_weight.py:67-89]: the warnings, and the functions given to `minimize`. -/
noncomputable def xMinimize (S : XEigSolver) (sort : List PyFloat → List PyFloat) (g : XPanel) (Nxx Nyy Nxy : PyFloat) :
    List LoadWarning × Except PyErr XProblem :=
  (xCheckLoads Nxx Nyy Nxy, do
    let (x, y, s, maxLoad) ← xNormalize sort Nxx Nyy Nxy
    let con (f : List PyFloat → Except PyErr PyFloat) : XCon := ⟨f, .fin (-0.0001), .fin 10000⟩
    return { obj := xWeightObjective
             cons := [⟨xMinCriticalLoad S g x y s, maxLoad, .pinf⟩, con xPenaltyG1, con xPenaltyG2] })

end Composipy
