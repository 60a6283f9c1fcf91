import Verif.Model.Buckling
import Mathlib.Data.List.Sort

/-!
# Model of `composipy/optimize`  [utils.py:11-104, _maximize_buckling.py, _minimize_panel_weight.py]

`scipy.optimize.minimize` is external: `maximizeBucklingLoad` and `minimizePanelWeight` return the problem handed
to it (objective, start point, bounds, constraints).  Simplifications: all numeric arguments are finite reals,
`m`, `n` are natural numbers; plotting (`plot=True`, `plot_optimization`) and the `silent=False` print are left out.
-/

namespace Composipy

/-- The arguments that describe the panel. -/
structure Panel where
  a : ℝ
  b : ℝ
  E1 : ℝ
  E2 : ℝ
  v12 : ℝ
  G12 : ℝ
  m : ℕ
  n : ℕ
  c : Constraints

/-- The material attributes as real numbers.  The other case does not occur: all arguments are finite. -/
def realMat (m : OrthoMat PyFloat) : Except PyErr (OrthoMat ℝ) :=
  match m.toReal? with
  | some r => .ok r
  | none => .error .valueError

/-- The plate attributes as real numbers.  The other case does not occur: all arguments are finite. -/
def realPlate (d : PlateData) : Except PyErr PlateNum :=
  match d.a, d.b, d.Nxx, d.Nyy, d.Nxy with
  | .fin a, .fin b, .fin Nxx, .fin Nyy, .fin Nxy => .ok ⟨a, b, Nxx, Nyy, Nxy, d.m.toNat, d.n.toNat⟩
  | _, _, _, _, _ => .error .valueError

/-- `Ncr_from_lp` [utils.py:11-24] -/
noncomputable def ncrFromLp (S : EigSolver) (g : Panel) (T xi1 xi3 Nxx Nyy Nxy : ℝ) : Except PyErr PyFloat := do
  let mat1 ← (OrthoMat.args (.num (.fin g.E1)) (.num (.fin g.E2)) (.num (.fin g.v12)) (.num (.fin g.G12))
    (.num (.fin 0.1))).init
  let mat1 ← realMat mat1
  let laminate1 ← Lam.init (.dict ⟨none, none, some (.vec [xi1, 0, xi3, 0]), some (.num T)⟩) (.single (.ortho mat1))
  let plate1 ← (PlateArgs.args true (.num (.fin g.a)) (.num (.fin g.b)) (.num (.fin Nxx)) (.num (.fin Nyy))
    (.num (.fin Nxy)) (.num (.fin g.m)) (.num (.fin g.n))).init
  let plate1 ← realPlate plate1
  let r ← (bucklingAnalysis S laminate1.D g.c plate1 5 (.fresh _)).1
  pyIdx r.1 0

open Classical in
/-- `normalize_critical_load` [utils.py:27-37] -/
noncomputable def normalizeCriticalLoad (Nxx Nyy Nxy : ℝ) : Except PyErr (ℝ × ℝ × ℝ × ℝ) := do
  let loads := [|Nxx|, |Nyy|, |Nxy|].insertionSort (· ≤ ·)
  let maxAbs ← pyIdx loads (loads.length - 1)
  let x ← pyDiv Nxx maxAbs
  let y ← pyDiv Nyy maxAbs
  let s ← pyDiv Nxy maxAbs
  return (x, y, s, maxAbs)

/-- The unpacking at the start of the three constraint functions: a vector of another length leaves `xi1` unbound.
[utils.py:43-46] -/
def unpackXi : List ℝ → Except PyErr (ℝ × ℝ)
  | [xi1, xi3] => .ok (xi1, xi3)
  | [_, xi1, xi3] => .ok (xi1, xi3)
  | _ => .error .unboundLocalError

/-- `penalty_g1` [utils.py:40-49] -/
def penaltyG1 (y0 : List ℝ) : Except PyErr ℝ := do
  let (xi1, xi3) ← unpackXi y0
  return xi3 + 2 * xi1 + 1

/-- `penalty_g2` [utils.py:52-60] -/
def penaltyG2 (y0 : List ℝ) : Except PyErr ℝ := do
  let (xi1, xi3) ← unpackXi y0
  return xi3 - 2 * xi1 + 1

/-- `natural_constraint_g` [utils.py:63-72] -/
def naturalConstraintG (y0 : List ℝ) : Except PyErr ℝ := do
  let (xi1, xi3) ← unpackXi y0
  return xi3 - 2 * xi1 ^ 2 + 1

/-- The two warnings of `check_loads`. -/
inductive LoadWarning where
  | notCompressive
  | willBeNormalized
  deriving DecidableEq

open Classical in
/-- `check_loads` [utils.py:75-84]: the warnings issued, in order. -/
noncomputable def checkLoads (Nxx Nyy Nxy : ℝ) : List LoadWarning :=
  (if Nxx ≥ 0 ∧ Nyy ≥ 0 ∧ Nxy = 0 then [.notCompressive] else []) ++
  (if |Nxx| > 1 ∨ |Nyy| > 1 ∨ |Nxy| > 1 then [.willBeNormalized] else [])

open Classical in
/-- `_constraint` [utils.py:87-104] -/
noncomputable def constraintOk (xi1 xi3 : ℝ) (penalty : Bool := true) : Bool :=
  let gNatural := xi3 - 2 * xi1 ^ 2 + 1
  let g1 := xi3 + 2 * xi1 + 1
  let g2 := xi3 - 2 * xi1 + 1
  let g := if !penalty then gNatural else if xi1 < 0 then g1 else g2
  if g < 0 then false else true

/-- `NonlinearConstraint(fun, lb, ub)` -/
structure NLCon where
  f : List ℝ → Except PyErr PyFloat
  lb : ℝ
  ub : PyFloat

/-- The arguments of `scipy.optimize.minimize(fun, x0, constraints=..., bounds=...)`. -/
structure MinProblem where
  obj : List ℝ → Except PyErr PyFloat
  x0 : List ℝ
  bounds : List (ℝ × ℝ)
  cons : List NLCon

/-- `try: Ncr_from_lp(...) except ArpackError: eig = -1` [_maximize_buckling.py:75-78, _minimize_panel_weight.py:76-79] -/
noncomputable def guardedNcr (r : Except PyErr PyFloat) : Except PyErr PyFloat :=
  match r with
  | .error .arpackError => .ok (.fin (-1))
  | r => r

/-- `(-1) * eig` -/
def negF : PyFloat → PyFloat
  | .nan => .nan
  | .pinf => .ninf
  | .ninf => .pinf
  | .fin r => .fin (-1 * r)

/-- The nested function `critical_load` of `maximize_buckling_load` [_maximize_buckling.py:73-79] -/
noncomputable def maxCriticalLoad (S : EigSolver) (g : Panel) (T x y s : ℝ) (y0 : List ℝ) : Except PyErr PyFloat :=
  match y0 with
  | [xi1, xi3] => do
    let eig ← guardedNcr (ncrFromLp S g T xi1 xi3 x y s)
    return negF eig
  | _ => .error .valueError

/-- `maximize_buckling_load` [_maximize_buckling.py:13-97]: the warnings, and the problem given to `minimize`. -/
noncomputable def maximizeBucklingLoad (S : EigSolver) (g : Panel) (T : ℝ) (Nxx Nyy Nxy : ℝ) (penalty : Bool := true) :
    List LoadWarning × Except PyErr MinProblem :=
  (checkLoads Nxx Nyy Nxy, do
    let (x, y, s, _) ← normalizeCriticalLoad Nxx Nyy Nxy
    let con (f : List ℝ → Except PyErr ℝ) : NLCon := ⟨fun v => (f v).map .fin, -0.0001, .fin 10000⟩
    return { obj := maxCriticalLoad S g T x y s
             x0 := [0, 0]
             bounds := [(-1, 1), (-1, 1)]
             cons := if penalty then [con penaltyG1, con penaltyG2] else [con naturalConstraintG] })

/-- `_objective_function` [_minimize_panel_weight.py:13-15] -/
def weightObjective : List ℝ → Except PyErr ℝ
  | T :: _ => .ok (T ^ 3)
  | [] => .error .valueError

/-- The nested function `critical_load` of `minimize_panel_weight` [_minimize_panel_weight.py:74-80] -/
noncomputable def minCriticalLoad (S : EigSolver) (g : Panel) (x y s : ℝ) (y0 : List ℝ) : Except PyErr PyFloat :=
  match y0 with
  | [T, xi1, xi3] => guardedNcr (ncrFromLp S g T xi1 xi3 x y s)
  | _ => .error .valueError

/-- `minimize_panel_weight` [_minimize_panel_weight.py:18-91]: the warnings, and the problem given to `minimize`. -/
noncomputable def minimizePanelWeight (S : EigSolver) (g : Panel) (Nxx Nyy Nxy : ℝ) (x0 : List ℝ := [0.1, 0, 0]) :
    List LoadWarning × Except PyErr MinProblem :=
  (checkLoads Nxx Nyy Nxy, do
    let (x, y, s, maxLoad) ← normalizeCriticalLoad Nxx Nyy Nxy
    let con (f : List ℝ → Except PyErr ℝ) : NLCon := ⟨fun v => (f v).map .fin, -0.0001, .fin 10000⟩
    return { obj := fun v => (weightObjective v).map .fin
             x0 := x0
             bounds := [(0.001, 1000000), (-1, 1), (-1, 1)]
             cons := [⟨minCriticalLoad S g x y s, maxLoad, .pinf⟩, con penaltyG1, con penaltyG2] })

end Composipy
