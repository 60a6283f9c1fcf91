import Verif.Model.Optimize
import Verif.Model.RoundedBuckling

/-!
# Model of `composipy/optimize` in floating-point arithmetic  [utils.py:11-72, _maximize_buckling.py, _minimize_panel_weight.py]

The same functions as in `Model/Optimize.lean`, with a rounding after every operation and of the literals `0.0001` and `0.001`. The arguments of the callers and the points chosen by the
optimiser are floats already. `scipy.optimize.minimize` stays external.
-/

namespace Composipy
namespace FloatArith
variable (F : FloatArith)

/-- `laminate1.D` of `Ncr_from_lp`: `Q_0`, `Invariants`, then the formulas of the lamination parameters.  [utils.py:16-21, property.py:237-253] -/
noncomputable def panelD (m : OrthoMat ℝ) (T xi1 xi3 : ℝ) : Except PyErr M3 := do
  let Q ← F.orthoQ0 m
  return F.lpD (F.invariantsOf Q) xi1 0 xi3 0 T

/-- `Ncr_from_lp`  [utils.py:11-24] -/
noncomputable def ncrFromLp (S : EigSolver) (g : Panel) (T xi1 xi3 Nxx Nyy Nxy : ℝ) : Except PyErr PyFloat := do
  let mat1 ← (OrthoMat.args (.num (.fin g.E1)) (.num (.fin g.E2)) (.num (.fin g.v12)) (.num (.fin g.G12))
    (.num (.fin (F.fl 0.1)))).init
  let mat1 ← realMat mat1
  let plate1 ← (PlateArgs.args true (.num (.fin g.a)) (.num (.fin g.b)) (.num (.fin Nxx)) (.num (.fin Nyy))
    (.num (.fin Nxy)) (.num (.fin g.m)) (.num (.fin g.n))).init
  let plate1 ← realPlate plate1
  let r ← (F.bucklingAnalysis S (F.panelD mat1 T xi1 xi3) g.c plate1 5 (.fresh _)).1
  pyIdx r.1 0

open Classical in
/-- `normalize_critical_load`; the absolute values and the maximum are exact.  [utils.py:27-37] -/
noncomputable def normalizeCriticalLoad (Nxx Nyy Nxy : ℝ) : Except PyErr (ℝ × ℝ × ℝ × ℝ) := do
  let loads := [|Nxx|, |Nyy|, |Nxy|].insertionSort (· ≤ ·)
  let maxAbs ← pyIdx loads (loads.length - 1)
  let x ← pyDiv Nxx maxAbs
  let y ← pyDiv Nyy maxAbs
  let s ← pyDiv Nxy maxAbs
  return (F.fl x, F.fl y, F.fl s, maxAbs)

/-- `penalty_g1`  [utils.py:40-49] -/
noncomputable def penaltyG1 (y0 : List ℝ) : Except PyErr ℝ := do
  let (xi1, xi3) ← unpackXi y0
  return F.fl (F.fl (xi3 + F.fl (2 * xi1)) + 1)

/-- `penalty_g2`  [utils.py:52-60] -/
noncomputable def penaltyG2 (y0 : List ℝ) : Except PyErr ℝ := do
  let (xi1, xi3) ← unpackXi y0
  return F.fl (F.fl (xi3 - F.fl (2 * xi1)) + 1)

/-- `natural_constraint_g`  [utils.py:63-72] -/
noncomputable def naturalConstraintG (y0 : List ℝ) : Except PyErr ℝ := do
  let (xi1, xi3) ← unpackXi y0
  return F.fl (F.fl (xi3 - F.fl (2 * F.pw xi1 2)) + 1)

/-- The nested function `critical_load` of `maximize_buckling_load`; the change of sign is exact.  [_maximize_buckling.py:73-79] -/
noncomputable def maxCriticalLoad (S : EigSolver) (g : Panel) (T x y s : ℝ) (y0 : List ℝ) : Except PyErr PyFloat :=
  match y0 with
  | [xi1, xi3] => do
    let eig ← guardedNcr (F.ncrFromLp S g T xi1 xi3 x y s)
    return negF eig
  | _ => .error .valueError

/-- `maximize_buckling_load`: the problem given to `minimize`.  [_maximize_buckling.py:13-97] -/
noncomputable def maximizeBucklingLoad (S : EigSolver) (g : Panel) (T : ℝ) (Nxx Nyy Nxy : ℝ) (penalty : Bool := true) :
    Except PyErr MinProblem := do
  let (x, y, s, _) ← F.normalizeCriticalLoad Nxx Nyy Nxy
  let con (f : List ℝ → Except PyErr ℝ) : NLCon := ⟨fun v => (f v).map .fin, -F.fl 0.0001, .fin 10000⟩
  return { obj := F.maxCriticalLoad S g T x y s
           x0 := [0, 0]
           bounds := [(-1, 1), (-1, 1)]
           cons := if penalty then [con F.penaltyG1, con F.penaltyG2] else [con F.naturalConstraintG] }

/-- `_objective_function`  [_minimize_panel_weight.py:13-15] -/
def weightObjective : List ℝ → Except PyErr ℝ
  | T :: _ => .ok (F.pw T 3)
  | [] => .error .valueError

/-- The nested function `critical_load` of `minimize_panel_weight`  [_minimize_panel_weight.py:74-80] -/
noncomputable def minCriticalLoad (S : EigSolver) (g : Panel) (x y s : ℝ) (y0 : List ℝ) : Except PyErr PyFloat :=
  match y0 with
  | [T, xi1, xi3] => guardedNcr (F.ncrFromLp S g T xi1 xi3 x y s)
  | _ => .error .valueError

/-- `minimize_panel_weight`: the problem given to `minimize`.  [_minimize_panel_weight.py:18-91] -/
noncomputable def minimizePanelWeight (S : EigSolver) (g : Panel) (Nxx Nyy Nxy : ℝ) (x0 : List ℝ) :
    Except PyErr MinProblem := do
  let (x, y, s, maxLoad) ← F.normalizeCriticalLoad Nxx Nyy Nxy
  let con (f : List ℝ → Except PyErr ℝ) : NLCon := ⟨fun v => (f v).map .fin, -F.fl 0.0001, .fin 10000⟩
  return { obj := fun v => (F.weightObjective v).map .fin
           x0 := x0
           bounds := [(F.fl 0.001, 1000000), (-1, 1), (-1, 1)]
           cons := [⟨F.minCriticalLoad S g x y s, maxLoad, .pinf⟩, con F.penaltyG1, con F.penaltyG2] }

end FloatArith
end Composipy
