import Verif.Model.Optimize
import Verif.Model.Plot

/-!
# Model of `plot_optimization`  [optimize/utils.py:107-173] and of `plot=True`  [_maximize_buckling.py:93-95]

Up to the arrays handed to `plt.contour` and `plt.plot`.  Not modelled: the drawing calls and prints.  `init_args` of lines
113 and 127-128 is never used and left out.  Simplification: `points_to_plot` is a natural number.
-/

namespace Composipy

/-- `arr.reshape(r, c)` of a flat array. -/
def reshape2 {α : Type} (l : List α) (r c : ℕ) : Except PyErr (List (List α)) :=
  if l.length = r * c then .ok ((List.range r).map fun i => (l.drop (i * c)).take c) else .error .valueError

/-- The data drawn. -/
structure OptPlot where
  xi1 : List (List ℝ)
  xi3 : List (List ℝ)
  nx : List (List PyFloat)
  curve1 : List (ℝ × ℝ)
  curve2 : List (ℝ × ℝ)
  optimum : List ℝ

/-- `plot_optimization` [utils.py:107-173].  Note that `ArpackError` is not caught here. -/
noncomputable def plotOptimization (S : EigSolver) (g : Panel) (T Nxx Nyy Nxy : ℝ) (points : ℕ) (resX : List ℝ)
    (penalty : Bool) : Except PyErr OptPlot := do
  let x := linspace (-1) 1 points
  let pts := x.flatMap fun xi1 => x.map fun xi3 => (xi1, xi3)
  let nxArr ← pts.mapM fun p =>
    if constraintOk p.1 p.2 penalty then ncrFromLp S g T p.1 p.2 Nxx Nyy Nxy else .ok .nan
  let g1 := linspace (-1) 0 points
  let g2 := linspace 0 1 points
  let k := nxArr.length.sqrt
  let nx ← reshape2 nxArr k k
  let xi1 ← reshape2 (pts.map Prod.fst) k k
  let xi3 ← reshape2 (pts.map Prod.snd) k k
  return { xi1 := xi1, xi3 := xi3, nx := nx
           curve1 := g1.map fun t => (t, if penalty then -2 * t - 1 else 2 * t ^ 2 - 1)
           curve2 := g2.map fun t => (t, if penalty then 2 * t - 1 else 2 * t ^ 2 - 1)
           optimum := resX }

/-- What `maximize_buckling_load(..., plot=True)` draws after `minimize` returned `resX`: the loads are the ones the caller
gave, not the normalised ones. [_maximize_buckling.py:93-95] -/
noncomputable def maximizePlot (S : EigSolver) (g : Panel) (T Nxx Nyy Nxy : ℝ) (points : ℕ) (resX : List ℝ)
    (penalty : Bool) : Except PyErr OptPlot :=
  plotOptimization S g T Nxx Nyy Nxy points resX penalty

end Composipy
