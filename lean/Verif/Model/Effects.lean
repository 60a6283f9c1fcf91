import Verif.Model.Strength
import Verif.Model.Plot
import Verif.Model.OptPlot

/-!
# Effects on the world outside: what is printed, and the display precision of pandas

[structure.py:367-408, 410-440; optimize/utils.py:11-24, 87-173; _maximize_buckling.py:93-97; strength.py:265, 333, 388, 424]

Two things leave the objects of the library: lines written by `print`, and the process-wide option `display.precision` of pandas,
which four methods of `LaminateStrength` set to 2.  `time()` is a parameter `clock`: the reading at its `j`-th call within one analysis.
Not here: warnings (`Verif.Model.Optimize`), the drawing itself, and the running time printed by the table scripts.
-/

namespace Composipy

/-- A printed line: fixed text, text around a number of seconds, or two numbers. -/
inductive Line where
  | text (s : String)
  | timed (before : String) (seconds : ℝ) (after : String)
  | pair (x y : ℝ)

/-- The lines printed so far and the option `display.precision`. -/
structure Outside where
  printed : List Line
  precision : ℕ

/-- A computation with effects outside: result or exception, and the world left behind. -/
abbrev Eff (α : Type) := Outside → Except PyErr α × Outside

/-- Sequencing; an exception of the first ends both, and its effects stay. -/
def Eff.bind {α β : Type} (m : Eff α) (f : α → Eff β) : Eff β := fun w =>
  match m w with
  | (.error e, w) => (.error e, w)
  | (.ok a, w) => f a w

/-- A computation without effects outside. -/
def Eff.lift {α : Type} (x : Except PyErr α) : Eff α := fun w => (x, w)

/-- `print(...)` -/
def Eff.print (l : Line) : Eff Unit := fun w => (.ok (), { w with printed := w.printed ++ [l] })

/-- `if not silent: print(...)` -/
def Eff.say (silent : Bool) (l : Line) : Eff Unit := if !silent then .print l else .lift (.ok ())

/-- `pd.set_option('display.precision', v)` -/
def Eff.setPrecision (v : ℕ) : Eff Unit := fun w => (.ok (), { w with precision := v })

/-! ## Printing -/

/-- `buckling_analysis(silent=True, num_eigvalues=5)` with its lines  [structure.py:367-408]; the result comes with the attributes of the
plate, which are kept also when an exception is raised, so this one is not written with `Eff.bind`. -/
noncomputable def effBuckling (clock : ℕ → ℝ) (S : EigSolver) (D : Except PyErr M3) (c : Constraints) (p : PlateNum)
    (st : PlateState (p.m * p.n)) (w : Outside) (silent : Bool := true) (numEig : ℤ := 5) :
    (Except PyErr (List PyFloat × List (Fin (p.m * p.n) → ℝ)) × PlateState (p.m * p.n)) × Outside :=
  let w := (Eff.say silent (.text "calculating K and KG") w).2
  match D with
  | .error e => ((.error e, st), w)
  | .ok _ =>
  match computeIdx c p.m p.n with
  | .error e => ((.error e, st), w)
  | .ok s =>
  let st := { st with idx := some s }
  match calcKKGD shipped D c p with
  | .error e => ((.error e, st), w)
  | .ok (K, KG) =>
  let w := (Eff.say silent (.timed "K and KG calculated in " (clock 1 - clock 0) " seconds") w).2
  let w := (Eff.say silent (.text "Calculating eigenvalues") w).2
  match eigshCall S KG K (min numEig ((p.m * p.n : ℕ) - 2 : ℤ)) with
  | .error e => ((.error e, st), w)
  | .ok out =>
  let eigvals := out.map fun q => npDiv (-1) q.1
  let eigvecs := out.map Prod.snd
  let w := (Eff.say silent (.timed "eigenvalues calculated in " (clock 3 - clock 2) " seconds") w).2
  ((.ok (eigvals, eigvecs), { st with eig := some (eigvals, eigvecs) }), w)

/-- `plot_eigenvalue`: the analysis, where needed, is called without arguments  [structure.py:410-440] -/
noncomputable def effPlotEigenvalue (clock : ℕ → ℝ) (S : EigSolver) (D : Except PyErr M3) (c : Constraints) (p : PlateNum)
    (nth : ℤ) (ngridx ngridy : ℕ) (st : PlateState (p.m * p.n)) (w : Outside) :
    (Except PyErr Surface × PlateState (p.m * p.n)) × Outside :=
  match st.eig with
  | some (_, vecs) => ((surfaceOf p.a p.b st.idx vecs nth ngridx ngridy, st), w)
  | none =>
    match effBuckling clock S D c p st w with
    | ((.error e, st), w) => ((.error e, st), w)
    | ((.ok (_, vecs), st), w) => ((surfaceOf p.a p.b st.idx vecs nth ngridx ngridy, st), w)

/-- `Ncr_from_lp`  [utils.py:11-24] -/
noncomputable def effNcr (clock : ℕ → ℝ) (S : EigSolver) (g : Panel) (T xi1 xi3 Nxx Nyy Nxy : ℝ) : Eff PyFloat :=
  (Eff.lift (OrthoMat.args (.num (.fin g.E1)) (.num (.fin g.E2)) (.num (.fin g.v12)) (.num (.fin g.G12)) (.num (.fin 0.1))).init).bind
    fun mat1 => (Eff.lift (realMat mat1)).bind fun mat1 =>
  (Eff.lift (Lam.init (.dict ⟨none, none, some (.vec [xi1, 0, xi3, 0]), some (.num T)⟩) (.single (.ortho mat1)))).bind fun laminate1 =>
  (Eff.lift (PlateArgs.args true (.num (.fin g.a)) (.num (.fin g.b)) (.num (.fin Nxx)) (.num (.fin Nyy))
    (.num (.fin Nxy)) (.num (.fin g.m)) (.num (.fin g.n))).init).bind fun plate1 => (Eff.lift (realPlate plate1)).bind fun plate1 =>
  Eff.bind (fun w => let r := effBuckling clock S laminate1.D g.c plate1 (.fresh _) w; (r.1.1, r.2)) fun r =>
  Eff.lift (pyIdx r.1 0)

open Classical in
/-- `_constraint(xi1, xi3, silent=True, penalty=True)`  [utils.py:87-104] -/
noncomputable def effConstraint (xi1 xi3 : ℝ) (silent : Bool := true) (penalty : Bool := true) : Eff Bool :=
  let gNatural := xi3 - 2 * xi1 ^ 2 + 1
  let g1 := xi3 + 2 * xi1 + 1
  let g2 := xi3 - 2 * xi1 + 1
  let g := if !penalty then gNatural else if xi1 < 0 then g1 else g2
  if g < 0 then (Eff.say silent (.pair xi1 xi3)).bind fun _ => .lift (.ok false) else .lift (.ok true)

/-- A loop collecting values. -/
def Eff.collect {α β : Type} (f : α → Eff β) : List α → Eff (List β)
  | [] => .lift (.ok [])
  | a :: l => (f a).bind fun b => (Eff.collect f l).bind fun bs => .lift (.ok (b :: bs))

/-- `plot_optimization` up to the drawing  [utils.py:107-151] -/
noncomputable def effPlotOptimization (clock : ℕ → ℝ) (S : EigSolver) (g : Panel) (T Nxx Nyy Nxy : ℝ) (points : ℕ) (resX : List ℝ)
    (penalty : Bool) : Eff OptPlot :=
  (Eff.print (.text "generating plot...")).bind fun _ =>
  let x := linspace (-1) 1 points
  let pts := x.flatMap fun xi1 => x.map fun xi3 => (xi1, xi3)
  (Eff.collect (fun p : ℝ × ℝ => (effConstraint p.1 p.2 true penalty).bind fun ok =>
    if ok then effNcr clock S g T p.1 p.2 Nxx Nyy Nxy else .lift (.ok .nan)) pts).bind fun nxArr =>
  let g1 := linspace (-1) 0 points
  let g2 := linspace 0 1 points
  (if penalty then Eff.lift (.ok ()) else Eff.print (.text "penalty False")).bind fun _ =>
  let k := nxArr.length.sqrt
  (Eff.lift (reshape2 nxArr k k)).bind fun nx => (Eff.lift (reshape2 (pts.map Prod.fst) k k)).bind fun xi1 =>
  (Eff.lift (reshape2 (pts.map Prod.snd) k k)).bind fun xi3 =>
  Eff.lift (.ok { xi1 := xi1, xi3 := xi3, nx := nx
                  curve1 := g1.map fun t => (t, if penalty then -2 * t - 1 else 2 * t ^ 2 - 1)
                  curve2 := g2.map fun t => (t, if penalty then 2 * t - 1 else 2 * t ^ 2 - 1)
                  optimum := resX })

/-! ## The display precision of pandas -/

/-- `calculate_strain`  [strength.py:202-266] -/
noncomputable def effStrain (l : Lam) (N : V6) : Eff (List Row) :=
  (Eff.lift (calculateStrain l N)).bind fun rows => (Eff.setPrecision 2).bind fun _ => .lift (.ok rows)

/-- `calculate_stress`  [strength.py:269-334] -/
noncomputable def effStress (l : Lam) (N : V6) : Eff (List Row) :=
  (Eff.lift (calculateStress l N)).bind fun rows => (Eff.setPrecision 2).bind fun _ => .lift (.ok rows)

/-- `_calculate_maxstressallowable`  [strength.py:336-389] -/
noncomputable def effAllowable (l : Lam) : Eff (List AllowRow) :=
  (Eff.lift (calculateAllowable l)).bind fun rows => (Eff.setPrecision 2).bind fun _ => .lift (.ok rows)

/-- `calculate_maxstressmargin`  [strength.py:391-426] -/
noncomputable def effMargin (l : Lam) (N : V6) : Eff (List MarginRow) :=
  (effAllowable l).bind fun al => (effStress l N).bind fun st =>
  let rows := (al.zip st).map fun p =>
    let m := margins p.1.allow p.2.m12
    ({ ply := p.1.ply, position := p.1.position, angle := p.1.angle, margin := m, critical := idxmin m } : MarginRow)
  (Eff.setPrecision 2).bind fun _ => .lift (.ok rows)

/-- The calls of `LaminateStrength`. -/
inductive StrCall where
  | epsilon0 | strain | stress | margin

/-- The effect of a call outside; its result is dropped, an exception is caught by the caller. -/
noncomputable def StrCall.run : StrCall → Lam × V6 → Outside → Outside
  | .epsilon0, _, w => w
  | .strain, (l, N), w => (effStrain l N w).2
  | .stress, (l, N), w => (effStress l N w).2
  | .margin, (l, N), w => (effMargin l N w).2

end Composipy
