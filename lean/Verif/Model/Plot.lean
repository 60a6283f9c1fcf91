import Verif.Model.Buckling

/-!
# Model of `PlateStructure.plot_eigenvalue`  [core/structure.py:410-440]

Up to the three arrays handed to `ax.plot_surface`.  Not modelled: the drawing calls (lines 434-439).
Simplifications: `ngridx`, `ngridy` are natural numbers (`np.linspace` refuses a negative number of points); arrays
of two dimensions are lists of rows; the zero-filled `z` is filled entry by entry in the code and built row by row here.
-/

namespace Composipy

/-- `np.linspace(lo, hi, n)` -/
noncomputable def linspace (lo hi : ℝ) (n : ℕ) : List ℝ :=
  (List.range n).map fun i : ℕ => if n = 1 then lo else lo + (i : ℝ) * ((hi - lo) / ((n : ℝ) - 1))

/-- Python index, negative numbers counting from the end; `IndexError` outside. -/
def pyIdxI {α : Type} (l : List α) (i : ℤ) : Except PyErr α :=
  if 0 ≤ i then pyIdx l i.toNat
  else if 0 ≤ i + l.length then pyIdx l (i + l.length).toNat
  else .error .indexError

/-- `l[lo:len(l)]` -/
def pySliceFrom {α : Type} (l : List α) (lo : ℤ) : List α :=
  l.drop (if 0 ≤ lo then lo.toNat else (lo + l.length).toNat)

/-- `np.meshgrid(xs, ys)`: two arrays with `len(ys)` rows and `len(xs)` columns. -/
def meshgrid (xs ys : List ℝ) : List (List ℝ) × List (List ℝ) :=
  (ys.map fun _ => xs, ys.map fun y => xs.map fun _ => y)

/-- `arr[i, j]` -/
def idx2 (l : List (List ℝ)) (i j : ℕ) : Except PyErr ℝ := do
  let row ← pyIdx l i
  pyIdx row j

/-- `sw @ cw` on vectors: `ValueError` for different lengths. [structure.py:428] -/
noncomputable def dotList (u v : List ℝ) : Except PyErr ℝ :=
  if u.length = v.length then .ok (List.zipWith (· * ·) u v).sum else .error .valueError

/-- The arrays given to `plot_surface`. [structure.py:434-438] -/
structure Surface where
  x : List (List ℝ)
  y : List (List ℝ)
  z : List (List ℝ)

/-- Lines 415-436: from the stored eigenvector columns and `sw_idx` to the arrays. `len(None)` is a `TypeError`. -/
noncomputable def surfaceOf {N : ℕ} (a b : ℝ) (idx : Option ShapeIdx) (vecs : List (Fin N → ℝ)) (nth : ℤ)
    (ngridx ngridy : ℕ) : Except PyErr Surface := do
  let col ← pyIdxI vecs nth
  let c := List.ofFn col
  match idx with
  | none => .error .typeError
  | some s =>
    let cw := pySliceFrom c ((c.length : ℤ) - s.w.length)
    let xiArr := linspace (-1) 1 ngridx
    let etaArr := linspace (-1) 1 ngridy
    let mesh := meshgrid xiArr etaArr
    let z ← (List.range ngridx).mapM fun i => (List.range ngridy).mapM fun j => do
      let xi ← idx2 mesh.1 i j
      let eta ← idx2 mesh.2 i j
      let sw ← sxieta s.w xi eta
      dotList sw cw
    return { x := mesh.1.map fun row => row.map fun xi => a / 2 * (xi + 1)
             y := mesh.2.map fun row => row.map fun eta => b / 2 * (eta + 1)
             z := z }

/-- `plot_eigenvalue(nth, ngridx, ngridy)` [structure.py:410-440].  The two attributes are set together, so the test
of line 411 is "no analysis has been stored"; then `buckling_analysis()` runs with 5 eigenvalues. -/
noncomputable def plotEigenvalue (S : EigSolver) (D : Except PyErr M3) (c : Constraints) (p : PlateNum)
    (nth : ℤ) (ngridx ngridy : ℕ) (st : PlateState (p.m * p.n)) : Except PyErr Surface × PlateState (p.m * p.n) :=
  match st.eig with
  | some (_, vecs) => (surfaceOf p.a p.b st.idx vecs nth ngridx ngridy, st)
  | none =>
    match bucklingAnalysis S D c p 5 st with
    | (.error e, st) => (.error e, st)
    | (.ok (_, vecs), st) => (surfaceOf p.a p.b st.idx vecs nth ngridx ngridy, st)

end Composipy
