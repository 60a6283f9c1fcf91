import Verif.Model.Stiffness
import Verif.Model.Laminate
import Verif.Model.Plate

/-!
# Model of `PlateStructure.buckling_analysis`  [core/structure.py:367-408]

`scipy.sparse.linalg.eigsh` is external: it is a parameter `S : EigSolver`, constrained in the theorems by
the contract `Spec.EigshOut`.  Simplifications: `csr_matrix` is the identity on the represented matrix;
timing and printing (`silent=False`) are left out.  `plot_eigenvalue` is in `Verif.Model.Plot`.
-/

namespace Composipy

/-- `eigsh(A=A, k=k, which='SM', M=M, tol=0, sigma=1., mode='cayley')` for `k > 0`: a list of pairs
(eigenvalue, column of `eigvecs`), or an exception (for instance `ArpackError`). -/
abbrev EigSolver := (N : ℕ) → (A M : SqMat N) → (k : ℕ) → Except PyErr (List (ℝ × (Fin N → ℝ)))

/-- The call of `eigsh`: `k <= 0` raises `ValueError` before anything else. [structure.py:396-400] -/
noncomputable def eigshCall (S : EigSolver) {N : ℕ} (A M : SqMat N) (k : ℤ) : Except PyErr (List (ℝ × (Fin N → ℝ))) :=
  if k ≤ 0 then .error .valueError else S N A M k.toNat

/-- The mutable attributes `sw_idx`, `eigenvalue`, `eigenvector` of a plate with `N = m*n` shapes.
`su_idx`, `sv_idx` are set together with `sw_idx`. [structure.py:106-110] -/
structure PlateState (N : ℕ) where
  idx : Option ShapeIdx
  eig : Option (List PyFloat × List (Fin N → ℝ))

/-- The attributes after `__init__`. [structure.py:106-110] -/
def PlateState.fresh (N : ℕ) : PlateState N := ⟨none, none⟩

/-- `buckling_analysis(num_eigvalues)` [structure.py:367-408].  `D` is the outcome of reading `dproperty.D`.
The index sets are stored as soon as `_compute_constraints` returns; the eigenpairs only at the end. -/
noncomputable def bucklingAnalysis (S : EigSolver) (D : Except PyErr M3) (c : Constraints) (p : PlateNum) (numEig : ℤ)
    (st : PlateState (p.m * p.n)) :
    Except PyErr (List PyFloat × List (Fin (p.m * p.n) → ℝ)) × PlateState (p.m * p.n) :=
  match D with
  | .error e => (.error e, st)
  | .ok _ =>
  match computeIdx c p.m p.n with
  | .error e => (.error e, st)
  | .ok s =>
  let st := { st with idx := some s }
  match calcKKGD shipped D c p with
  | .error e => (.error e, st)
  | .ok (K, KG) =>
  match eigshCall S KG K (min numEig ((p.m * p.n : ℕ) - 2 : ℤ)) with
  | .error e => (.error e, st)
  | .ok out =>
  let eigvals := out.map fun q => npDiv (-1) q.1
  let eigvecs := out.map Prod.snd
  (.ok (eigvals, eigvecs), { st with eig := some (eigvals, eigvecs) })

end Composipy
