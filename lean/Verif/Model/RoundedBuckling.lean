import Verif.Model.RoundedPlate
import Verif.Model.Buckling

/-!
# Model of `buckling_analysis` in floating-point arithmetic  [core/structure.py:367-408]

The matrices are the computed ones of `Model/RoundedPlate.lean` and the last division rounds. The solver works on the computed matrices; its own roundings are not
modelled, it keeps the contract of `Model/Buckling.lean` for them.
-/

namespace Composipy
namespace FloatArith
variable (F : FloatArith)

/-- `-1./eigvals` for one value.  [core/structure.py:400] -/
noncomputable def recip (x : ℝ) : PyFloat :=
  match npDiv (-1) x with
  | .fin y => .fin (F.fl y)
  | y => y

/-- `buckling_analysis(num_eigvalues)` with the computed `D` and the computed matrices.  [core/structure.py:367-408] -/
noncomputable def bucklingAnalysis (S : EigSolver) (D : Except PyErr (Matrix (Fin 3) (Fin 3) ℝ)) (c : Constraints) (p : PlateNum) (numEig : ℤ)
    (st : PlateState (p.m * p.n)) :
    Except PyErr (List PyFloat × List (Fin (p.m * p.n) → ℝ)) × PlateState (p.m * p.n) :=
  match D with
  | .error e => (.error e, st)
  | .ok _ =>
  match computeIdx c p.m p.n with
  | .error e => (.error e, st)
  | .ok s =>
  let st := { st with idx := some s }
  match F.calcKKGD shipped D c p with
  | .error e => (.error e, st)
  | .ok (K, KG) =>
  match eigshCall S KG K (min numEig ((p.m * p.n : ℕ) - 2 : ℤ)) with
  | .error e => (.error e, st)
  | .ok out =>
  let eigvals := out.map fun q => F.recip q.1
  let eigvecs := out.map Prod.snd
  (.ok (eigvals, eigvecs), { st with eig := some (eigvals, eigvecs) })

end FloatArith
end Composipy
