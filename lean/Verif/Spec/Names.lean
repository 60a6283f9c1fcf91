import Verif.Model.Naming

/-!
# Specification: material names as a function of the history
-/

namespace Composipy.Spec

/-- The class and user-supplied name of a construction that succeeds. -/
noncomputable def madeBy : NameOp → Option (MatClass × Option String)
  | .newOrtho a nm => match a.init with
    | .ok _ => some (.ortho, nm)
    | .error _ => none
  | .newIso a nm => match a.init with
    | .ok _ => some (.iso, nm)
    | .error _ => none
  | .readName _ => none

/-- The successful constructions of a history, in order. -/
noncomputable def created (ops : List NameOp) : List (MatClass × Option String) :=
  ops.filterMap madeBy

/-- Number (from 1) of the `i`-th created material within its class. -/
def serial (cr : List (MatClass × Option String)) (i : Nat) (c : MatClass) : Nat :=
  ((cr.take i).filter fun x => x.1 = c).length + 1

/-- The name the `i`-th created material must report. -/
def expectedName (cr : List (MatClass × Option String)) (i : Nat) : Option String :=
  cr[i]?.map fun x => match x.2 with
    | some s => s
    | none => "ply_" ++ toString (serial cr i x.1)

end Composipy.Spec
