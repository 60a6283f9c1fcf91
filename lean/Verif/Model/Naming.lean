import Verif.Model.Material

/-!
# Model of material numbering and naming  [material.py:57,84-85,121-127 and 220,240-241,269-275]

The class attribute `_ids = itertools.count(1)` is shared state; each object keeps `_id` and an
optional name.  A world holds both counters and all live objects (never removed).
-/

namespace Composipy

/-- Which class an object belongs to. -/
inductive MatClass | ortho | iso
  deriving DecidableEq, Repr

/-- Naming part of a material object. -/
structure NamedObj where
  cls : MatClass
  id : Nat
  /-- `self.__name` -/
  name : Option String

/-- Class-level counters and the objects constructed so far. -/
structure World where
  /-- value the next `next(OrthotropicMaterial._ids)` will return  [material.py:57] -/
  nextOrtho : Nat
  /-- value the next `next(IsotropicMaterial._ids)` will return  [material.py:220] -/
  nextIso : Nat
  objs : List NamedObj

/-- State after the module is imported: `itertools.count(1)` twice. -/
def World.init : World := { nextOrtho := 1, nextIso := 1, objs := [] }

/-- One user operation. -/
inductive NameOp where
  | newOrtho (args : OrthoMat PyVal) (name : Option String)
  | newIso (args : IsoMat PyVal) (name : Option String)
  | readName (i : Nat)

/-- What the operation returns. -/
inductive NameOut where
  /-- constructor succeeded; the handle of the new object -/
  | obj (i : Nat)
  | name (s : String)
  | err (e : PyErr)
  deriving DecidableEq

/-- `f'ply_{self._id}'`  [material.py:124, 272] -/
def autoName (id : Nat) : String := "ply_" ++ toString id

/-- `name` getter  [material.py:121-127, 269-275]: fills in the automatic name on first read. -/
def NamedObj.readName (o : NamedObj) : String × NamedObj :=
  match o.name with
  | none => (autoName o.id, { o with name := some (autoName o.id) })
  | some s => (s, o)

/-- One step of the world. -/
noncomputable def World.step (w : World) : NameOp → NameOut × World
  | .newOrtho args name =>
    match args.init with
    | .error e => (.err e, w)
    | .ok _ =>
      (.obj w.objs.length,
        { w with nextOrtho := w.nextOrtho + 1,
                 objs := w.objs ++ [{ cls := .ortho, id := w.nextOrtho, name := name }] })
  | .newIso args name =>
    match args.init with
    | .error e => (.err e, w)
    | .ok _ =>
      (.obj w.objs.length,
        { w with nextIso := w.nextIso + 1,
                 objs := w.objs ++ [{ cls := .iso, id := w.nextIso, name := name }] })
  | .readName i =>
    match w.objs[i]? with
    | none => (.err .indexError, w)
    | some o => (.name o.readName.1, { w with objs := w.objs.set i o.readName.2 })

/-- Run a history, collecting outputs. -/
noncomputable def World.run (w : World) : List NameOp → List NameOut × World
  | [] => ([], w)
  | op :: ops =>
    let (o, w') := w.step op
    let (os, w'') := w'.run ops
    (o :: os, w'')

end Composipy
