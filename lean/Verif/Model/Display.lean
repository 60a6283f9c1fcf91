import Verif.Model.Naming
import Verif.Model.Laminate

/-!
# Model of `__repr__` and of the operators `==`, `!=`, `hash`

[material.py:175-195, 298-315; property.py:307-318]

The text of a number, `format(x, '')`, is a parameter `fmt` (Python's shortest text that reads back as the same float); the texts are
otherwise built as in the code.  `==` and `!=` follow the Python data model: the method of the left operand, then that of the right one, then identity.
-/

namespace Composipy

/-- A material object: its numbers and its naming part. -/
structure PlyObj (M : Type) where
  mat : M
  named : NamedObj

/-- The fixed pieces of the texts (irreducible, so that proofs do not unfold them). -/
@[irreducible] def commaText : String := ", "
@[irreducible, inherit_doc commaText] def equalsText : String := " = "
@[irreducible, inherit_doc commaText] def closeText : String := ")"
@[irreducible, inherit_doc commaText] def plyHead : String := "Ply("
@[irreducible, inherit_doc commaText] def isoHead : String := "IsotropicMaterial("
@[irreducible, inherit_doc commaText] def lamHead : String := "composipy.LaminateProperty\n"
@[irreducible, inherit_doc commaText] def stackingText : String := "stacking = "
@[irreducible, inherit_doc commaText] def openBracket : String := "["
@[irreducible, inherit_doc commaText] def closeBracket : String := "]"

/-- The fields of the text, `, label = value` each, and the closing parenthesis.  A line break of the text counts as part of the label. -/
def fieldsText : List (String × String) → String
  | [] => closeText
  | (label, v) :: r => commaText ++ (label ++ (equalsText ++ (v ++ fieldsText r)))

/-- The part of the text after the name  [material.py:177-179] -/
def OrthoMat.reprTail (fmt : PyFloat → String) (m : OrthoMat PyFloat) : String :=
  fieldsText [("E1", fmt m.e1), ("E2", fmt m.e2), ("\n            v12", fmt m.v12), ("G12", fmt m.g12), ("thickness", fmt m.thickness),
    ("\n            T1", fmt m.t1), ("C1", fmt m.c1), ("T2", fmt m.t2), ("C2", fmt m.c2), ("S", fmt m.s)]

/-- The part of the text after the name  [material.py:300-302] -/
def IsoMat.reprTail (fmt : PyFloat → String) (m : IsoMat PyFloat) : String :=
  fieldsText [("E", fmt m.e), ("\n            v", fmt m.v), ("G", fmt m.g), ("thickness", fmt m.thickness), ("\n            T", fmt m.t),
    ("C", fmt m.c), ("S", fmt m.s)]

/-- `OrthotropicMaterial.__repr__`  [material.py:175-179]: reading `self.name` fills in the automatic name. -/
def PlyObj.reprOrtho (fmt : PyFloat → String) (o : PlyObj (OrthoMat PyFloat)) : String × PlyObj (OrthoMat PyFloat) :=
  (plyHead ++ o.named.readName.1 ++ o.mat.reprTail fmt, { o with named := o.named.readName.2 })

/-- `IsotropicMaterial.__repr__`  [material.py:298-302] -/
def PlyObj.reprIso (fmt : PyFloat → String) (o : PlyObj (IsoMat PyFloat)) : String × PlyObj (IsoMat PyFloat) :=
  (isoHead ++ o.named.readName.1 ++ o.mat.reprTail fmt, { o with named := o.named.readName.2 })

/-- `', '.join(map(repr, l))` -/
def joinComma (fmt : ℝ → String) : List ℝ → String
  | [] => ""
  | [x] => fmt x
  | x :: xs => fmt x ++ commaText ++ joinComma fmt xs

/-- `str` of a list of numbers -/
def listStr (fmt : ℝ → String) (l : List ℝ) : String := openBracket ++ joinComma fmt l ++ closeBracket

/-- `LaminateProperty.__repr__`  [property.py:307-311].  Simplification: the text of a dictionary is a parameter (it depends on the order
of the keys and on keys the model does not represent). -/
def Lam.repr (fmt : ℝ → String) (dict : LPDict → String) (l : Lam) : String :=
  lamHead ++ (stackingText ++
    match l.stacking with
    | .angles s => listStr fmt s
    | .dict d => dict d)

/-! ## Operators -/

/-- Objects as seen by the operators; `id` is the identity.  `other` stands for objects whose own comparison knows nothing about the classes
of this library: numbers, texts, `None`, plates, strength objects (arrays, which compare entry by entry, are left out). -/
inductive Obj where
  | ortho (id : ℕ) (m : OrthoMat PyFloat)
  | iso (id : ℕ) (m : IsoMat PyFloat)
  | lam (id : ℕ) (l : Lam)
  | other (id : ℕ)

/-- `id(x)` -/
def Obj.id : Obj → ℕ
  | .ortho i _ | .iso i _ | .lam i _ | .other i => i

/-- The object as the `isinstance` tests of the materials see it. -/
def Obj.asPyObj : Obj → PyObj
  | .ortho _ m => .ortho m
  | .iso _ m => .iso m
  | _ => .other

/-- `x.__eq__(y)`; `none` is `NotImplemented`  [material.py:182-195, 305-315; property.py:314-318] -/
noncomputable def Obj.eqMethod : Obj → Obj → Option (Except PyErr Bool)
  | .ortho _ m, y => some (m.pyEq y.asPyObj)
  | .iso _ m, y => some (m.pyEq y.asPyObj)
  | .lam _ l, .lam _ l' => some (l.pyEq l')
  | .lam _ _, _ => none
  | .other _, _ => none

/-- `x == y` -/
noncomputable def Obj.opEq (x y : Obj) : Except PyErr Bool :=
  match x.eqMethod y with
  | some r => r
  | none =>
    match y.eqMethod x with
    | some r => r
    | none => .ok (x.id == y.id)

/-- `x.__ne__(y)`, inherited from `object`: the negation of `__eq__` -/
noncomputable def Obj.neMethod (x y : Obj) : Option (Except PyErr Bool) := (x.eqMethod y).map fun r => r.map not

/-- `x != y` -/
noncomputable def Obj.opNe (x y : Obj) : Except PyErr Bool :=
  match x.neMethod y with
  | some r => r
  | none =>
    match y.neMethod x with
    | some r => r
    | none => .ok (x.id != y.id)

/-- `hash(x)`: a class that defines `__eq__` but not `__hash__` is unhashable; other objects hash here by identity. -/
def Obj.hash : Obj → Except PyErr ℕ
  | .other i => .ok i
  | _ => .error .typeError

end Composipy
