import Mathlib.Data.List.Basic

/-!
# PCOMP cards: what a card has to contain

Independent of the model of `build_pcomp`: the fields of a ply, the lines of a card, and how a reader takes a card apart
(`List.splitOn` of the library).
-/

namespace Composipy.Spec

/-- The four data of one ply, as text. -/
structure PlyRec where
  mid : List Char
  thick : List Char
  angle : List Char
  out : List Char
  deriving DecidableEq

def PlyRec.fields (p : PlyRec) : List (List Char) := [p.mid, p.thick, p.angle, p.out]

/-- The same fields with a `+` glued to the last one. -/
def PlyRec.fieldsPlus (p : PlyRec) : List (List Char) := [p.mid, p.thick, p.angle, p.out ++ ['+']]

/-- No text of the ply contains a comma or a line break. -/
def PlyRec.clean (p : PlyRec) : Prop := ∀ t ∈ p.fields, ',' ∉ t ∧ '\n' ∉ t

/-- The continuation lines the code writes: two plies per line, a lone last ply on a line of its own. -/
def cardLines : List PlyRec → List (List (List Char))
  | [] => []
  | [p] => [['+'] :: p.fields]
  | p :: q :: ps => (['+'] :: (p.fields ++ q.fieldsPlus)) :: cardLines ps

/-- The lines the format asks for: the continuation mark `+` is a field of its own. -/
def properLines : List PlyRec → List (List (List Char))
  | [] => []
  | [p] => [['+'] :: p.fields]
  | p :: q :: ps => (['+'] :: (p.fields ++ q.fields ++ [['+']])) :: properLines ps

/-- The lines of a text, each taken apart at the commas. -/
noncomputable def readCard (t : List Char) : List (List (List Char)) := (t.splitOn '\n').map fun l => l.splitOn ','

/-- Remove a glued `+` from the last field of a line. -/
def unglue : List (List Char) → List (List Char)
  | [] => []
  | [t] => [if t.getLast? = some '+' then t.dropLast else t]
  | t :: ts => t :: unglue ts

/-- The ply data on a continuation line. -/
def dataFields (line : List (List Char)) : List (List Char) := unglue line.tail

end Composipy.Spec
