import Verif.Model.PcompAny

/-!
# `build_pcomp` with arrays among its arguments  [pcomp_generator.py:127-203]

Arrays of one dimension given as `sequence`, `midi` or `ti` are only asked for `len` and entries and behave as lists; an array without
dimension has no `len` and behaves as a single value; so both are covered by `PyCont.list` and `ContArg.scalar`.  Only `sout` is compared
with texts, `sout == 'FIBER'`, which numpy does entry by entry.
-/

namespace Composipy

/-- What differs between versions of numpy: whether an array without entries counts as false (before 2.2) or raises `ValueError`, and whether an
array of numbers is compared with a text entry by entry (from 1.25) or is just unequal to it. -/
structure NumpyVer where
  emptyFalse : Bool
  entrywise : Bool

/-- An array given as `sout`: its entries (`none` for what is not a text), whether its type is a type of numbers, and the `str(...)` texts of
`sout[0]`, `sout[1]`, ... (`none` for an array without dimension, which has no `len`). -/
structure SoutArray where
  entries : List (Option Text)
  numeric : Bool
  rows : Option (List Text)

/-- `bool(x)` of an array of booleans, as `if` does  [pcomp_generator.py:139, 144, 147] -/
def arrayTruth (np : NumpyVer) : List Bool → Except PyErr Bool
  | [] => if np.emptyFalse then .ok false else .error .valueError
  | [x] => .ok x
  | _ => .error .valueError

/-- The condition `sout == w`  [pcomp_generator.py:139, 144, 147] -/
def SoutArray.eqText (np : NumpyVer) (a : SoutArray) (w : Text) : Except PyErr Bool :=
  if a.numeric ∧ ¬ np.entrywise then .ok false
  else arrayTruth np (a.entries.map fun x => x == some w)

/-- `_convert_sout(sout, size)` of an array [pcomp_generator.py:138-158]: the comparisons are outside the `try`. -/
def convertArraySout (np : NumpyVer) (a : SoutArray) (size : ℕ) : Except PyErr PyCont := do
  if ← a.eqText np tFIBER then return .list (← convertSout (.text tFIBER) size)
  if ← a.eqText np tNO then return .list ((List.range size).map fun _ => tNO)
  if ← a.eqText np tYES then return .list ((List.range size).map fun _ => tYES)
  match a.rows with
  | some rows => if rows.length = size then return .list rows else .error .valueError
  | none => .error .valueError

/-- `build_pcomp(sequence, midi, ti, pid, z0, sout)` with an array as `sout` [pcomp_generator.py:161-203]. -/
def buildPcompArray (np : NumpyVer) (sequence : PyCont) (midi ti : ContArg) (pid : PidArg) (z0 : Text) (sout : SoutArray) : Except PyErr Text := do
  let size := sequence.len
  let pid ← pid.toInt
  let ti ← convertCont ti size
  let midi ← convertCont midi size
  let sout ← convertArraySout np sout size
  let header := ['P', 'C', 'O', 'M', 'P', ','] ++ intText pid ++ [','] ++ z0 ++ [',', ',', ',', ',', ',', '+', '\n']
  let body ← contLoop (contPly midi ti sequence sout) ((List.range ((size + 1) / 2)).map (2 * ·)) []
  .ok (header ++ body)

end Composipy
