import Verif.Model.Pcomp

/-!
# `build_pcomp` with dictionaries and sets among its arguments  [pcomp_generator.py:127-203]

`_convert_to_list` and `_convert_sout` look only at `len`, so they let dictionaries and sets through.  The same functions as in
`Verif.Model.Pcomp`, for lists, dictionaries and sets.  Arrays are in `Verif.Model.PcompArray` (`sout == 'FIBER'` compares them entry by entry).
-/

namespace Composipy

/-- An object with a length, its entries represented by their `str(...)` text.  A dictionary: the keys that are equal to a natural number, without
repetition, what they map to, and the number of other keys. -/
inductive PyCont
  | list (ts : List Text)
  | dict (keys : List ℕ) (val : ℕ → Text) (others : ℕ)
  | set (size : ℕ)

/-- `len(c)`  [pcomp_generator.py:130, 152, 185] -/
def PyCont.len : PyCont → ℕ
  | .list ts => ts.length
  | .dict keys _ others => keys.length + others
  | .set size => size

/-- `c[i]` for a natural number `i`  [pcomp_generator.py:197, 199] -/
def PyCont.get : PyCont → ℕ → Except PyErr Text
  | .list ts, i => pyIdx ts i
  | .dict keys val _, i => if i ∈ keys then .ok (val i) else .error .keyError
  | .set _, _ => .error .typeError

/-- The arguments `midi` and `ti`: a value without length, or an object with a length. -/
inductive ContArg
  | scalar (t : Text)
  | cont (c : PyCont)

/-- The argument `sout`: a text, another object with a length, or a value without length. -/
inductive ContSout
  | text (t : Text)
  | cont (c : PyCont)
  | noLen

/-- `_convert_to_list(value, size)` [pcomp_generator.py:127-136] -/
def convertCont (value : ContArg) (size : ℕ) : Except PyErr PyCont :=
  match value with
  | .cont c => if c.len = size then .ok c else .error .valueError
  | .scalar t => .ok (.list ((List.range size).map fun _ => t))

/-- `_convert_sout(sout, size)` [pcomp_generator.py:138-158]: a list, a dictionary or a set is never equal to a text. -/
def convertContSout (sout : ContSout) (size : ℕ) : Except PyErr PyCont :=
  match sout with
  | .text t => do return .list (← convertSout (.text t) size)
  | .cont c => if c.len = size then .ok c else .error .valueError
  | .noLen => .error .valueError

/-- `{midi[i]},{ti[i]},{sequence[i]},{sout[i]}` [pcomp_generator.py:197, 199], evaluated from left to right. -/
def contPly (midi ti sequence sout : PyCont) (i : ℕ) : Except PyErr Text := do
  let m ← midi.get i
  let t ← ti.get i
  let q ← sequence.get i
  let s ← sout.get i
  .ok (m ++ [','] ++ t ++ [','] ++ q ++ [','] ++ s)

/-- Loop body [pcomp_generator.py:194-201], `ply` is `contPly`; only `IndexError` is caught. -/
def contStep (ply : ℕ → Except PyErr Text) (body : Text) (i : ℕ) : Except PyErr Text := do
  let f0 ← ply i
  let body := body ++ ['+', ','] ++ f0 ++ [',']
  match ply (i + 1) with
  | .ok f1 => .ok (body ++ f1 ++ ['+', '\n'])
  | .error .indexError => .ok body.dropLast
  | .error e => .error e

/-- `for i in range(0, size, 2)` [pcomp_generator.py:194]. -/
def contLoop (ply : ℕ → Except PyErr Text) : List ℕ → Text → Except PyErr Text
  | [], body => .ok body
  | i :: is, body => do contLoop ply is (← contStep ply body i)

/-- `build_pcomp(sequence, midi, ti, pid, z0, sout)` [pcomp_generator.py:161-203]. -/
def buildPcompAny (sequence : PyCont) (midi ti : ContArg) (pid : PidArg) (z0 : Text) (sout : ContSout) : Except PyErr Text := do
  let size := sequence.len
  let pid ← pid.toInt
  let ti ← convertCont ti size
  let midi ← convertCont midi size
  let sout ← convertContSout sout size
  let header := ['P', 'C', 'O', 'M', 'P', ','] ++ intText pid ++ [','] ++ z0 ++ [',', ',', ',', ',', ',', '+', '\n']
  let body ← contLoop (contPly midi ti sequence sout) ((List.range ((size + 1) / 2)).map (2 * ·)) []
  .ok (header ++ body)

end Composipy
