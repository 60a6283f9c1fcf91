import Verif.Py.Basic
import Mathlib.Data.Rat.Defs
import Mathlib.Algebra.Order.Field.Rat

/-!
# Python `float(str)`, `int(str)` and `str.strip`

Models the CPython built-ins used on text: `float(...)` and `int(...)` on ASCII text.
Simplifications: only ASCII digits and white space; results are exact rationals (no rounding, no overflow to `inf`, a single
zero); the limit of 4300 digits in `int(...)` is not modelled.
-/

namespace Composipy

/-- White space removed by `str.strip()` (ASCII range of `str.isspace`). -/
def isPySpace (c : Char) : Bool :=
  c == ' ' || c == '\t' || c == '\n' || c == '\r' ||
  c.toNat == 0x0b || c.toNat == 0x0c ||
  c.toNat == 0x1c || c.toNat == 0x1d || c.toNat == 0x1e || c.toNat == 0x1f

/-- Characters of a class removed from both ends. -/
def stripBy (p : Char → Bool) (s : List Char) : List Char := ((s.dropWhile p).reverse.dropWhile p).reverse

/-- `str.strip()`. -/
def pyStrip (s : List Char) : List Char := stripBy isPySpace s

/-- White space skipped by `int(...)` and `float(...)` (C `isspace`): unlike `str.strip` it excludes 0x1c-0x1f. -/
def isNumSpace (c : Char) : Bool :=
  c == ' ' || c == '\t' || c == '\n' || c == '\r' || c.toNat == 0x0b || c.toNat == 0x0c

def isDig (c : Char) : Bool := '0' ≤ c && c ≤ '9'

def digVal (c : Char) : Nat := c.toNat - '0'.toNat

/-- Value of a run of decimal digits. -/
def digitsVal (ds : List Char) : Nat := ds.foldl (fun a c => 10 * a + digVal c) 0

/-- CPython `_Py_string_to_number_with_underscores`: underscores are legal only between digits. -/
def deUnderscoreAux (prev : Char) : List Char → Option (List Char)
  | [] => if prev == '_' then none else some []
  | c :: cs =>
    if c == '_' then
      if isDig prev then deUnderscoreAux c cs else none
    else if prev == '_' && !isDig c then none
    else (deUnderscoreAux c cs).map (c :: ·)

def deUnderscore (s : List Char) : Option (List Char) := deUnderscoreAux (Char.ofNat 0) s

/-- Split off an optional sign: `(isNegative, rest)`. -/
def takeSign : List Char → Bool × List Char
  | '-' :: cs => (true, cs)
  | '+' :: cs => (false, cs)
  | cs => (false, cs)

/-- Python `int(text)`; `none` stands for `ValueError`. -/
def parseInt (s : List Char) : Option Int :=
  match deUnderscore (stripBy isNumSpace s) with
  | none => none
  | some t =>
    let (neg, ds) := takeSign t
    if ds.isEmpty || !ds.all isDig then none
    else if neg then some (-(digitsVal ds : Int)) else some (digitsVal ds : Int)

/-- Exponent part of a float literal: `[]` or `e[sign]digits`. -/
def parseExp : List Char → Option Int
  | [] => some 0
  | c :: cs =>
    if c == 'e' || c == 'E' then
      let (neg, ds) := takeSign cs
      if ds.isEmpty || !ds.all isDig then none
      else if neg then some (-(digitsVal ds : Int)) else some (digitsVal ds : Int)
    else none

/-- Fraction digits after a point, and what follows them. -/
def fracSplit : List Char → List Char × List Char
  | [] => ([], [])
  | c :: r => if c == '.' then (r.takeWhile isDig, r.dropWhile isDig) else ([], c :: r)

/-- Unsigned float literal. -/
def parseUFloat (s : List Char) : Option ℚ :=
  let ip := s.takeWhile isDig
  let f := fracSplit (s.dropWhile isDig)
  if ip.isEmpty && f.1.isEmpty then none
  else match parseExp f.2 with
    | none => none
    | some e => some ((digitsVal (ip ++ f.1) : ℚ) / 10 ^ f.1.length * (10 : ℚ) ^ e)

def lowerStr (s : List Char) : List Char := s.map Char.toLower

/-- Python `float(text)`; `none` stands for `ValueError`. -/
def parseFloat (s : List Char) : Option (XF ℚ) :=
  match deUnderscore (stripBy isNumSpace s) with
  | none => none
  | some t =>
    let (neg, u) := takeSign t
    if lowerStr u == "nan".toList then some .nan
    else if lowerStr u == "inf".toList || lowerStr u == "infinity".toList then
      some (if neg then .ninf else .pinf)
    else (parseUFloat u).map (fun q => .fin (if neg then -q else q))

end Composipy
