import Mathlib.Data.Nat.Digits.Defs
import Mathlib.Data.Rat.Defs
import Mathlib.Algebra.Order.Field.Rat

/-!
# Stacking expressions: syntax, text and meaning

Independent of the parser model: an abstract syntax of stacking expressions, how each is written, and the plies it stands for.
-/

namespace Composipy.Spec

/-- The character of a decimal digit. -/
def digitChar (d : Fin 10) : Char := Char.ofNat (48 + d)

/-- The number written by decimal digits, most significant first. -/
def number (ds : List (Fin 10)) : ℕ := Nat.ofDigits 10 (ds.map Fin.val).reverse

/-- A decimal angle: optional sign (`true` is minus), digits, optional fraction. -/
structure Angle where
  sign : Option Bool
  first : Fin 10
  digits : List (Fin 10)
  frac : Option (List (Fin 10))

def signText : Option Bool → List Char
  | none => []
  | some true => ['-']
  | some false => ['+']

def fracText : Option (List (Fin 10)) → List Char
  | none => []
  | some ds => '.' :: ds.map digitChar

def Angle.text (a : Angle) : List Char := signText a.sign ++ (a.first :: a.digits).map digitChar ++ fracText a.frac

def Angle.value (a : Angle) : ℚ :=
  (if a.sign = some true then -1 else 1) *
    (number (a.first :: a.digits) + number (a.frac.getD []) / 10 ^ (a.frac.getD []).length)

/-- A repeat count `n` or `{n}`, with optional sign (`true` is minus). -/
structure Count where
  braces : Bool
  sign : Option Bool
  first : Fin 10
  digits : List (Fin 10)

def Count.text (c : Count) : List Char :=
  let t := signText c.sign ++ (c.first :: c.digits).map digitChar
  if c.braces then '{' :: t ++ ['}'] else t

/-- The number of repetitions; a negative count repeats nothing. -/
def Count.value (c : Count) : ℕ := if c.sign = some true then 0 else number (c.first :: c.digits)

/-- Blanks. -/
def blanks (n : ℕ) : List Char := List.replicate n ' '

/-- A unit `a`, `a_n`, `\pm a`, `\pm a_n`, with blanks around it. -/
structure SUnit where
  before : ℕ
  pm : Bool
  angle : Angle
  count : Option Count
  after : ℕ

def countText : Option Count → List Char
  | none => []
  | some c => '_' :: c.text

def SUnit.text (u : SUnit) : List Char :=
  blanks u.before ++ (if u.pm then ['\\', 'p', 'm'] else []) ++ u.angle.text ++ countText u.count ++ blanks u.after

/-- `n` plies: all at the angle, or alternating between the angle and its opposite. -/
def SUnit.plies (u : SUnit) : List ℚ :=
  let n := (u.count.map Count.value).getD 1
  if u.pm then (List.range n).map fun i => if i % 2 = 0 then u.angle.value else -u.angle.value
  else List.replicate n u.angle.value

/-- A unit or a group `(u/.../u)_n` (the underscore may be left out). -/
inductive Item
  | unit (u : SUnit)
  | group (before : ℕ) (u : SUnit) (us : List SUnit) (underscore : Bool) (n : Count) (after : ℕ)

/-- Texts joined by `/`. -/
def slashed : List (List Char) → List Char
  | [] => []
  | [t] => t
  | t :: ts => t ++ ['/'] ++ slashed ts

def Item.text : Item → List Char
  | .unit u => u.text
  | .group i u us b n j =>
    blanks i ++ ['('] ++ slashed ((u :: us).map SUnit.text) ++ [')'] ++ (if b then ['_'] else []) ++ n.text ++ blanks j

def Item.plies : Item → List ℚ
  | .unit u => u.plies
  | .group _ u us _ n _ => (List.replicate n.value ((u :: us).flatMap SUnit.plies)).flatten

/-- A stacking expression: items joined by `/`, optionally in brackets, optionally followed by `s`, with blanks around. -/
structure Stacking where
  before : ℕ
  brackets : Bool
  item : Item
  items : List Item
  symm : Bool
  after : ℕ

def Stacking.text (e : Stacking) : List Char :=
  blanks e.before ++ (if e.brackets then ['['] else []) ++ slashed ((e.item :: e.items).map Item.text) ++
    (if e.brackets then [']'] else []) ++ (if e.symm then ['s'] else []) ++ blanks e.after

def Stacking.plies (e : Stacking) : List ℚ :=
  let half := (e.item :: e.items).flatMap Item.plies
  if e.symm then half ++ half.reverse else half

end Composipy.Spec
