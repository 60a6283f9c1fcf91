import Verif.Py.Basic
import Mathlib.Algebra.Field.Basic

/-!
# `eval` of arithmetic source text

The shipped tables are dictionaries of *strings* which `functions.py` hands to Python's `eval`.
This file models `eval` on the fragment those strings use: decimal literals (with fraction and
exponent), the names `xi` and `eta`, parentheses, unary and binary `-`, `+`, `*`, `/`, and `**` with
a literal exponent.  Text is a list of ASCII codes.

Simplifications: numbers are exact (an element of a field `K`), so `1/8` and `0.125` agree; text
outside the fragment is reported as `SyntaxError`.
-/

namespace Composipy

/-- Source text as ASCII codes. -/
abbrev Bytes := List ℕ

/-- Bytes of a packed text: base 256, first character most significant. -/
def unpackAux : ℕ → ℕ → Bytes → Bytes
  | 0, _, acc => acc
  | f + 1, n, acc => if n = 0 then acc else unpackAux f (n / 256) (n % 256 :: acc)

/-- Text packed in a numeral (`"0.74"` is `0x302e3734`); at most 4096 characters. -/
def unpack (n : ℕ) : Bytes := unpackAux 4096 n []

/-- Tokens.  `num m d u` is the literal `m * 10^u / 10^d`. -/
inductive Tok
  | num (m d u : ℕ) | xi | eta | plus | minus | star | slash | pow | lp | rp
  deriving DecidableEq, Repr

/-- What the tokeniser is in the middle of. -/
inductive Cur
  | idle
  | int (m : ℕ)
  | frac (m d : ℕ)
  | exp0 (m d : ℕ)
  | expNeg (m d e : ℕ)
  | expPos (m d e : ℕ)
  | name (n : ℕ)
  | star
  deriving DecidableEq, Repr

/-- The token completed by the end of the current lexeme. -/
def Cur.flush : Cur → List Tok → Option (List Tok)
  | .idle, acc => some acc
  | .int m, acc => some (.num m 0 0 :: acc)
  | .frac m d, acc => some (.num m d 0 :: acc)
  | .exp0 _ _, _ => none
  | .expNeg m d e, acc => some (.num m (d + e) 0 :: acc)
  | .expPos m d e, acc => some (.num m d e :: acc)
  | .name n, acc => if n = 0x7869 then some (.xi :: acc) else if n = 0x657461 then some (.eta :: acc) else none
  | .star, acc => some (.star :: acc)

/-- A digit or letter continues the current lexeme or starts one. -/
def Cur.alnum (c : ℕ) (acc : List Tok) : Cur → Option (Cur × List Tok)
  | .idle => if Nat.blt c 58 then some (.int (c - 48), acc) else some (.name c, acc)
  | .star => if Nat.blt c 58 then some (.int (c - 48), .star :: acc) else some (.name c, .star :: acc)
  | .int m => if Nat.blt c 58 then some (.int (m * 10 + (c - 48)), acc)
      else if c = 101 then some (.exp0 m 0, acc) else none
  | .frac m d => if Nat.blt c 58 then some (.frac (m * 10 + (c - 48)) (d + 1), acc)
      else if c = 101 then some (.exp0 m d, acc) else none
  | .exp0 m d => if Nat.blt c 58 then some (.expPos m d (c - 48), acc) else none
  | .expNeg m d e => if Nat.blt c 58 then some (.expNeg m d (e * 10 + (c - 48)), acc) else none
  | .expPos m d e => if Nat.blt c 58 then some (.expPos m d (e * 10 + (c - 48)), acc) else none
  | .name n => if Nat.blt c 58 then none else some (.name (n * 256 + c), acc)

/-- One character. -/
def lexStep (st : Cur × List Tok) (c : ℕ) : Option (Cur × List Tok) :=
  if Nat.ble 48 c then st.1.alnum c st.2
  else if c = 32 then (st.1.flush st.2).map fun a => (.idle, a)
  else if c = 40 then (st.1.flush st.2).map fun a => (.idle, .lp :: a)
  else if c = 41 then (st.1.flush st.2).map fun a => (.idle, .rp :: a)
  else if c = 42 then
    match st.1 with
    | .star => some (.idle, .pow :: st.2)
    | cur => (cur.flush st.2).map fun a => (.star, a)
  else if c = 43 then
    match st.1 with
    | .exp0 m d => some (.expPos m d 0, st.2)
    | cur => (cur.flush st.2).map fun a => (.idle, .plus :: a)
  else if c = 45 then
    match st.1 with
    | .exp0 m d => some (.expNeg m d 0, st.2)
    | cur => (cur.flush st.2).map fun a => (.idle, .minus :: a)
  else if c = 46 then
    match st.1 with
    | .int m => some (.frac m 0, st.2)
    | _ => none
  else if c = 47 then (st.1.flush st.2).map fun a => (.idle, .slash :: a)
  else none

/-- Run the tokeniser; tokens are collected in reverse. -/
def lexRun : Bytes → Cur × List Tok → Option (Cur × List Tok)
  | [], st => some st
  | c :: cs, st =>
    match lexStep st c with
    | some st' => lexRun cs st'
    | none => none

/-- Tokens of a text. -/
def lex (s : Bytes) : Option (List Tok) :=
  match lexRun s (.idle, []) with
  | some (cur, acc) => (cur.flush acc).map List.reverse
  | none => none

/-- Expressions. -/
inductive Expr
  | num (m d u : ℕ) | xi | eta
  | neg (a : Expr) | add (a b : Expr) | sub (a b : Expr) | mul (a b : Expr) | div (a b : Expr)
  | pow (a : Expr) (n : ℕ)
  deriving DecidableEq, Repr

/-- Operators on the parser's stack. -/
inductive Op
  | add | sub | mul | div | neg | pow | lp
  deriving DecidableEq, Repr

/-- Python's precedences: `+ -` below `* /` below unary minus below `**`. -/
def Op.prec : Op → ℕ
  | .add => 1 | .sub => 1 | .mul => 2 | .div => 2 | .neg => 3 | .pow => 4 | .lp => 0

/-- Apply an operator to the operand stack. -/
def Op.apply : Op → List Expr → Option (List Expr)
  | .neg, a :: es => some (.neg a :: es)
  | .add, b :: a :: es => some (.add a b :: es)
  | .sub, b :: a :: es => some (.sub a b :: es)
  | .mul, b :: a :: es => some (.mul a b :: es)
  | .div, b :: a :: es => some (.div a b :: es)
  | .pow, .num m 0 0 :: a :: es => some (.pow a m :: es)
  | _, _ => none

/-- Reduce while the operator on top binds at least as strongly as `p` (never past a parenthesis). -/
def reduceOps (p : ℕ) : List Op → List Expr → Option (List Op × List Expr)
  | [], es => some ([], es)
  | o :: os, es =>
    if o = .lp then some (o :: os, es)
    else if Nat.ble p o.prec then
      match o.apply es with
      | some es' => reduceOps p os es'
      | none => none
    else some (o :: os, es)

/-- Parser state: operators, operands, and whether an operand is expected next. -/
structure PState where
  ops : List Op
  args : List Expr
  want : Bool
  deriving DecidableEq, Repr

/-- Reduce, then push a binary operator. -/
def PState.binary (st : PState) (p : ℕ) (o : Op) : Option PState :=
  (reduceOps p st.ops st.args).map fun r => ⟨o :: r.1, r.2, true⟩

/-- One token of the operator-precedence parser. -/
def parseStep (st : PState) (t : Tok) : Option PState :=
  match st.want, t with
  | true, .num m d u => some ⟨st.ops, .num m d u :: st.args, false⟩
  | true, .xi => some ⟨st.ops, .xi :: st.args, false⟩
  | true, .eta => some ⟨st.ops, .eta :: st.args, false⟩
  | true, .minus => some ⟨.neg :: st.ops, st.args, true⟩
  | true, .lp => some ⟨.lp :: st.ops, st.args, true⟩
  | true, _ => none
  | false, .plus => st.binary 1 .add
  | false, .minus => st.binary 1 .sub
  | false, .star => st.binary 2 .mul
  | false, .slash => st.binary 2 .div
  | false, .pow => st.binary 5 .pow
  | false, .rp =>
    match reduceOps 0 st.ops st.args with
    | some (.lp :: os, es) => some ⟨os, es, false⟩
    | _ => none
  | false, _ => none

/-- All tokens. -/
def parseRun : List Tok → PState → Option PState
  | [], st => some st
  | t :: ts, st =>
    match parseStep st t with
    | some st' => parseRun ts st'
    | none => none

/-- The end of the text: everything is reduced to one operand. -/
def PState.finish (st : PState) : Option Expr :=
  if st.want then none else
  match reduceOps 0 st.ops st.args with
  | some ([], [e]) => some e
  | _ => none

/-- Parse a token list. -/
def parseToks (ts : List Tok) : Option Expr :=
  match parseRun ts ⟨[], [], true⟩ with
  | some st => st.finish
  | none => none

/-- Parse a text. -/
def parse (s : Bytes) : Option Expr :=
  match lex s with
  | some ts => parseToks ts
  | none => none

/-- Value of an expression; division by zero raises. -/
def Expr.eval {K : Type} [Field K] [DecidableEq K] (xi eta : K) : Expr → Except PyErr K
  | .num m d u => .ok (m * 10 ^ u / 10 ^ d)
  | .xi => .ok xi
  | .eta => .ok eta
  | .neg a => do return -(← a.eval xi eta)
  | .add a b => do return (← a.eval xi eta) + (← b.eval xi eta)
  | .sub a b => do return (← a.eval xi eta) - (← b.eval xi eta)
  | .mul a b => do return (← a.eval xi eta) * (← b.eval xi eta)
  | .div a b => do
    let x ← a.eval xi eta
    let y ← b.eval xi eta
    if y = 0 then throw .zeroDivisionError
    return x / y
  | .pow a n => do return (← a.eval xi eta) ^ n

/-- `eval(text)` with `xi` and `eta` bound. -/
def pyEval {K : Type} [Field K] [DecidableEq K] (s : Bytes) (xi eta : K) : Except PyErr K :=
  match parse s with
  | some e => e.eval xi eta
  | none => .error .syntaxError

end Composipy
