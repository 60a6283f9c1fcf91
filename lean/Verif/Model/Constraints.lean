import Verif.Py.Basic
import Mathlib.Data.List.Infix
import Mathlib.Data.List.ProdSigma

/-!
# Model of `PlateStructure._compute_constraints`  [core/structure.py:148-265]

Simplifications: text is a list of characters; `str.lower` acts on ASCII letters; an edge value is a
`str` or a list of `str`; `m` and `n` are natural numbers (the constructor guarantees `>= 1`).
-/

namespace Composipy

/-- Python text. -/
abbrev Str := List Char

/-- The value of one edge in the `constraints` dictionary. -/
inductive Edge where
  | word (w : Str)
  | flags (l : List Str)
  deriving DecidableEq

/-- The `constraints` argument: a text, or a dictionary (`none` = key absent; other keys are never
read).  [structure.py:84-89] -/
inductive Constraints where
  | str (s : Str)
  | dict (x0 xa y0 yb : Option Edge)

/-- `flag in edge`: list membership, or the substring test when the edge is a text.
[structure.py:203-251] -/
def Edge.has (e : Edge) (flag : Str) : Bool :=
  match e with
  | .word w => decide (flag <:+: w)
  | .flags l => l.contains flag

/-- `isinstance(edge, str)`  [structure.py:161-164] -/
def Edge.isStr : Edge → Bool
  | .word _ => true
  | .flags _ => false

def TX : Str := ['T', 'X']
def TY : Str := ['T', 'Y']
def TZ : Str := ['T', 'Z']
def RX : Str := ['R', 'X']
def RY : Str := ['R', 'Y']
def RZ : Str := ['R', 'Z']

/-- `['TX', 'TY', 'TZ']` -/
def pinnedFlags : List Str := [TX, TY, TZ]
/-- `['TX', 'TY', 'TZ', 'RX', 'RY', 'RZ']` -/
def clampedFlags : List Str := [TX, TY, TZ, RX, RY, RZ]

def wFree : Str := ['f', 'r', 'e', 'e']
def wPinned : Str := ['p', 'i', 'n', 'n', 'e', 'd']
def wSimplySupported : Str := ['s', 'i', 'm', 'p', 'l', 'y', '_', 's', 'u', 'p', 'p', 'o', 'r', 't', 'e', 'd']
def wFixed : Str := ['f', 'i', 'x', 'e', 'd']
def wClamped : Str := ['c', 'l', 'a', 'm', 'p', 'e', 'd']
def wPINNED : Str := ['P', 'I', 'N', 'N', 'E', 'D']
def wCLAMPED : Str := ['C', 'L', 'A', 'M', 'P', 'E', 'D']

/-- `str.lower()` -/
def strLower (s : Str) : Str := s.map Char.toLower

/-- `boundary_conditions[word]`  [structure.py:166-172] -/
def boundaryConditions (w : Str) : Except PyErr (List Str) :=
  if w = wFree then .ok []
  else if w = wPinned then .ok pinnedFlags
  else if w = wSimplySupported then .ok pinnedFlags
  else if w = wFixed then .ok clampedFlags
  else if w = wClamped then .ok clampedFlags
  else .error .keyError

/-- `constraints[key]` -/
def getKey (e : Option Edge) : Except PyErr Edge :=
  match e with
  | some e => .ok e
  | none => .error .keyError

/-- `constraints[key].lower()` looked up in the table; only reached for texts.  [structure.py:173-184] -/
def wordFlags (e : Option Edge) : Except PyErr Edge := do
  match ← getKey e with
  | .word w => return .flags (← boundaryConditions (strLower w))
  | .flags _ => .error .attributeError

/-- `isinstance(constraints[key], str)` -/
def keyIsStr (e : Option Edge) : Except PyErr Bool := do
  let e ← getKey e
  return e.isStr

/-- The four edges used by the rest of the method. -/
structure Edges where
  x0 : Edge
  xa : Edge
  y0 : Edge
  yb : Edge

/-- The `if/elif/else` choosing the edges  [structure.py:149-189].  A text other than `'PINNED'` and
`'CLAMPED'` is indexed with `'x0'`, a `TypeError`; the tests in the third condition are evaluated from
left to right and stop at the first edge that is not a text. -/
def chooseEdges (c : Constraints) : Except PyErr Edges :=
  match c with
  | .str s =>
    if s = wPINNED then
      .ok ⟨.flags pinnedFlags, .flags pinnedFlags, .flags pinnedFlags, .flags pinnedFlags⟩
    else if s = wCLAMPED then
      .ok ⟨.flags clampedFlags, .flags clampedFlags, .flags clampedFlags, .flags clampedFlags⟩
    else .error .typeError
  | .dict x0 xa y0 yb => do
    let b1 ← keyIsStr x0
    let b2 ← if b1 then keyIsStr xa else .ok false
    let b3 ← if b2 then keyIsStr y0 else .ok false
    let b4 ← if b3 then keyIsStr yb else .ok false
    if b4 then
      let x0 ← wordFlags x0
      let xa ← wordFlags xa
      let y0 ← wordFlags y0
      let yb ← wordFlags yb
      return ⟨x0, xa, y0, yb⟩
    else
      let x0 ← getKey x0
      let xa ← getKey xa
      let y0 ← getKey y0
      let yb ← getKey yb
      return ⟨x0, xa, y0, yb⟩

/-- `list.remove(v)`: `ValueError` when absent. -/
def pyRemove (l : List Nat) (v : Nat) : Except PyErr (List Nat) :=
  if v ∈ l then .ok (l.erase v) else .error .valueError

/-- `if flag in edge: l.remove(v)` -/
def removeIf (b : Bool) (v : Nat) (l : List Nat) : Except PyErr (List Nat) :=
  if b then pyRemove l v else .ok l

/-- The removals done on one index list, in the order of the code  [structure.py:202-251].
The six lists are independent of each other; the model groups the statements by list. -/
def removals (e0 e1 : Edge) (t r : Str) (l : List Nat) : Except PyErr (List Nat) := do
  let l ← removeIf (e0.has t) 0 l
  let l ← removeIf (e0.has r) 1 l
  let l ← removeIf (e1.has t) 2 l
  removeIf (e1.has r) 3 l

/-- The six one-dimensional index lists after slicing. -/
structure IdxLists where
  um : List Nat
  un : List Nat
  vm : List Nat
  vn : List Nat
  wm : List Nat
  wn : List Nat

/-- Index lists  [structure.py:191-255].  Lines 254-255 slice `un` where `vn` and `wn` were meant. -/
def idxLists (e : Edges) (m n : Nat) : Except PyErr IdxLists := do
  let sm := List.range (m + 4)
  let sn := List.range (n + 4)
  let um ← removals e.x0 e.xa TX RX sm
  let vm ← removals e.x0 e.xa TY RY sm
  let wm ← removals e.x0 e.xa TZ RZ sm
  let un ← removals e.y0 e.yb TX RX sn
  let _vn ← removals e.y0 e.yb TY RY sn
  let _wn ← removals e.y0 e.yb TZ RZ sn
  let um := um.take m
  let un := un.take n
  let vm := vm.take m
  let vn := un.take n
  let wm := wm.take m
  let wn := un.take n
  return { um, un, vm, vn, wm, wn }

/-- `self.su_idx`, `self.sv_idx`, `self.sw_idx`  [structure.py:261-263] -/
structure ShapeIdx where
  u : List (Nat × Nat)
  v : List (Nat × Nat)
  w : List (Nat × Nat)
  deriving DecidableEq

/-- The index sets stored by `_compute_constraints`  [structure.py:148-265] -/
def computeIdx (c : Constraints) (m n : Nat) : Except PyErr ShapeIdx := do
  let e ← chooseEdges c
  let i ← idxLists e m n
  return ⟨i.um.product i.un, i.vm.product i.vn, i.wm.product i.wn⟩

/-- `product(xs, ys, xs, ys)`  [structure.py:257-259]: the last index moves fastest. -/
def quads (xs ys : List Nat) : List (Nat × Nat × Nat × Nat) :=
  xs.flatMap fun i => ys.flatMap fun j => xs.flatMap fun k => ys.map fun l => (i, j, k, l)

/-- The default argument  [structure.py:84-89] -/
def defaultConstraints : Constraints :=
  .dict (some (.flags pinnedFlags)) (some (.flags pinnedFlags)) (some (.flags pinnedFlags)) (some (.flags pinnedFlags))

end Composipy
