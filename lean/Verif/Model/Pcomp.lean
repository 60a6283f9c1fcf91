import Verif.Py.Num

/-!
# Model of `composipy/nastranapi/pcomp_generator.py`

Texts are lists of characters.  Angles are exact (`XF ℚ`): `float(...)` is not rounded, and `-0.0` is `0`.
-/

namespace Composipy

/-- A Python `str`. -/
abbrev Text := List Char

/-- `s.find('\pm') > -1` [pcomp_generator.py:17]; `'\pm'` is the three characters backslash, p, m. -/
def hasPm : Text → Bool
  | [] => false
  | c :: cs => (c == '\\' && cs.take 2 == ['p', 'm']) || hasPm cs

/-- `s.replace('\pm', '')` [pcomp_generator.py:18]. -/
def removePm : Text → Text
  | '\\' :: 'p' :: 'm' :: cs => removePm cs
  | c :: cs => c :: removePm cs
  | [] => []

/-- `s.split(sep)` for a one-character separator [pcomp_generator.py:20]. -/
def pySplit (sep : Char) : Text → List Text
  | [] => [[]]
  | c :: cs =>
    if c == sep then [] :: pySplit sep cs
    else match pySplit sep cs with
      | [] => [[c]]
      | p :: ps => (c :: p) :: ps

/-- `(-1)**i * angle` [pcomp_generator.py:9]. -/
def flipSign (i : ℕ) : XF ℚ → XF ℚ
  | .nan => .nan
  | .ninf => if i % 2 = 0 then .ninf else .pinf
  | .pinf => if i % 2 = 0 then .pinf else .ninf
  | .fin q => .fin ((-1) ^ i * q)

/-- `_build_pm_unit(angle, times)` [pcomp_generator.py:4-11]; `range` of a negative number is empty. -/
def buildPmUnit (angle : XF ℚ) (times : ℤ) : List (XF ℚ) :=
  (List.range times.toNat).map fun i => flipSign i angle

/-- `float(text)` with the exception. -/
def pyFloat (s : Text) : Except PyErr (XF ℚ) :=
  match parseFloat s with
  | some x => .ok x
  | none => .error .valueError

/-- `int(text)` with the exception. -/
def pyInt (s : Text) : Except PyErr ℤ :=
  match parseInt s with
  | some x => .ok x
  | none => .error .valueError

/-- `.replace('{', '').replace('}', '')`. -/
def dropBraces (s : Text) : Text := s.filter fun c => c != '{' && c != '}'

/-- `_build_stack_unit(stacking)` [pcomp_generator.py:14-37]. -/
def buildStackUnit (s : Text) : Except PyErr (List (XF ℚ)) :=
  match pySplit '_' (pyStrip (removePm s)) with
  | [a] => do
    let angle ← pyFloat a
    if hasPm s then .ok (buildPmUnit angle 1) else .ok [angle]
  | [a, t] => do
    let angle ← pyFloat a
    let times ← pyInt (dropBraces t)
    if hasPm s then .ok (buildPmUnit angle times) else .ok (List.replicate times.toNat angle)
  | _ => .error .valueError

/-- Local variables of the loop in `build_sequence` [pcomp_generator.py:67-72]. -/
structure SeqState where
  unities : List (XF ℚ)
  unity : List (XF ℚ)
  block : List (XF ℚ)
  cur : Text
  inBlock : Bool
  isMult : Bool

/-- `times * l` for a list: negative counts give the empty list. -/
def pyRepeat (times : ℤ) (l : List (XF ℚ)) : List (XF ℚ) := (List.replicate times.toNat l).flatten

/-- `int(current_block.replace('_', '').replace('{', '').replace('}', ''))` [pcomp_generator.py:99-100, 109-110]. -/
def blockTimes (s : Text) : Except PyErr ℤ := pyInt (dropBraces (s.filter (· != '_')))

/-- Body of the character loop [pcomp_generator.py:74-119]. -/
def seqStep (st : SeqState) (c : Char) : Except PyErr SeqState :=
  if c == '(' then .ok { st with inBlock := true }
  else if c == ')' then do
    let unity ← buildStackUnit st.cur
    .ok { st with unity := unity, block := st.block ++ unity, cur := [], isMult := true }
  else if c == '/' then
    match st.inBlock, st.isMult with
    | false, false => do
      let unity ← buildStackUnit st.cur
      .ok { st with unities := st.unities ++ unity, cur := [], unity := [] }
    | true, false => do
      let unity ← buildStackUnit st.cur
      .ok { st with unity := unity, block := st.block ++ unity, cur := [] }
    | false, true => do
      let times ← blockTimes st.cur
      .ok { st with unities := st.unities ++ pyRepeat times st.unity, unity := [], cur := [], isMult := false }
    | true, true => do
      let times ← blockTimes st.cur
      .ok { st with unities := st.unities ++ pyRepeat times st.block, unity := [], block := [], cur := [],
                    isMult := false, inBlock := false }
  else .ok { st with cur := st.cur ++ [c] }

/-- `for i, char in enumerate(stacking)` [pcomp_generator.py:74]. -/
def seqRun : Text → SeqState → Except PyErr SeqState
  | [], st => .ok st
  | c :: cs, st => do seqRun cs (← seqStep st c)

/-- State before the loop [pcomp_generator.py:67-72]. -/
def SeqState.init : SeqState := ⟨[], [], [], [], false, false⟩

/-- `build_sequence(stacking)` [pcomp_generator.py:40-124].  `c.lower() == 's'` holds for the characters `s` and `S` only.
`stacking[-1]` and `stacking[0]` raise `IndexError` on an empty text; `is_stacking` is computed and not used. -/
def buildSequence (s : Text) : Except PyErr (List (XF ℚ)) :=
  let s := pyStrip s
  match s.getLast? with
  | none => .error .indexError
  | some c =>
    let isSymmetric := c == 's' || c == 'S'
    let s := s.filter (· != 's')
    match s with
    | [] => .error .indexError
    | _ => do
      let s := s.filter fun c => c != '[' && c != ']'
      let st ← seqRun (s ++ ['/']) .init
      if isSymmetric then .ok (st.unities ++ st.unities.reverse) else .ok st.unities

/-- An argument of `build_pcomp` given per ply or once: elements are represented by their `str(...)` text.  A Python `str` has a
length, so it is the sequence of its characters.  Mappings: `Verif.Model.PcompAny`. -/
inductive PlyArg
  | scalar (t : Text)
  | seq (ts : List Text)

/-- `_convert_to_list(value, size)` [pcomp_generator.py:127-136]: `len` of a scalar raises the `TypeError` caught there. -/
def convertToList (value : PlyArg) (size : ℕ) : Except PyErr (List Text) :=
  match value with
  | .seq ts => if ts.length = size then .ok ts else .error .valueError
  | .scalar t => .ok ((List.range size).map fun _ => t)

/-- The `sout` argument: a text, another sequence, or a value without length. -/
inductive SoutArg
  | text (t : Text)
  | seq (ts : List Text)
  | noLen

def tYES : Text := ['Y', 'E', 'S']
def tNO : Text := ['N', 'O']
def tFIBER : Text := ['F', 'I', 'B', 'E', 'R']

/-- `l[0] = v` [pcomp_generator.py:141]. -/
def setFirst (l : List Text) (v : Text) : Except PyErr (List Text) :=
  if l = [] then .error .indexError else .ok (l.set 0 v)

/-- `l[-1] = v` [pcomp_generator.py:142]. -/
def setLast (l : List Text) (v : Text) : Except PyErr (List Text) :=
  if l = [] then .error .indexError else .ok (l.set (l.length - 1) v)

/-- `_convert_sout(sout, size)` [pcomp_generator.py:138-158]. -/
def convertSout (sout : SoutArg) (size : ℕ) : Except PyErr (List Text) :=
  match sout with
  | .text t =>
    if t = tFIBER then do
      let s := (List.range size).map fun _ => tNO
      let s ← setFirst s tYES
      setLast s tYES
    else if t = tNO then .ok ((List.range size).map fun _ => tNO)
    else if t = tYES then .ok ((List.range size).map fun _ => tYES)
    else if t.length = size then .ok (t.map fun c => [c]) else .error .valueError
  | .seq ts => if ts.length = size then .ok ts else .error .valueError
  | .noLen => .error .valueError

/-- The four comma separated fields of ply `i`, `{midi[i]},{ti[i]},{sequence[i]},{sout[i]}` [pcomp_generator.py:197, 199]. -/
def plyText (midi ti sequence sout : List Text) (i : ℕ) : Except PyErr Text := do
  let m ← pyIdx midi i
  let t ← pyIdx ti i
  let q ← pyIdx sequence i
  let s ← pyIdx sout i
  .ok (m ++ [','] ++ t ++ [','] ++ q ++ [','] ++ s)

/-- Loop body [pcomp_generator.py:194-201]; only `IndexError` is caught. -/
def pcompStep (midi ti sequence sout : List Text) (body : Text) (i : ℕ) : Except PyErr Text := do
  let f0 ← plyText midi ti sequence sout i
  let body := body ++ ['+', ','] ++ f0 ++ [',']
  match plyText midi ti sequence sout (i + 1) with
  | .ok f1 => .ok (body ++ f1 ++ ['+', '\n'])
  | .error .indexError => .ok body.dropLast
  | .error e => .error e

/-- `for i in range(0, size, 2)` [pcomp_generator.py:194]. -/
def pcompLoop (midi ti sequence sout : List Text) : List ℕ → Text → Except PyErr Text
  | [], body => .ok body
  | i :: is, body => do pcompLoop midi ti sequence sout is (← pcompStep midi ti sequence sout body i)

/-- The `pid` argument: an integer, a finite float or a text. -/
inductive PidArg
  | int (n : ℤ)
  | float (q : ℚ)
  | text (t : Text)

/-- `int(pid)` [pcomp_generator.py:186]: floats are truncated toward zero. -/
def PidArg.toInt : PidArg → Except PyErr ℤ
  | .int n => .ok n
  | .float q => .ok (if q < 0 then -(-q).floor else q.floor)
  | .text t => pyInt t

/-- `str(n)`. -/
def intText (n : ℤ) : Text := (toString n).toList

/-- `build_pcomp(sequence, midi, ti, pid, z0, sout)` [pcomp_generator.py:161-203]. -/
def buildPcomp (sequence : List Text) (midi ti : PlyArg) (pid : PidArg) (z0 : Text) (sout : SoutArg) : Except PyErr Text := do
  let size := sequence.length
  let pid ← pid.toInt
  let ti ← convertToList ti size
  let midi ← convertToList midi size
  let sout ← convertSout sout size
  let header := ['P', 'C', 'O', 'M', 'P', ','] ++ intText pid ++ [','] ++ z0 ++ [',', ',', ',', ',', ',', '+', '\n']
  let body ← pcompLoop midi ti sequence sout ((List.range ((size + 1) / 2)).map (2 * ·)) []
  .ok (header ++ body)

end Composipy
