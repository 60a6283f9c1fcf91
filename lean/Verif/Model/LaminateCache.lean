import Verif.Model.Laminate

/-!
# Model of the caches of `LaminateProperty`  [property.py:96-103 and the getters]

Reads are state transformers: they return a value or an exception *and* the attributes left behind.
-/

namespace Composipy

/-- `_Q_layup`, `_T_layup`, `_A`, `_B`, `_D`  [property.py:97-101].  (`_z_position`, `_ABD`, `_ABD_p`
are never read by the code.) -/
structure Cache where
  Q : Option (List M3)
  T : Option (List (M3 × M3))
  A : Option M3
  B : Option M3
  D : Option M3

/-- After `__init__` all are `None`  [property.py:97-101] -/
def Cache.empty : Cache := ⟨none, none, none, none, none⟩

/-- Loop of `Q_layup` appending to `self._Q_layup`; on an exception the entries appended so far stay
[property.py:130-149] -/
noncomputable def fillQ : List (ℝ × Mat) → List M3 → Except PyErr Unit × List M3
  | [], acc => (.ok (), acc)
  | p :: ps, acc =>
    match plyQ p with
    | .error e => (.error e, acc)
    | .ok Q => fillQ ps (acc ++ [Q])

/-- `Q_layup`: the cache is set to `[]` before the loop  [property.py:125-150] -/
noncomputable def readQ (l : Lam) (c : Cache) : Except PyErr (List M3) × Cache :=
  match c.Q with
  | some Qs => (.ok Qs, c)
  | none =>
    match fillQ l.layup [] with
    | (.error e, Qs) => (.error e, { c with Q := some Qs })
    | (.ok _, Qs) => (.ok Qs, { c with Q := some Qs })

/-- `T_layup`  [property.py:152-174] (cannot raise) -/
noncomputable def readT (l : Lam) (c : Cache) : Except PyErr (List (M3 × M3)) × Cache :=
  match c.T with
  | some Ts => (.ok Ts, c)
  | none => (.ok l.Tlayup, { c with T := some l.Tlayup })

/-- The loop `self._X += w * Q` with `self._X` updated in place  [property.py:202-205, 225-228,
258-261]: returns the status and the accumulator left behind. -/
noncomputable def accLoop (w : ℝ → ℝ → ℝ) (z : List ℝ) : List (M3 × Nat) → M3 → Except PyErr Unit × M3
  | [], acc => (.ok (), acc)
  | (Q, i) :: rest, acc =>
    match pyIdx z (i + 1) with
    | .error e => (.error e, acc)
    | .ok zk1 =>
      match pyIdx z i with
      | .error e => (.error e, acc)
      | .ok zk0 => accLoop w z rest (acc + w zk0 zk1 • Q)

/-- The common tail of `A`, `B`, `D`: if the cache slot is `None` set it to zeros, read `Q_layup`
(which may raise, leaving the zeros in place) and accumulate.
[property.py:199-206, 222-229, 255-262] -/
noncomputable def readSlot (w : ℝ → ℝ → ℝ) (get : Cache → Option M3) (set : Cache → M3 → Cache)
    (l : Lam) (c : Cache) : Except PyErr M3 × Cache :=
  match get c with
  | some M => (.ok M, c)
  | none =>
    match readQ l (set c 0) with
    | (.error e, c') => (.error e, c')
    | (.ok Qs, c') =>
      match accLoop w l.zPosition Qs.zipIdx 0 with
      | (.error e, M) => (.error e, set c' M)
      | (.ok _, M) => (.ok M, set c' M)

/-- `A`  [property.py:176-206] -/
noncomputable def readA (l : Lam) (c : Cache) : Except PyErr M3 × Cache :=
  match l.xiA with
  | .none => readSlot wA Cache.A (fun c M => { c with A := some M }) l c
  | xi =>
    match lpA l.plies xi l.T with
    | .error e => (.error e, c)
    | .ok M => (.ok M, { c with A := some M })

/-- `B`: with both `xiA` and `xiD` present it overwrites `_A` with zeros (sic)  [property.py:208-229] -/
noncomputable def readB (l : Lam) (c : Cache) : Except PyErr M3 × Cache :=
  let c := match l.xiA, l.xiD with
    | .none, _ => c
    | _, .none => c
    | _, _ => { c with A := some 0 }
  readSlot wB Cache.B (fun c M => { c with B := some M }) l c

/-- `D`  [property.py:231-262] -/
noncomputable def readD (l : Lam) (c : Cache) : Except PyErr M3 × Cache :=
  match l.xiD with
  | .none => readSlot wD Cache.D (fun c M => { c with D := some M }) l c
  | xi =>
    match lpD l.plies xi l.T with
    | .error e => (.error e, c)
    | .ok M => (.ok M, { c with D := some M })

/-- `ABD`: reads `A`, `B`, `B`, `D` in this order  [property.py:264-271] -/
noncomputable def readABD (l : Lam) (c : Cache) : Except PyErr M6 × Cache :=
  match readA l c with
  | (.error e, c) => (.error e, c)
  | (.ok A, c) =>
    match readB l c with
    | (.error e, c) => (.error e, c)
    | (.ok B, c) =>
      match readB l c with
      | (.error e, c) => (.error e, c)
      | (.ok B', c) =>
        match readD l c with
        | (.error e, c) => (.error e, c)
        | (.ok D, c) => (.ok (Matrix.fromBlocks A B B' D), c)

/-- What a user can do to a laminate: read a property, or change the contents of the list that was
passed as `stacking` or `plies` (the object keeps a reference to both, property.py:93-94). -/
inductive LamOp where
  | z | Q | T | A | B | D | ABD | xiA | xiD
  | setStacking (new : List ℝ)
  | setPlies (new : List Mat)

/-- The result of an operation. -/
inductive LamOut where
  | z (l : List ℝ)
  | Q (r : Except PyErr (List M3))
  | T (r : Except PyErr (List (M3 × M3)))
  | m3 (r : Except PyErr M3)
  | m6 (r : Except PyErr M6)
  | xi (r : Except PyErr (Fin 4 → PyFloat))
  | done

/-- A live laminate object. -/
structure LamObj where
  lam : Lam
  cache : Cache

/-- The object right after construction. -/
def LamObj.fresh (l : Lam) : LamObj := ⟨l, .empty⟩

/-- The laminate after the caller changed the contents of a shared list (dictionary stackings and
single materials are not lists and are left alone).  [property.py:93-94] -/
def Lam.mutate (l : Lam) : LamOp → Lam
  | .setStacking new => match l.stacking with
    | .angles _ => { l with stacking := .angles new }
    | .dict _ => l
  | .setPlies new => match l.plies with
    | .list _ => { l with plies := .list new }
    | .single _ => l
  | _ => l

/-- One operation on a live laminate. -/
noncomputable def LamObj.step (o : LamObj) : LamOp → LamOut × LamObj
  | .z => (.z o.lam.zPosition, o)
  | .Q => let (r, c) := readQ o.lam o.cache; (.Q r, { o with cache := c })
  | .T => let (r, c) := readT o.lam o.cache; (.T r, { o with cache := c })
  | .A => let (r, c) := readA o.lam o.cache; (.m3 r, { o with cache := c })
  | .B => let (r, c) := readB o.lam o.cache; (.m3 r, { o with cache := c })
  | .D => let (r, c) := readD o.lam o.cache; (.m3 r, { o with cache := c })
  | .ABD => let (r, c) := readABD o.lam o.cache; (.m6 r, { o with cache := c })
  | .xiA => (.xi o.lam.xiAread, o)
  | .xiD => (.xi o.lam.xiDread, o)
  | .setStacking new => (.done, { o with lam := o.lam.mutate (.setStacking new) })
  | .setPlies new => (.done, { o with lam := o.lam.mutate (.setPlies new) })

/-- Run a history, collecting the results. -/
noncomputable def LamObj.run (o : LamObj) : List LamOp → List LamOut
  | [] => []
  | op :: ops => (o.step op).1 :: (o.step op).2.run ops

end Composipy
