import Verif.Model.StrengthState
import Verif.Model.Plot

/-!
# Assigning to attributes and writing into returned arrays

`obj.name = value` looks `name` up in the class first: a `property` without setter refuses with `AttributeError`, any other name is
stored in the object.  No class of the package defines a setter, `__slots__` or `__setattr__`.  A getter that returns a cached array or
list returns the object it keeps, so writing into the result writes into the cache.

Left out: names that begin with an underscore, names of methods (an assignment hides the method), deletion of attributes, and values of
other types than those listed.
-/

namespace Composipy

/-- Names bound to properties in `OrthotropicMaterial`  [material.py:88-130] -/
def orthoGetters : List String := ["e1", "e2", "v12", "g12", "thickness", "t1", "c1", "t2", "c2", "s", "v21", "name", "Q_0"]

/-- Names bound to properties in `IsotropicMaterial`  [material.py:244-278] -/
def isoGetters : List String := ["e", "v", "g", "thickness", "t", "c", "s", "name", "Q_0"]

/-- Names bound to properties in `LaminateProperty`  [property.py:110-291] -/
def lamGetters : List String := ["z_position", "Q_layup", "T_layup", "A", "B", "D", "ABD", "xiA", "xiD"]

/-- Names bound to properties in `PlateStructure`  [structure.py:112-145] -/
def plateGetters : List String := ["dproperty", "a", "b", "constraints", "Nxx", "Nyy", "Nxy", "m", "n"]

/-- Does the assignment `obj.name = value` succeed? -/
def assignTo (getters : List String) (name : String) : Except PyErr Unit :=
  if name ∈ getters then .error .attributeError else .ok ()

/-! ## Materials -/

/-- A live material: its parameters, which only the constructor stores, and the cache `__Q_0`  [material.py:74-85, 232-241] -/
structure MatObj where
  mat : Mat
  Q : Option M3

/-- The object right after construction  [material.py:83, 239] -/
def MatObj.fresh (m : Mat) : MatObj := ⟨m, none⟩

/-- Names bound to properties in the class of the material. -/
def Mat.getters : Mat → List String
  | .ortho _ => orthoGetters
  | .iso _ => isoGetters

/-- `Q_0`: the cache is set only when the matrix was computed  [material.py:129-148, 277-296] -/
noncomputable def MatObj.readQ0 (o : MatObj) : Except PyErr M3 × MatObj :=
  match o.Q with
  | some Q => (.ok Q, o)
  | none =>
    match o.mat.Q0 with
    | .error e => (.error e, o)
    | .ok Q => (.ok Q, { o with Q := some Q })

/-- `Invariants()` reads `Q_0`; isotropic materials have no such method  [material.py:150-172] -/
noncomputable def MatObj.readInvariants (o : MatObj) : Except PyErr Invariants × MatObj :=
  match o.mat with
  | .iso _ => (.error .attributeError, o)
  | .ortho _ =>
    match o.readQ0 with
    | (.error e, o) => (.error e, o)
    | (.ok Q, o) => (.ok (invariantsOf Q), o)

/-- What a user can do with a material: read, assign to a name, write into the array `Q_0`. -/
inductive MatAct where
  | Q0 | invariants
  | assign (name : String)
  | writeQ0 (M : M3)

/-- The result of an operation. -/
inductive MatActOut where
  | m3 (r : Except PyErr M3)
  | inv (r : Except PyErr Invariants)
  | status (r : Except PyErr Unit)

/-- One operation on a live material.  `mat.Q_0[...] = M` reads `Q_0` first. -/
noncomputable def MatObj.act (o : MatObj) : MatAct → MatActOut × MatObj
  | .Q0 => let (r, o) := o.readQ0; (.m3 r, o)
  | .invariants => let (r, o) := o.readInvariants; (.inv r, o)
  | .assign name => (.status (assignTo o.mat.getters name), o)
  | .writeQ0 M =>
    match o.readQ0 with
    | (.error e, o) => (.status (.error e), o)
    | (.ok _, o) => (.status (.ok ()), { o with Q := some M })

/-- Run a history, collecting the results. -/
noncomputable def MatObj.runActs (o : MatObj) : List MatAct → List MatActOut
  | [] => []
  | a :: as => (o.act a).1 :: (o.act a).2.runActs as

/-! ## Laminates -/

/-- What a user can do with a laminate besides `LamOp`: assign to a name, assign to the three plain attributes `stacking`, `plies`,
`layup` [property.py:93-95], write into a returned array or list.  `assign` is for all other names. -/
inductive LamAct where
  | op (q : LamOp)
  | assign (name : String)
  | setStacking (s : Stacking)
  | setPlies (p : Plies)
  | setLayup (L : List (ℝ × Mat))
  | writeA (M : M3) | writeB (M : M3) | writeD (M : M3)
  | writeQ (Qs : List M3)
  | writeABD (M : M6)

/-- The result of an operation. -/
inductive LamActOut where
  | out (r : LamOut)
  | status (r : Except PyErr Unit)

/-- `lam.X[...] = M`: read first; after an exception nothing is written. -/
def writeInto {α : Type} (o : LamObj) (r : Except PyErr α × Cache) (put : Cache → Cache) : LamActOut × LamObj :=
  match r with
  | (.error e, c) => (.status (.error e), { o with cache := c })
  | (.ok _, c) => (.status (.ok ()), { o with cache := put c })

/-- One operation on a live laminate.  The arrays returned by `A`, `B`, `D` and the list returned by `Q_layup` are the cached ones
[property.py:150, 206, 229, 262]; `ABD` is a new array [property.py:267-270]. -/
noncomputable def LamObj.act (o : LamObj) : LamAct → LamActOut × LamObj
  | .op q => let (r, o) := o.step q; (.out r, o)
  | .assign name => (.status (assignTo lamGetters name), o)
  | .setStacking s => (.status (.ok ()), { o with lam.stacking := s })
  | .setPlies p => (.status (.ok ()), { o with lam.plies := p })
  | .setLayup L => (.status (.ok ()), { o with lam.layup := L })
  | .writeA M => writeInto o (readA o.lam o.cache) fun c => { c with A := some M }
  | .writeB M => writeInto o (readB o.lam o.cache) fun c => { c with B := some M }
  | .writeD M => writeInto o (readD o.lam o.cache) fun c => { c with D := some M }
  | .writeQ Qs => writeInto o (readQ o.lam o.cache) fun c => { c with Q := some Qs }
  | .writeABD _ => writeInto o (readABD o.lam o.cache) id

/-- The object after a history. -/
noncomputable def LamObj.afterActs (o : LamObj) : List LamAct → LamObj
  | [] => o
  | a :: as => (o.act a).2.afterActs as

/-- Run a history, collecting the results. -/
noncomputable def LamObj.runActs (o : LamObj) : List LamAct → List LamActOut
  | [] => []
  | a :: as => (o.act a).1 :: (o.act a).2.runActs as

/-! ## Strength objects -/

/-- What a user can do with a `LaminateStrength` besides `StrOp`: assign to one load, to `dproperty`, or to another name.
[strength.py:43-50]; the class has no properties. -/
inductive StrAct where
  | op (q : StrOp)
  | setLoad (i : I6) (x : ℝ)
  | setProperty (l : LamObj)
  | assign (name : String)

/-- One operation on a live strength object. -/
noncomputable def StrObj.act (o : StrObj) : StrAct → StrOut × StrObj
  | .op q => o.step q
  | .setLoad i x => (.done, { o with loads := Function.update o.loads i x })
  | .setProperty l => (.done, { o with lam := l })
  | .assign _ => (.done, o)

/-- Run a history, collecting the results. -/
noncomputable def StrObj.runActs (o : StrObj) : List StrAct → List StrOut
  | [] => []
  | a :: as => (o.act a).1 :: (o.act a).2.runActs as

/-! ## Plates -/

/-- The plain attributes `sw_idx`, `eigenvalue`, `eigenvector` of a plate, `none` for `None`  [structure.py:106-110] -/
structure PlateAttrs (N : ℕ) where
  idx : Option ShapeIdx
  val : Option (List PyFloat)
  vec : Option (List (Fin N → ℝ))

/-- The attributes after `__init__`  [structure.py:106-110] -/
def PlateAttrs.fresh (N : ℕ) : PlateAttrs N := ⟨none, none, none⟩

/-- `buckling_analysis`: `sw_idx` is stored by `_compute_constraints`, the other two at the end  [structure.py:261-263, 407] -/
noncomputable def attrBuckling (S : EigSolver) (D : Except PyErr M3) (c : Constraints) (p : PlateNum) (numEig : ℤ)
    (st : PlateAttrs (p.m * p.n)) :
    Except PyErr (List PyFloat × List (Fin (p.m * p.n) → ℝ)) × PlateAttrs (p.m * p.n) :=
  match bucklingAnalysis S D c p numEig ⟨st.idx, none⟩ with
  | (.error e, st') => (.error e, { st with idx := st'.idx })
  | (.ok (vals, vecs), st') => (.ok (vals, vecs), ⟨st'.idx, some vals, some vecs⟩)

/-- `plot_eigenvalue`: an analysis runs only when neither attribute is an array; `None[:, nth]` is a `TypeError`
[structure.py:410-440] -/
noncomputable def attrPlot (S : EigSolver) (D : Except PyErr M3) (c : Constraints) (p : PlateNum) (nth : ℤ) (ngridx ngridy : ℕ)
    (st : PlateAttrs (p.m * p.n)) : Except PyErr Surface × PlateAttrs (p.m * p.n) :=
  let draw (st : PlateAttrs (p.m * p.n)) : Except PyErr Surface :=
    match st.vec with
    | none => .error .typeError
    | some vecs => surfaceOf p.a p.b st.idx vecs nth ngridx ngridy
  if st.val.isNone && st.vec.isNone then
    match attrBuckling S D c p 5 st with
    | (.error e, st) => (.error e, st)
    | (.ok _, st) => (draw st, st)
  else (draw st, st)

/-- What a user can do with a plate: assign to a name (`assign` is for names other than the plain attributes), assign arrays or `None` to
the plain attributes, analyse, plot. -/
inductive PlateAct (N : ℕ) where
  | assign (name : String)
  | setIdx (s : Option ShapeIdx)
  | setVal (v : Option (List PyFloat))
  | setVec (v : Option (List (Fin N → ℝ)))
  | analysis (numEig : ℤ)
  | plot (nth : ℤ) (ngridx ngridy : ℕ)

/-- The result of an operation. -/
inductive PlateActOut (N : ℕ) where
  | status (r : Except PyErr Unit)
  | eig (r : Except PyErr (List PyFloat × List (Fin N → ℝ)))
  | surface (r : Except PyErr Surface)

/-- One operation on a plate.  `dproperty`, the sides, loads and numbers of terms are private attributes that only the constructor
stores  [structure.py:97-105] -/
noncomputable def plateAct (S : EigSolver) (D : Except PyErr M3) (c : Constraints) (p : PlateNum) (st : PlateAttrs (p.m * p.n)) :
    PlateAct (p.m * p.n) → PlateActOut (p.m * p.n) × PlateAttrs (p.m * p.n)
  | .assign name => (.status (assignTo plateGetters name), st)
  | .setIdx s => (.status (.ok ()), { st with idx := s })
  | .setVal v => (.status (.ok ()), { st with val := v })
  | .setVec v => (.status (.ok ()), { st with vec := v })
  | .analysis k => let (r, st) := attrBuckling S D c p k st; (.eig r, st)
  | .plot nth gx gy => let (r, st) := attrPlot S D c p nth gx gy st; (.surface r, st)

/-- The attributes after a history. -/
noncomputable def plateAfter (S : EigSolver) (D : Except PyErr M3) (c : Constraints) (p : PlateNum) (st : PlateAttrs (p.m * p.n)) :
    List (PlateAct (p.m * p.n)) → PlateAttrs (p.m * p.n)
  | [] => st
  | a :: as => plateAfter S D c p (plateAct S D c p st a).2 as

end Composipy
