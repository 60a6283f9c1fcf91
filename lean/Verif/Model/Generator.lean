import Verif.Model.Pcomp

/-!
# Model of the scripts that write the tables
[pre_integrated_component/write_shape_function.py, write_pre_integrated_terms.py]

Simplifications: sympy is a parameter (its expressions, products, derivatives, integrals over [-1, 1] and `str`); a text is a list of
characters; the result is the text handed to `f.write` (line ends as `\n`).  `_orth_polynomials` is modelled in `Model/ShapeFunctions.lean`.
-/

namespace Composipy

/-- A dictionary in insertion order. -/
abbrev Dict (K V : Type) := List (K × V)

/-- `d[k] = v`: replaces the value of a present key, else appends. -/
def Dict.set {K V : Type} [DecidableEq K] (d : Dict K V) (k : K) (v : V) : Dict K V :=
  if d.any (fun p => p.1 = k) then d.map fun p => if p.1 = k then (k, v) else p else d ++ [(k, v)]

/-- `d[k]` -/
def Dict.get {K V : Type} [DecidableEq K] (d : Dict K V) (k : K) : Except PyErr V :=
  match d.find? (fun p => p.1 = k) with
  | some p => .ok p.2
  | none => .error .keyError

/-- The sympy operations used by the scripts.  `f` and `g` are the first four functions of `xi` and of `eta`, `orth` and `orthEta` the values of
`_orth_polynomials(r, xi)` and `_orth_polynomials(r, eta)`; `diff2` is `sp.diff(e, xi, xi)`, `integrate` is `sp.integrate(e, (xi, -1, 1))`. -/
structure Sympy (E : Type) where
  f : ℕ → E
  g : ℕ → E
  orth : ℕ → E
  orthEta : ℕ → E
  mul : E → E → E
  diff : E → E
  diff2 : E → E
  integrate : E → E
  str : E → Text

/-- `str(i)` of an index -/
def strIdx (i : ℕ) : Text := (Nat.repr i).toList

/-- `str((i, k))` of a pair of indices -/
def strPair (ik : ℕ × ℕ) : Text := '(' :: strIdx ik.1 ++ [',', ' '] ++ strIdx ik.2 ++ [')']

/-- `'    ' + str(k) + ': \'' + str(v) + '\',\n'`  [write_shape_function.py:62, write_pre_integrated_terms.py:68] -/
def entryText (k v : Text) : Text := [' ', ' ', ' ', ' '] ++ k ++ [':', ' ', '\''] ++ v ++ ['\'', ',', '\n']

/-- `convert_to_str`  [write_shape_function.py:50-64, write_pre_integrated_terms.py:56-70] -/
def convertToStr (d : Dict Text Text) (name : Text) : Text :=
  d.foldl (fun txt kv => txt ++ entryText kv.1 kv.2) (name ++ [' ', '=', ' ', '{', '\n']) ++ ['}', '\n', '\n', '\n']

/-- The texts of keys and values. -/
def Dict.texts {K E : Type} (key : K → Text) (str : E → Text) (d : Dict K E) : Dict Text Text := d.map fun p => (key p.1, str p.2)

/-- `{0: f1, 1: f2, 2: f3, 3: f4}` for the values `v`  [write_shape_function.py:18-19, write_pre_integrated_terms.py:13-25] -/
def firstFour {E : Type} (v : ℕ → E) : Dict ℕ E := [(0, v 0), (1, v 1), (2, v 2), (3, v 3)]

/-- `for i in range(4, n_terms): D[i] = v(i+1)`  [write_shape_function.py:72-74, write_pre_integrated_terms.py:78-81] -/
def fillTerms {E : Type} (d : Dict ℕ E) (nTerms : ℕ) (v : ℕ → E) : Dict ℕ E :=
  (List.range' 4 (nTerms - 4)).foldl (fun d i => d.set i (v (i + 1))) d

/-- The file `_S.py`  [write_shape_function.py:67-92] -/
def writeShape {E : Type} (Y : Sympy E) (file : Text) (nTerms : ℕ) : Text :=
  let FXI := fillTerms (firstFour Y.f) nTerms Y.orth
  let GETA := fillTerms (firstFour Y.g) nTerms Y.orthEta
  let S : Dict (ℕ × ℕ) E := FXI.foldl (fun S p => GETA.foldl (fun S q => S.set (p.1, q.1) (Y.mul p.2 q.2)) S) []
  "# This file is generated by ".toList ++ file ++ (", it contains shape function ".toList ++ ['\n', '\n']) ++
    ("__all__ = ['FXI', 'S']".toList ++ ['\n', '\n', '\n']) ++
    convertToStr (FXI.texts strIdx Y.str) "FXI".toList ++
    convertToStr (S.texts strPair Y.str) "S".toList

/-- One of the six tables: `for i in range(n_terms): for k in range(n_terms): D[(i, k)] = sp.integrate(P[i] * Q[k], (xi, -1, 1))`
[write_pre_integrated_terms.py:87-101] -/
def integrals {E : Type} (Y : Sympy E) (nTerms : ℕ) (P Q : Dict ℕ E) : Except PyErr (Dict (ℕ × ℕ) E) :=
  (List.range nTerms).foldlM (fun d i => (List.range nTerms).foldlM (fun d k => do
    let p ← P.get i
    let q ← Q.get k
    return Dict.set d (i, k) (Y.integrate (Y.mul p q))) d) []

/-- The file `_ii_F.py`; the six tables are filled in one pair of loops, here one after the other  [write_pre_integrated_terms.py:73-115] -/
def writePre {E : Type} (Y : Sympy E) (file : Text) (nTerms : ℕ) : Except PyErr Text := do
  let F := fillTerms (firstFour Y.f) nTerms Y.orth
  let FXI := fillTerms (firstFour fun i => Y.diff (Y.f i)) nTerms fun r => Y.diff (Y.orth r)
  let FXIXI := fillTerms (firstFour fun i => Y.diff2 (Y.f i)) nTerms fun r => Y.diff2 (Y.orth r)
  let ii_FF ← integrals Y nTerms F F
  let ii_FXI_F ← integrals Y nTerms FXI F
  let ii_FXI_FXI ← integrals Y nTerms FXI FXI
  let ii_FXIXI_F ← integrals Y nTerms FXIXI F
  let ii_FXIXI_FXI ← integrals Y nTerms FXIXI FXI
  let ii_FXIXI_FXIXI ← integrals Y nTerms FXIXI FXIXI
  return "# This file is generated by ".toList ++ file ++ (", it contains the preintegrated terms".toList ++ ['\n', '\n']) ++
    ("__all__ = ['ii_FF', 'ii_FXI_F', 'ii_FXI_FXI', 'ii_FXIXI_F', 'ii_FXIXI_FXI', 'ii_FXIXI_FXIXI']".toList ++ ['\n', '\n', '\n']) ++
    convertToStr (ii_FF.texts strPair Y.str) "ii_FF".toList ++
    convertToStr (ii_FXI_F.texts strPair Y.str) "ii_FXI_F".toList ++
    convertToStr (ii_FXI_FXI.texts strPair Y.str) "ii_FXI_FXI".toList ++
    convertToStr (ii_FXIXI_F.texts strPair Y.str) "ii_FXIXI_F".toList ++
    convertToStr (ii_FXIXI_FXI.texts strPair Y.str) "ii_FXIXI_FXI".toList ++
    convertToStr (ii_FXIXI_FXIXI.texts strPair Y.str) "ii_FXIXI_FXIXI".toList

end Composipy
