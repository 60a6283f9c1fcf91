import Verif.Py.Eval
import Verif.Gen.FF
import Verif.Gen.FXI_F
import Verif.Gen.FXI_FXI
import Verif.Gen.FXIXI_F
import Verif.Gen.FXIXI_FXI
import Verif.Gen.FXIXI_FXIXI
import Verif.Gen.S

/-!
# Model of the table readers [pre_integrated_component/functions.py:14-69]

Simplification: keys are natural numbers (the library only builds such keys).  The readers of the
pre-integrated terms evaluate text in which neither `xi` nor `eta` is in scope; the texts are plain
numbers, so the values bound to the two names are immaterial and taken to be 0.
-/

namespace Composipy

/-- `D[ik]` for one of the six dictionaries keyed by pairs. [functions.py:14-52, _ii_F.py] -/
def textAt (t : List (List ℕ)) (ik : ℕ × ℕ) : Except PyErr Bytes :=
  match t[ik.1]? with
  | none => .error .keyError
  | some row =>
    match row[ik.2]? with
    | none => .error .keyError
    | some x => .ok (unpack x)

/-- `ik[::-1]`. [functions.py:23, 36, 45] -/
def rev2 (ik : ℕ × ℕ) : ℕ × ℕ := (ik.2, ik.1)

/-- `eval(D[ik])` -/
noncomputable def evalAt (t : List (List ℕ)) (ik : ℕ × ℕ) : Except PyErr ℝ := do
  pyEval (← textAt t ik) 0 0

/-- `ii_ff` [functions.py:14-15] -/
noncomputable def ii_ff (ik : ℕ × ℕ) : Except PyErr ℝ := evalAt text_FF ik
/-- `ii_fxi_f` [functions.py:18-19] -/
noncomputable def ii_fxi_f (ik : ℕ × ℕ) : Except PyErr ℝ := evalAt text_FXI_F ik
/-- `ii_f_fxi` [functions.py:22-24] -/
noncomputable def ii_f_fxi (ik : ℕ × ℕ) : Except PyErr ℝ := evalAt text_FXI_F (rev2 ik)
/-- `ii_fxi_fxi` [functions.py:27-28] -/
noncomputable def ii_fxi_fxi (ik : ℕ × ℕ) : Except PyErr ℝ := evalAt text_FXI_FXI ik
/-- `ii_fxixi_f` [functions.py:31-32] -/
noncomputable def ii_fxixi_f (ik : ℕ × ℕ) : Except PyErr ℝ := evalAt text_FXIXI_F ik
/-- `ii_f_fxixi` [functions.py:35-37] -/
noncomputable def ii_f_fxixi (ik : ℕ × ℕ) : Except PyErr ℝ := evalAt text_FXIXI_F (rev2 ik)
/-- `ii_fxixi_fxi` [functions.py:40-41] -/
noncomputable def ii_fxixi_fxi (ik : ℕ × ℕ) : Except PyErr ℝ := evalAt text_FXIXI_FXI ik
/-- `ii_fxi_fxixi` [functions.py:44-46] -/
noncomputable def ii_fxi_fxixi (ik : ℕ × ℕ) : Except PyErr ℝ := evalAt text_FXIXI_FXI (rev2 ik)
/-- `ii_fxixi_fxixi` [functions.py:49-50] -/
noncomputable def ii_fxixi_fxixi (ik : ℕ × ℕ) : Except PyErr ℝ := evalAt text_FXIXI_FXIXI ik

/-- `fxi(i, xi)`; `eta` is not in scope and does not occur in the texts. [functions.py:53-54] -/
noncomputable def fxi (i : ℕ) (xi : ℝ) : Except PyErr ℝ :=
  match text_FXI[i]? with
  | none => .error .keyError
  | some x => pyEval (unpack x) xi 0

/-- The text of `S[(i, j)]`: two parenthesised factors joined by `*`. [_S.py:60-2561] -/
def textS (ij : ℕ × ℕ) : Except PyErr Bytes :=
  match ids_S[ij.1]? with
  | none => .error .keyError
  | some row =>
    match row[ij.2]? with
    | none => .error .keyError
    | some (p, q) =>
      .ok ([40] ++ unpack (text_factors.getD p 0) ++ [41, 42, 40] ++ unpack (text_factors.getD q 0) ++ [41])

/-- `sxieta_ij(ij, xi, eta)` [functions.py:57-58] -/
noncomputable def sxieta_ij (ij : ℕ × ℕ) (xi eta : ℝ) : Except PyErr ℝ := do
  pyEval (← textS ij) xi eta

/-- `sxieta(s_idx, xi, eta)` [functions.py:61-69] -/
noncomputable def sxieta (sIdx : List (ℕ × ℕ)) (xi eta : ℝ) : Except PyErr (List ℝ) :=
  sIdx.mapM fun ij => sxieta_ij ij xi eta

end Composipy
