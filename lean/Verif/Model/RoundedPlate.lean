import Verif.Model.Rounded
import Verif.Model.Stiffness

/-!
# Model of the bending and geometric matrices in floating-point arithmetic
[pre_integrated_component/build_k.py:157-194, core/structure.py:333-365]

The calculation of `Model/Stiffness.lean` with a rounding after every operation, in the order of the Python expressions.
A table entry is the text of one decimal number; `eval` of it rounds once.
-/

namespace Composipy
namespace FloatArith
variable (F : FloatArith)

/-- What `eval` makes of the decimal texts: every reading rounded.  [functions.py:14-50] -/
def reading (T : Readers) : Readers :=
  { ff := fun k => (T.ff k).map F.fl, fxi_f := fun k => (T.fxi_f k).map F.fl, f_fxi := fun k => (T.f_fxi k).map F.fl,
    fxi_fxi := fun k => (T.fxi_fxi k).map F.fl, fxixi_f := fun k => (T.fxixi_f k).map F.fl, f_fxixi := fun k => (T.f_fxixi k).map F.fl,
    fxixi_fxi := fun k => (T.fxixi_fxi k).map F.fl, fxi_fxixi := fun k => (T.fxi_fxixi k).map F.fl,
    fxixi_fxixi := fun k => (T.fxixi_fxixi k).map F.fl }

/-- Product of two readings, left to right. -/
def rmul (x y : Except PyErr ℝ) : Except PyErr ℝ := do
  let p ← x
  let q ← y
  return F.fl (p * q)

/-- Division of two Python floats. -/
noncomputable def div (x y : ℝ) : Except PyErr ℝ := do
  let q ← pyDiv x y
  return F.fl q

/-- `calc_k33_ijkl` on the numbers read by `T`  [build_k.py:157-178] -/
noncomputable def calcK33 (T : Readers) (a b : ℝ) (wi wj wk wl : ℕ) (D11 D12 D22 D16 D26 D66 : ℝ) : Except PyErr ℝ := do
  let ik := (wi, wk)
  let jl := (wj, wl)
  let wxixi_wxixi ← F.rmul (T.fxixi_fxixi ik) (T.ff jl)
  let wxixi_wetaeta ← F.rmul (T.fxixi_f ik) (T.f_fxixi jl)
  let wetaeta_wxixi ← F.rmul (T.f_fxixi ik) (T.fxixi_f jl)
  let wetaeta_wetaeta ← F.rmul (T.ff ik) (T.fxixi_fxixi jl)
  let wxixi_wxieta ← F.rmul (T.fxixi_fxi ik) (T.f_fxi jl)
  let wxieta_wxixi ← F.rmul (T.fxi_fxixi ik) (T.fxi_f jl)
  let wxieta_wetaeta ← F.rmul (T.fxi_f ik) (T.fxi_fxixi jl)
  let wetaeta_wxieta ← F.rmul (T.f_fxi ik) (T.fxixi_fxi jl)
  let wxieta_wxieta ← F.rmul (T.fxi_fxi ik) (T.fxi_fxi jl)
  let d1 ← F.div b (F.pw a 3)
  let d2 ← F.div 4 (F.fl (a * b))
  let d3 ← F.div a (F.pw b 3)
  let d4 ← F.div 8 (F.pw a 2)
  let d5 ← F.div 8 (F.pw b 2)
  let d6 ← F.div 16 (F.fl (a * b))
  let t1 := F.fl (F.fl (F.fl (4 * d1) * D11) * wxixi_wxixi)
  let t2 := F.fl (F.fl (d2 * D12) * F.fl (wxixi_wetaeta + wetaeta_wxixi))
  let t3 := F.fl (F.fl (F.fl (4 * d3) * D22) * wetaeta_wetaeta)
  let t4 := F.fl (F.fl (d4 * D16) * F.fl (wxixi_wxieta + wxieta_wxixi))
  let t5 := F.fl (F.fl (d5 * D26) * F.fl (wxieta_wetaeta + wetaeta_wxieta))
  let t6 := F.fl (F.fl (d6 * D66) * wxieta_wxieta)
  return F.fl (F.fl (F.fl (F.fl (F.fl (t1 + t2) + t3) + t4) + t5) + t6)

/-- `calc_kG33_ijkl` on the numbers read by `T`  [build_k.py:181-194] -/
noncomputable def calcKG33 (T : Readers) (a b : ℝ) (wi wj wk wl : ℕ) (Nxx Nyy Nxy : ℝ) : Except PyErr ℝ := do
  let ik := (wi, wk)
  let jl := (wj, wl)
  let wxi_wxi ← F.rmul (T.fxi_fxi ik) (T.ff jl)
  let weta_weta ← F.rmul (T.ff ik) (T.fxi_fxi jl)
  let weta_wxi ← F.rmul (T.f_fxi ik) (T.fxi_f jl)
  let wxi_weta ← F.rmul (T.fxi_f ik) (T.f_fxi jl)
  let d1 ← F.div b a
  let d2 ← F.div a b
  let t1 := F.fl (F.fl (Nxx * d1) * wxi_wxi)
  let t2 := F.fl (F.fl (Nyy * d2) * weta_weta)
  let t3 := F.fl (Nxy * F.fl (weta_wxi + wxi_weta))
  return F.fl (F.fl (t1 + t2) + t3)

/-- `calc_K_KG_D` with the computed `D`  [structure.py:333-365] -/
noncomputable def calcKKGD (T : Readers) (D : Except PyErr (Matrix (Fin 3) (Fin 3) ℝ)) (c : Constraints) (p : PlateNum) :
    Except PyErr (SqMat (p.m * p.n) × SqMat (p.m * p.n)) := do
  let D ← D
  let (_, _, widx) ← constraintQuads c p.m p.n
  let ks ← (List.range (p.m ^ 2 * p.n ^ 2)).mapM fun i => do
    let (wi, wj, wk, wl) ← pyIdx widx i
    let k ← F.calcK33 (F.reading T) p.a p.b wi wj wk wl (D 0 0) (D 1 0) (D 1 1) (D 2 0) (D 2 1) (D 2 2)
    let g ← F.calcKG33 (F.reading T) p.a p.b wi wj wk wl p.Nxx p.Nyy p.Nxy
    return (k, g)
  let K ← reshape (p.m * p.n) (ks.map Prod.fst)
  let KG ← reshape (p.m * p.n) (ks.map Prod.snd)
  return (K, KG)

end FloatArith
end Composipy
