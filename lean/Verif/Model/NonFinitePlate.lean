import Verif.Model.NonFinite
import Verif.Model.Stiffness

/-!
# Plates with NaN or infinite data, and lamination parameters

`PlateStructure` accepts NaN and infinity for `a`, `b` and the loads, and a laminate accepts them everywhere.  Here the matrices of the
buckling problem and the lamination parameters are modelled on all accepted values.  The tables of integrals hold finite numbers.  Rounding,
overflow of finite values and the sign of zero are left out as in `Verif.Model.Stiffness`.
-/

namespace Composipy

/-- `x + y` -/
local infixl:65 " ⊕ₓ " => XF.add
/-- `x - y` -/
local infixl:65 " ⊖ₓ " => XF.sub
/-- `x * y` -/
local infixl:70 " ⊗ₓ " => XF.mul

/-- Product of two readings, left to right. -/
noncomputable def xRmul (x y : Except PyErr ℝ) : Except PyErr PyFloat := do
  let p ← x
  let q ← y
  return (.fin p : PyFloat) ⊗ₓ .fin q

/-- `calc_K11_ijkl` [build_k.py:6-18] -/
noncomputable def xCalcK11 (T : Readers) (a b : PyFloat) (ui uj uk ul : ℕ) (A11 A16 A66 : PyFloat) : Except PyErr PyFloat := do
  let ik := (ui, uk)
  let jl := (uj, ul)
  let uxi_uxi ← xRmul (T.fxi_fxi ik) (T.ff jl)
  let uxi_ueta ← xRmul (T.fxi_f ik) (T.f_fxi jl)
  let ueta_uxi ← xRmul (T.f_fxi ik) (T.fxi_f jl)
  let ueta_ueta ← xRmul (T.ff ik) (T.fxi_fxi jl)
  let d1 ← XF.div b a
  let d2 ← XF.div b a
  return A11 ⊗ₓ d1 ⊗ₓ uxi_uxi ⊕ₓ A16 ⊗ₓ (uxi_ueta ⊕ₓ ueta_uxi) ⊕ₓ A66 ⊗ₓ d2 ⊗ₓ ueta_ueta

/-- `calc_k12_ijkl` [build_k.py:21-35] -/
noncomputable def xCalcK12 (T : Readers) (a b : PyFloat) (ui uj vk vl : ℕ) (A12 A16 A26 A66 : PyFloat) : Except PyErr PyFloat := do
  let ik := (ui, vk)
  let jl := (uj, vl)
  let uxi_veta ← xRmul (T.fxi_f ik) (T.f_fxi jl)
  let uxi_vxi ← xRmul (T.fxi_fxi ik) (T.ff jl)
  let ueta_veta ← xRmul (T.ff ik) (T.fxi_fxi jl)
  let ueta_vxi ← xRmul (T.f_fxi ik) (T.fxi_f jl)
  let d1 ← XF.div b a
  let d2 ← XF.div a b
  return A12 ⊗ₓ uxi_veta ⊕ₓ A16 ⊗ₓ d1 ⊗ₓ uxi_vxi ⊕ₓ A26 ⊗ₓ d2 ⊗ₓ ueta_veta ⊕ₓ A66 ⊗ₓ ueta_vxi

/-- `calc_k13_ijkl` [build_k.py:38-58]; the unused `uxi_w`, `ueta_w` are read as well. -/
noncomputable def xCalcK13 (T : Readers) (a b : PyFloat) (ui uj wk wl : ℕ) (B11 B12 B16 B26 B66 : PyFloat) : Except PyErr PyFloat := do
  let ik := (ui, wk)
  let jl := (uj, wl)
  let uxi_wxixi ← xRmul (T.fxi_fxixi ik) (T.ff jl)
  let uxi_wetaeta ← xRmul (T.fxi_f ik) (T.f_fxixi jl)
  let uxi_wxieta ← xRmul (T.fxi_fxi ik) (T.f_fxi jl)
  let ueta_wxixi ← xRmul (T.f_fxixi ik) (T.fxi_f jl)
  let ueta_wetaeta ← xRmul (T.ff ik) (T.fxi_fxixi jl)
  let ueta_wxieta ← xRmul (T.f_fxi ik) (T.fxi_fxi jl)
  let _uxi_w ← xRmul (T.fxi_f ik) (T.ff jl)
  let _ueta_w ← xRmul (T.ff ik) (T.fxi_f jl)
  let d1 ← XF.div (XF.fin 2 ⊗ₓ b) a
  let d2 ← XF.div (XF.fin 2) b
  let d3 ← XF.div (XF.fin 2) a
  let d4 ← XF.div (XF.fin 2) (b.pow 2)
  let d5 ← XF.div (XF.fin 4) b
  return (XF.neg d1) ⊗ₓ B11 ⊗ₓ uxi_wxixi ⊖ₓ d2 ⊗ₓ B12 ⊗ₓ uxi_wetaeta
    ⊖ₓ d3 ⊗ₓ B16 ⊗ₓ (XF.fin 2 ⊗ₓ uxi_wxieta ⊕ₓ ueta_wxixi) ⊖ₓ d4 ⊗ₓ B26 ⊗ₓ ueta_wetaeta ⊖ₓ d5 ⊗ₓ B66 ⊗ₓ ueta_wxieta

/-- `calc_k21_ijkl` [build_k.py:61-75] -/
noncomputable def xCalcK21 (T : Readers) (a b : PyFloat) (vi vj uk ul : ℕ) (A12 A16 A26 A66 : PyFloat) : Except PyErr PyFloat := do
  let ik := (vi, uk)
  let jl := (vj, ul)
  let veta_uxi ← xRmul (T.f_fxi ik) (T.fxi_f jl)
  let vxi_uxi ← xRmul (T.fxi_fxi ik) (T.ff jl)
  let veta_ueta ← xRmul (T.ff ik) (T.fxi_fxi jl)
  let vxi_ueta ← xRmul (T.fxi_f ik) (T.f_fxi jl)
  let d1 ← XF.div a b
  let d2 ← XF.div a b
  return A12 ⊗ₓ veta_uxi ⊕ₓ A16 ⊗ₓ d1 ⊗ₓ vxi_uxi ⊕ₓ A26 ⊗ₓ d2 ⊗ₓ veta_ueta ⊕ₓ A66 ⊗ₓ vxi_ueta

/-- `calc_k22_ijkl` [build_k.py:78-91] -/
noncomputable def xCalcK22 (T : Readers) (a b : PyFloat) (vi vj vk vl : ℕ) (A22 A26 A66 : PyFloat) : Except PyErr PyFloat := do
  let ik := (vi, vk)
  let jl := (vj, vl)
  let veta_veta ← xRmul (T.ff ik) (T.fxi_fxi jl)
  let vxi_veta ← xRmul (T.fxi_f ik) (T.f_fxi jl)
  let veta_vxi ← xRmul (T.f_fxi ik) (T.fxi_f jl)
  let vxi_vxi ← xRmul (T.fxi_fxi ik) (T.ff jl)
  let d1 ← XF.div a b
  let d2 ← XF.div b a
  return A22 ⊗ₓ d1 ⊗ₓ veta_veta ⊕ₓ A26 ⊗ₓ (vxi_veta ⊕ₓ veta_vxi) ⊕ₓ A66 ⊗ₓ d2 ⊗ₓ vxi_vxi

/-- `calc_k23_ijkl` [build_k.py:94-112] -/
noncomputable def xCalcK23 (T : Readers) (a b : PyFloat) (vi vj wk wl : ℕ) (B12 B16 B22 B26 B66 : PyFloat) : Except PyErr PyFloat := do
  let ik := (vi, wk)
  let jl := (vj, wl)
  let veta_wxixi ← xRmul (T.f_fxixi ik) (T.fxi_f jl)
  let vxi_wxixi ← xRmul (T.fxi_fxixi ik) (T.ff jl)
  let veta_wetaeta ← xRmul (T.ff ik) (T.fxi_fxixi jl)
  let vxi_wetaeta ← xRmul (T.fxi_f ik) (T.f_fxixi jl)
  let veta_wxieta ← xRmul (T.f_fxi ik) (T.fxi_fxi jl)
  let vxi_wxieta ← xRmul (T.fxi_fxi ik) (T.f_fxi jl)
  let d1 ← XF.div (XF.fin 2) a
  let d2 ← XF.div (XF.fin 2 ⊗ₓ b) (a.pow 2)
  let d3 ← XF.div (XF.fin 2 ⊗ₓ a) (b.pow 2)
  let d4 ← XF.div (XF.fin 2) b
  let d5 ← XF.div (XF.fin 4) a
  return (XF.neg d1) ⊗ₓ B12 ⊗ₓ veta_wxixi ⊖ₓ d2 ⊗ₓ B16 ⊗ₓ vxi_wxixi ⊖ₓ d3 ⊗ₓ B22 ⊗ₓ veta_wetaeta
    ⊖ₓ d4 ⊗ₓ B26 ⊗ₓ (vxi_wetaeta ⊕ₓ XF.fin 2 ⊗ₓ veta_wxieta) ⊖ₓ d5 ⊗ₓ B66 ⊗ₓ vxi_wxieta

/-- `calc_k31_ijkl` [build_k.py:115-133]; `wxixi_uxi` reads `ii_fxi_fxixi`. -/
noncomputable def xCalcK31 (T : Readers) (a b : PyFloat) (wi wj uk ul : ℕ) (B11 B12 B16 B26 B66 : PyFloat) : Except PyErr PyFloat := do
  let ik := (wi, uk)
  let jl := (wj, ul)
  let wxixi_uxi ← xRmul (T.fxi_fxixi ik) (T.ff jl)
  let wetaeta_uxi ← xRmul (T.f_fxi ik) (T.fxixi_f jl)
  let wetaeta_ueta ← xRmul (T.ff ik) (T.fxixi_fxi jl)
  let wxieta_ueta ← xRmul (T.fxi_f ik) (T.fxi_fxi jl)
  let wxieta_uxi ← xRmul (T.fxi_fxi ik) (T.fxi_f jl)
  let wxixi_ueta ← xRmul (T.fxixi_f ik) (T.f_fxi jl)
  let d1 ← XF.div (XF.fin 2 ⊗ₓ b) (a.pow 2)
  let d2 ← XF.div (XF.fin 2) b
  let d3 ← XF.div (XF.fin 2 ⊗ₓ a) (b.pow 2)
  let d4 ← XF.div (XF.fin 4) b
  let d5 ← XF.div (XF.fin 2) a
  return (XF.neg d1) ⊗ₓ B11 ⊗ₓ wxixi_uxi ⊖ₓ d2 ⊗ₓ B12 ⊗ₓ wetaeta_uxi ⊖ₓ d3 ⊗ₓ B26 ⊗ₓ wetaeta_ueta
    ⊖ₓ d4 ⊗ₓ B66 ⊗ₓ wxieta_ueta ⊖ₓ d5 ⊗ₓ B16 ⊗ₓ (XF.fin 2 ⊗ₓ wxieta_uxi ⊕ₓ wxixi_ueta)

/-- `calc_k32_ijkl` [build_k.py:136-154] (the parameter `B11` is unused) -/
noncomputable def xCalcK32 (T : Readers) (a b : PyFloat) (wi wj vk vl : ℕ) (B12 B16 B22 B26 B66 : PyFloat) : Except PyErr PyFloat := do
  let ik := (wi, vk)
  let jl := (wj, vl)
  let wxixi_veta ← xRmul (T.fxixi_f ik) (T.f_fxi jl)
  let wetaeta_veta ← xRmul (T.ff ik) (T.fxixi_fxi jl)
  let wxieta_vxi ← xRmul (T.fxi_fxi ik) (T.fxi_f jl)
  let wetaeta_vxi ← xRmul (T.f_fxi ik) (T.fxixi_f jl)
  let wxieta_veta ← xRmul (T.fxi_f ik) (T.fxi_fxi jl)
  let wxixi_vxi ← xRmul (T.fxixi_fxi ik) (T.ff jl)
  let d1 ← XF.div (XF.fin 2) a
  let d2 ← XF.div (XF.fin 2 ⊗ₓ a) (b.pow 2)
  let d3 ← XF.div (XF.fin 4) a
  let d4 ← XF.div (XF.fin 2) b
  let d5 ← XF.div (XF.fin 2 ⊗ₓ b) (a.pow 2)
  return (XF.neg d1) ⊗ₓ B12 ⊗ₓ wxixi_veta ⊖ₓ d2 ⊗ₓ B22 ⊗ₓ wetaeta_veta ⊖ₓ d3 ⊗ₓ B66 ⊗ₓ wxieta_vxi
    ⊖ₓ d4 ⊗ₓ B26 ⊗ₓ (wetaeta_vxi ⊕ₓ XF.fin 2 ⊗ₓ wxieta_veta) ⊖ₓ d5 ⊗ₓ B16 ⊗ₓ wxixi_vxi

/-- `calc_k33_ijkl` [build_k.py:157-178] -/
noncomputable def xCalcK33 (T : Readers) (a b : PyFloat) (wi wj wk wl : ℕ) (D11 D12 D22 D16 D26 D66 : PyFloat) : Except PyErr PyFloat := do
  let ik := (wi, wk)
  let jl := (wj, wl)
  let wxixi_wxixi ← xRmul (T.fxixi_fxixi ik) (T.ff jl)
  let wxixi_wetaeta ← xRmul (T.fxixi_f ik) (T.f_fxixi jl)
  let wetaeta_wxixi ← xRmul (T.f_fxixi ik) (T.fxixi_f jl)
  let wetaeta_wetaeta ← xRmul (T.ff ik) (T.fxixi_fxixi jl)
  let wxixi_wxieta ← xRmul (T.fxixi_fxi ik) (T.f_fxi jl)
  let wxieta_wxixi ← xRmul (T.fxi_fxixi ik) (T.fxi_f jl)
  let wxieta_wetaeta ← xRmul (T.fxi_f ik) (T.fxi_fxixi jl)
  let wetaeta_wxieta ← xRmul (T.f_fxi ik) (T.fxixi_fxi jl)
  let wxieta_wxieta ← xRmul (T.fxi_fxi ik) (T.fxi_fxi jl)
  let d1 ← XF.div b (a.pow 3)
  let d2 ← XF.div (XF.fin 4) (a ⊗ₓ b)
  let d3 ← XF.div a (b.pow 3)
  let d4 ← XF.div (XF.fin 8) (a.pow 2)
  let d5 ← XF.div (XF.fin 8) (b.pow 2)
  let d6 ← XF.div (XF.fin 16) (a ⊗ₓ b)
  return XF.fin 4 ⊗ₓ d1 ⊗ₓ D11 ⊗ₓ wxixi_wxixi ⊕ₓ d2 ⊗ₓ D12 ⊗ₓ (wxixi_wetaeta ⊕ₓ wetaeta_wxixi)
    ⊕ₓ XF.fin 4 ⊗ₓ d3 ⊗ₓ D22 ⊗ₓ wetaeta_wetaeta ⊕ₓ d4 ⊗ₓ D16 ⊗ₓ (wxixi_wxieta ⊕ₓ wxieta_wxixi) ⊕ₓ d5 ⊗ₓ D26 ⊗ₓ (wxieta_wetaeta ⊕ₓ wetaeta_wxieta) ⊕ₓ d6 ⊗ₓ D66 ⊗ₓ wxieta_wxieta

/-- `calc_kG33_ijkl` [build_k.py:181-194] -/
noncomputable def xCalcKG33 (T : Readers) (a b : PyFloat) (wi wj wk wl : ℕ) (Nxx Nyy Nxy : PyFloat) : Except PyErr PyFloat := do
  let ik := (wi, wk)
  let jl := (wj, wl)
  let wxi_wxi ← xRmul (T.fxi_fxi ik) (T.ff jl)
  let weta_weta ← xRmul (T.ff ik) (T.fxi_fxi jl)
  let weta_wxi ← xRmul (T.f_fxi ik) (T.fxi_f jl)
  let wxi_weta ← xRmul (T.fxi_f ik) (T.f_fxi jl)
  let d1 ← XF.div b a
  let d2 ← XF.div a b
  return Nxx ⊗ₓ d1 ⊗ₓ wxi_wxi ⊕ₓ Nyy ⊗ₓ d2 ⊗ₓ weta_weta ⊕ₓ Nxy ⊗ₓ (weta_wxi ⊕ₓ wxi_weta)

/-- Numeric data of a plate, with all accepted values. [structure.py:97-105] -/
structure XPlate where
  a : PyFloat
  b : PyFloat
  Nxx : PyFloat
  Nyy : PyFloat
  Nxy : PyFloat
  m : ℕ
  n : ℕ

/-- A square array of floats. -/
abbrev XSq (N : ℕ) := Fin N → Fin N → PyFloat

/-- `np.array(l).reshape(N, N)` -/
noncomputable def xReshape (N : ℕ) (l : List PyFloat) : Except PyErr (XSq N) :=
  if l.length = N * N then .ok (fun r c => l.getD (r * N + c) .nan) else .error .valueError

/-- `calc_K_KG_D` [structure.py:333-365] -/
noncomputable def xCalcKKGD (T : Readers) (D : Except PyErr X3) (c : Constraints) (p : XPlate) :
    Except PyErr (XSq (p.m * p.n) × XSq (p.m * p.n)) := do
  let D ← D
  let (_, _, widx) ← constraintQuads c p.m p.n
  let ks ← (List.range (p.m ^ 2 * p.n ^ 2)).mapM fun i => do
    let (wi, wj, wk, wl) ← pyIdx widx i
    let k ← xCalcK33 T p.a p.b wi wj wk wl (D 0 0) (D 1 0) (D 1 1) (D 2 0) (D 2 1) (D 2 2)
    let g ← xCalcKG33 T p.a p.b wi wj wk wl p.Nxx p.Nyy p.Nxy
    return (k, g)
  let K ← xReshape (p.m * p.n) (ks.map Prod.fst)
  let KG ← xReshape (p.m * p.n) (ks.map Prod.snd)
  return (K, KG)

/-- The ten entries computed for one loop index of `calc_K_KG_ABD`. -/
structure XTen where
  k11 : PyFloat
  k12 : PyFloat
  k13 : PyFloat
  k21 : PyFloat
  k22 : PyFloat
  k23 : PyFloat
  k31 : PyFloat
  k32 : PyFloat
  k33 : PyFloat
  g33 : PyFloat

/-- `np.vstack` of three `np.hstack`s. -/
def xStack3 {N : ℕ} (k : Fin 3 → Fin 3 → XSq N) : I3 N → I3 N → PyFloat := fun r c =>
  let num : I3 N → Fin 3 × Fin N := fun
    | .inl i => (0, i)
    | .inr (.inl i) => (1, i)
    | .inr (.inr i) => (2, i)
  k (num r).1 (num c).1 (num r).2 (num c).2

/-- `calc_K_KG_ABD` [structure.py:268-331].  `M` is the outcome of reading `dproperty.ABD`; after the six
unpackings every name is bound to the entry below the diagonal.  Row 2 of `K` repeats `k31`. -/
noncomputable def xCalcKKGABD (T : Readers) (M : Except PyErr (Fin 6 → Fin 6 → PyFloat)) (c : Constraints) (p : XPlate) :
    Except PyErr ((I3 (p.m * p.n) → I3 (p.m * p.n) → PyFloat) × (I3 (p.m * p.n) → I3 (p.m * p.n) → PyFloat)) := do
  let M ← M
  let A11 := M 0 0
  let A12 := M 1 0
  let A22 := M 1 1
  let A16 := M 2 0
  let A26 := M 2 1
  let A66 := M 2 2
  let B11 := M 3 0
  let B12 := M 4 0
  let B22 := M 4 1
  let B16 := M 5 0
  let B26 := M 5 1
  let B66 := M 5 2
  let D11 := M 3 3
  let D12 := M 4 3
  let D22 := M 4 4
  let D16 := M 5 3
  let D26 := M 5 4
  let D66 := M 5 5
  let (uidx, vidx, widx) ← constraintQuads c p.m p.n
  let ks ← (List.range (p.m ^ 2 * p.n ^ 2)).mapM fun i => do
    let (ui, uj, uk, ul) ← pyIdx uidx i
    let (vi, vj, vk, vl) ← pyIdx vidx i
    let (wi, wj, wk, wl) ← pyIdx widx i
    let k11 ← xCalcK11 T p.a p.b ui uj uk ul A11 A16 A66
    let k12 ← xCalcK12 T p.a p.b ui uj vk vl A12 A16 A26 A66
    let k13 ← xCalcK13 T p.a p.b ui uj wk wl B11 B12 B16 B26 B66
    let k21 ← xCalcK21 T p.a p.b vi vj uk ul A12 A16 A26 A66
    let k22 ← xCalcK22 T p.a p.b vi vj vk vl A22 A26 A66
    let k23 ← xCalcK23 T p.a p.b vi vj wk wl B12 B16 B22 B26 B66
    let k31 ← xCalcK31 T p.a p.b wi wj uk ul B11 B12 B16 B26 B66
    let k32 ← xCalcK32 T p.a p.b wi wj vk vl B12 B16 B22 B26 B66
    let k33 ← xCalcK33 T p.a p.b wi wj wk wl D11 D12 D22 D16 D26 D66
    let g33 ← xCalcKG33 T p.a p.b wi wj wk wl p.Nxx p.Nyy p.Nxy
    return ({ k11, k12, k13, k21, k22, k23, k31, k32, k33, g33 } : XTen)
  let N := p.m * p.n
  let k11 ← xReshape N (ks.map XTen.k11)
  let k12 ← xReshape N (ks.map XTen.k12)
  let k13 ← xReshape N (ks.map XTen.k13)
  let k21 ← xReshape N (ks.map XTen.k21)
  let k22 ← xReshape N (ks.map XTen.k22)
  let _k23 ← xReshape N (ks.map XTen.k23)
  let k31 ← xReshape N (ks.map XTen.k31)
  let k32 ← xReshape N (ks.map XTen.k32)
  let k33 ← xReshape N (ks.map XTen.k33)
  let g33 ← xReshape N (ks.map XTen.g33)
  let K := xStack3 ![![k11, k12, k13], ![k21, k22, k31], ![k31, k32, k33]]
  let k00 : XSq N := fun _ _ => .fin 0
  let KG := xStack3 ![![k00, k00, k00], ![k00, k00, k00], ![k00, k00, g33]]
  return (K, KG)

/-! ## Laminates given by lamination parameters -/

/-- `A` of a laminate given by lamination parameters; isotropic materials have no `Invariants`  [property.py:180-197] -/
noncomputable def xLpA (m : OrthoMat PyFloat) (xi : Fin 4 → PyFloat) (T : PyFloat) : Except PyErr X3 := do
  let Q ← m.xQ0
  let U := xInvariants Q
  let h : PyFloat := .fin (1/2)
  let A11 := T ⊗ₓ (U 0 ⊕ₓ U 1 ⊗ₓ xi 0 ⊕ₓ U 2 ⊗ₓ xi 2)
  let A12 := T ⊗ₓ ((U 2).neg ⊗ₓ xi 2 ⊕ₓ U 3)
  let A13 := T ⊗ₓ (U 1 ⊗ₓ xi 1 ⊗ₓ h ⊕ₓ U 2 ⊗ₓ xi 3)
  let A21 := T ⊗ₓ ((U 2).neg ⊗ₓ xi 2 ⊕ₓ U 3)
  let A22 := T ⊗ₓ (U 0 ⊖ₓ U 1 ⊗ₓ xi 0 ⊕ₓ U 2 ⊗ₓ xi 2)
  let A23 := T ⊗ₓ (U 1 ⊗ₓ xi 1 ⊗ₓ h ⊖ₓ U 2 ⊗ₓ xi 3)
  let A31 := T ⊗ₓ (U 1 ⊗ₓ xi 1 ⊗ₓ h ⊕ₓ U 2 ⊗ₓ xi 3)
  let A32 := T ⊗ₓ (U 1 ⊗ₓ xi 1 ⊗ₓ h ⊖ₓ U 2 ⊗ₓ xi 3)
  let A33 := T ⊗ₓ ((U 2).neg ⊗ₓ xi 2 ⊕ₓ U 4)
  return ![![A11, A12, A13], ![A21, A22, A23], ![A31, A32, A33]]

/-- `D` of a laminate given by lamination parameters  [property.py:235-253].  Divisions by 2 and 12 are written as products (same value
for every float). -/
noncomputable def xLpD (m : OrthoMat PyFloat) (xi : Fin 4 → PyFloat) (T : PyFloat) : Except PyErr X3 := do
  let Q ← m.xQ0
  let U := xInvariants Q
  let h : PyFloat := .fin (1/2)
  let t : PyFloat := .fin (1/12)
  let D11 := T.pow 3 ⊗ₓ (U 0 ⊕ₓ U 1 ⊗ₓ xi 0 ⊕ₓ U 2 ⊗ₓ xi 2) ⊗ₓ t
  let D12 := T.pow 3 ⊗ₓ ((U 2).neg ⊗ₓ xi 2 ⊕ₓ U 3) ⊗ₓ t
  let D13 := T.pow 3 ⊗ₓ (U 1 ⊗ₓ xi 1 ⊗ₓ h ⊕ₓ U 2 ⊗ₓ xi 3) ⊗ₓ t
  let D21 := T.pow 3 ⊗ₓ ((U 2).neg ⊗ₓ xi 2 ⊕ₓ U 3) ⊗ₓ t
  let D22 := T.pow 3 ⊗ₓ (U 0 ⊖ₓ U 1 ⊗ₓ xi 0 ⊕ₓ U 2 ⊗ₓ xi 2) ⊗ₓ t
  let D23 := T.pow 3 ⊗ₓ (U 1 ⊗ₓ xi 1 ⊗ₓ h ⊖ₓ U 2 ⊗ₓ xi 3) ⊗ₓ t
  let D31 := T.pow 3 ⊗ₓ (U 1 ⊗ₓ xi 1 ⊗ₓ h ⊕ₓ U 2 ⊗ₓ xi 3) ⊗ₓ t
  let D32 := T.pow 3 ⊗ₓ (U 1 ⊗ₓ xi 1 ⊗ₓ h ⊖ₓ U 2 ⊗ₓ xi 3) ⊗ₓ t
  let D33 := T.pow 3 ⊗ₓ ((U 2).neg ⊗ₓ xi 2 ⊕ₓ U 4) ⊗ₓ t
  return ![![D11, D12, D13], ![D21, D22, D23], ![D31, D32, D33]]

/-! ## Lamination parameters of a stack -/

/-- The four trigonometric factors; those of NaN and infinity are NaN. [property.py:283-286, 300-303] -/
noncomputable def xXiTrig : PyFloat → Fin 4 → PyFloat
  | .fin theta => fun i => .fin (xiTerm theta i)
  | _ => fun _ => .nan

/-- The loop of `xiA`, `xiD`  [property.py:278-286, 295-303] -/
noncomputable def xXiLoop (w : PyFloat → PyFloat → PyFloat) (z angles : List PyFloat) : Except PyErr (Fin 4 → PyFloat) :=
  angles.zipIdx.foldlM (fun acc (a : PyFloat × Nat) => do
    let zk1 ← pyIdx z (a.2 + 1)
    let zk0 ← pyIdx z a.2
    return fun i => acc i ⊕ₓ w zk0 zk1 ⊗ₓ xXiTrig a.1 i) (fun _ => .fin 0)

/-- `T`  [property.py:277, 294] -/
noncomputable def xSumThickness (L : List (PyFloat × XMat)) : PyFloat := L.foldl (fun (T : PyFloat) p => T ⊕ₓ p.2.thickness) (.fin 0)

/-- `xiA` of a stack  [property.py:273-288] -/
noncomputable def xXiA (L : List (PyFloat × XMat)) : Except PyErr (Fin 4 → PyFloat) := do
  let z ← xZPosition L
  let v ← xXiLoop (fun zk0 zk1 => zk1 ⊖ₓ zk0) z (L.map Prod.fst)
  return fun i => xNpDiv (v i) (xSumThickness L)

/-- `xiD` of a stack  [property.py:290-304] -/
noncomputable def xXiD (L : List (PyFloat × XMat)) : Except PyErr (Fin 4 → PyFloat) := do
  let z ← xZPosition L
  let v ← xXiLoop (fun zk0 zk1 => zk1.pow 3 ⊖ₓ zk0.pow 3) z (L.map Prod.fst)
  return fun i => xNpDiv (.fin 4 ⊗ₓ v i) ((xSumThickness L).pow 3)

end Composipy
