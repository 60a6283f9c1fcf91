import Verif.Model.Tables
import Verif.Model.Constraints
import Mathlib.Data.Matrix.Block

/-!
# Model of the stiffness matrices
[pre_integrated_component/build_k.py, core/structure.py:268-365]

Simplifications: `a`, `b`, the loads and the laminate matrices are finite reals (no rounding); `m`, `n`
are natural numbers.  The nine table readers are a parameter `T`, so that the code can be run on the
shipped tables (`shipped`) and on other tables.  `a` and `b` are Python floats, so `b/a` raises
`ZeroDivisionError` for `a = 0`.
-/

namespace Composipy

/-- The nine reader functions of `functions.py` used by `build_k.py`. -/
structure Readers where
  ff : ℕ × ℕ → Except PyErr ℝ
  fxi_f : ℕ × ℕ → Except PyErr ℝ
  f_fxi : ℕ × ℕ → Except PyErr ℝ
  fxi_fxi : ℕ × ℕ → Except PyErr ℝ
  fxixi_f : ℕ × ℕ → Except PyErr ℝ
  f_fxixi : ℕ × ℕ → Except PyErr ℝ
  fxixi_fxi : ℕ × ℕ → Except PyErr ℝ
  fxi_fxixi : ℕ × ℕ → Except PyErr ℝ
  fxixi_fxixi : ℕ × ℕ → Except PyErr ℝ

/-- The readers of the shipped tables. [functions.py:14-50] -/
noncomputable def shipped : Readers :=
  { ff := ii_ff, fxi_f := ii_fxi_f, f_fxi := ii_f_fxi, fxi_fxi := ii_fxi_fxi, fxixi_f := ii_fxixi_f,
    f_fxixi := ii_f_fxixi, fxixi_fxi := ii_fxixi_fxi, fxi_fxixi := ii_fxi_fxixi, fxixi_fxixi := ii_fxixi_fxixi }

/-- Product of two readings, left to right. -/
noncomputable def rmul (x y : Except PyErr ℝ) : Except PyErr ℝ := do
  let p ← x
  let q ← y
  return p * q

/-- `calc_K11_ijkl` [build_k.py:6-18] -/
noncomputable def calcK11 (T : Readers) (a b : ℝ) (ui uj uk ul : ℕ) (A11 A16 A66 : ℝ) : Except PyErr ℝ := do
  let ik := (ui, uk)
  let jl := (uj, ul)
  let uxi_uxi ← rmul (T.fxi_fxi ik) (T.ff jl)
  let uxi_ueta ← rmul (T.fxi_f ik) (T.f_fxi jl)
  let ueta_uxi ← rmul (T.f_fxi ik) (T.fxi_f jl)
  let ueta_ueta ← rmul (T.ff ik) (T.fxi_fxi jl)
  let d1 ← pyDiv b a
  let d2 ← pyDiv b a
  return A11 * d1 * uxi_uxi + A16 * (uxi_ueta + ueta_uxi) + A66 * d2 * ueta_ueta

/-- `calc_k12_ijkl` [build_k.py:21-35] -/
noncomputable def calcK12 (T : Readers) (a b : ℝ) (ui uj vk vl : ℕ) (A12 A16 A26 A66 : ℝ) : Except PyErr ℝ := do
  let ik := (ui, vk)
  let jl := (uj, vl)
  let uxi_veta ← rmul (T.fxi_f ik) (T.f_fxi jl)
  let uxi_vxi ← rmul (T.fxi_fxi ik) (T.ff jl)
  let ueta_veta ← rmul (T.ff ik) (T.fxi_fxi jl)
  let ueta_vxi ← rmul (T.f_fxi ik) (T.fxi_f jl)
  let d1 ← pyDiv b a
  let d2 ← pyDiv a b
  return A12 * uxi_veta + A16 * d1 * uxi_vxi + A26 * d2 * ueta_veta + A66 * ueta_vxi

/-- `calc_k13_ijkl` [build_k.py:38-58]; the unused `uxi_w`, `ueta_w` are read as well. -/
noncomputable def calcK13 (T : Readers) (a b : ℝ) (ui uj wk wl : ℕ) (B11 B12 B16 B26 B66 : ℝ) : Except PyErr ℝ := do
  let ik := (ui, wk)
  let jl := (uj, wl)
  let uxi_wxixi ← rmul (T.fxi_fxixi ik) (T.ff jl)
  let uxi_wetaeta ← rmul (T.fxi_f ik) (T.f_fxixi jl)
  let uxi_wxieta ← rmul (T.fxi_fxi ik) (T.f_fxi jl)
  let ueta_wxixi ← rmul (T.f_fxixi ik) (T.fxi_f jl)
  let ueta_wetaeta ← rmul (T.ff ik) (T.fxi_fxixi jl)
  let ueta_wxieta ← rmul (T.f_fxi ik) (T.fxi_fxi jl)
  let _uxi_w ← rmul (T.fxi_f ik) (T.ff jl)
  let _ueta_w ← rmul (T.ff ik) (T.fxi_f jl)
  let d1 ← pyDiv (2 * b) a
  let d2 ← pyDiv 2 b
  let d3 ← pyDiv 2 a
  let d4 ← pyDiv 2 (b ^ 2)
  let d5 ← pyDiv 4 b
  return -d1 * B11 * uxi_wxixi - d2 * B12 * uxi_wetaeta - d3 * B16 * (2 * uxi_wxieta + ueta_wxixi)
    - d4 * B26 * ueta_wetaeta - d5 * B66 * ueta_wxieta

/-- `calc_k21_ijkl` [build_k.py:61-75] -/
noncomputable def calcK21 (T : Readers) (a b : ℝ) (vi vj uk ul : ℕ) (A12 A16 A26 A66 : ℝ) : Except PyErr ℝ := do
  let ik := (vi, uk)
  let jl := (vj, ul)
  let veta_uxi ← rmul (T.f_fxi ik) (T.fxi_f jl)
  let vxi_uxi ← rmul (T.fxi_fxi ik) (T.ff jl)
  let veta_ueta ← rmul (T.ff ik) (T.fxi_fxi jl)
  let vxi_ueta ← rmul (T.fxi_f ik) (T.f_fxi jl)
  let d1 ← pyDiv a b
  let d2 ← pyDiv a b
  return A12 * veta_uxi + A16 * d1 * vxi_uxi + A26 * d2 * veta_ueta + A66 * vxi_ueta

/-- `calc_k22_ijkl` [build_k.py:78-91] -/
noncomputable def calcK22 (T : Readers) (a b : ℝ) (vi vj vk vl : ℕ) (A22 A26 A66 : ℝ) : Except PyErr ℝ := do
  let ik := (vi, vk)
  let jl := (vj, vl)
  let veta_veta ← rmul (T.ff ik) (T.fxi_fxi jl)
  let vxi_veta ← rmul (T.fxi_f ik) (T.f_fxi jl)
  let veta_vxi ← rmul (T.f_fxi ik) (T.fxi_f jl)
  let vxi_vxi ← rmul (T.fxi_fxi ik) (T.ff jl)
  let d1 ← pyDiv a b
  let d2 ← pyDiv b a
  return A22 * d1 * veta_veta + A26 * (vxi_veta + veta_vxi) + A66 * d2 * vxi_vxi

/-- `calc_k23_ijkl` [build_k.py:94-112] -/
noncomputable def calcK23 (T : Readers) (a b : ℝ) (vi vj wk wl : ℕ) (B12 B16 B22 B26 B66 : ℝ) : Except PyErr ℝ := do
  let ik := (vi, wk)
  let jl := (vj, wl)
  let veta_wxixi ← rmul (T.f_fxixi ik) (T.fxi_f jl)
  let vxi_wxixi ← rmul (T.fxi_fxixi ik) (T.ff jl)
  let veta_wetaeta ← rmul (T.ff ik) (T.fxi_fxixi jl)
  let vxi_wetaeta ← rmul (T.fxi_f ik) (T.f_fxixi jl)
  let veta_wxieta ← rmul (T.f_fxi ik) (T.fxi_fxi jl)
  let vxi_wxieta ← rmul (T.fxi_fxi ik) (T.f_fxi jl)
  let d1 ← pyDiv 2 a
  let d2 ← pyDiv (2 * b) (a ^ 2)
  let d3 ← pyDiv (2 * a) (b ^ 2)
  let d4 ← pyDiv 2 b
  let d5 ← pyDiv 4 a
  return -d1 * B12 * veta_wxixi - d2 * B16 * vxi_wxixi - d3 * B22 * veta_wetaeta
    - d4 * B26 * (vxi_wetaeta + 2 * veta_wxieta) - d5 * B66 * vxi_wxieta

/-- `calc_k31_ijkl` [build_k.py:115-133]; `wxixi_uxi` reads `ii_fxi_fxixi`. -/
noncomputable def calcK31 (T : Readers) (a b : ℝ) (wi wj uk ul : ℕ) (B11 B12 B16 B26 B66 : ℝ) : Except PyErr ℝ := do
  let ik := (wi, uk)
  let jl := (wj, ul)
  let wxixi_uxi ← rmul (T.fxi_fxixi ik) (T.ff jl)
  let wetaeta_uxi ← rmul (T.f_fxi ik) (T.fxixi_f jl)
  let wetaeta_ueta ← rmul (T.ff ik) (T.fxixi_fxi jl)
  let wxieta_ueta ← rmul (T.fxi_f ik) (T.fxi_fxi jl)
  let wxieta_uxi ← rmul (T.fxi_fxi ik) (T.fxi_f jl)
  let wxixi_ueta ← rmul (T.fxixi_f ik) (T.f_fxi jl)
  let d1 ← pyDiv (2 * b) (a ^ 2)
  let d2 ← pyDiv 2 b
  let d3 ← pyDiv (2 * a) (b ^ 2)
  let d4 ← pyDiv 4 b
  let d5 ← pyDiv 2 a
  return -d1 * B11 * wxixi_uxi - d2 * B12 * wetaeta_uxi - d3 * B26 * wetaeta_ueta
    - d4 * B66 * wxieta_ueta - d5 * B16 * (2 * wxieta_uxi + wxixi_ueta)

/-- `calc_k32_ijkl` [build_k.py:136-154] (the parameter `B11` is unused) -/
noncomputable def calcK32 (T : Readers) (a b : ℝ) (wi wj vk vl : ℕ) (B12 B16 B22 B26 B66 : ℝ) : Except PyErr ℝ := do
  let ik := (wi, vk)
  let jl := (wj, vl)
  let wxixi_veta ← rmul (T.fxixi_f ik) (T.f_fxi jl)
  let wetaeta_veta ← rmul (T.ff ik) (T.fxixi_fxi jl)
  let wxieta_vxi ← rmul (T.fxi_fxi ik) (T.fxi_f jl)
  let wetaeta_vxi ← rmul (T.f_fxi ik) (T.fxixi_f jl)
  let wxieta_veta ← rmul (T.fxi_f ik) (T.fxi_fxi jl)
  let wxixi_vxi ← rmul (T.fxixi_fxi ik) (T.ff jl)
  let d1 ← pyDiv 2 a
  let d2 ← pyDiv (2 * a) (b ^ 2)
  let d3 ← pyDiv 4 a
  let d4 ← pyDiv 2 b
  let d5 ← pyDiv (2 * b) (a ^ 2)
  return -d1 * B12 * wxixi_veta - d2 * B22 * wetaeta_veta - d3 * B66 * wxieta_vxi
    - d4 * B26 * (wetaeta_vxi + 2 * wxieta_veta) - d5 * B16 * wxixi_vxi

/-- `calc_k33_ijkl` [build_k.py:157-178] -/
noncomputable def calcK33 (T : Readers) (a b : ℝ) (wi wj wk wl : ℕ) (D11 D12 D22 D16 D26 D66 : ℝ) : Except PyErr ℝ := do
  let ik := (wi, wk)
  let jl := (wj, wl)
  let wxixi_wxixi ← rmul (T.fxixi_fxixi ik) (T.ff jl)
  let wxixi_wetaeta ← rmul (T.fxixi_f ik) (T.f_fxixi jl)
  let wetaeta_wxixi ← rmul (T.f_fxixi ik) (T.fxixi_f jl)
  let wetaeta_wetaeta ← rmul (T.ff ik) (T.fxixi_fxixi jl)
  let wxixi_wxieta ← rmul (T.fxixi_fxi ik) (T.f_fxi jl)
  let wxieta_wxixi ← rmul (T.fxi_fxixi ik) (T.fxi_f jl)
  let wxieta_wetaeta ← rmul (T.fxi_f ik) (T.fxi_fxixi jl)
  let wetaeta_wxieta ← rmul (T.f_fxi ik) (T.fxixi_fxi jl)
  let wxieta_wxieta ← rmul (T.fxi_fxi ik) (T.fxi_fxi jl)
  let d1 ← pyDiv b (a ^ 3)
  let d2 ← pyDiv 4 (a * b)
  let d3 ← pyDiv a (b ^ 3)
  let d4 ← pyDiv 8 (a ^ 2)
  let d5 ← pyDiv 8 (b ^ 2)
  let d6 ← pyDiv 16 (a * b)
  return 4 * d1 * D11 * wxixi_wxixi + d2 * D12 * (wxixi_wetaeta + wetaeta_wxixi) + 4 * d3 * D22 * wetaeta_wetaeta
    + d4 * D16 * (wxixi_wxieta + wxieta_wxixi) + d5 * D26 * (wxieta_wetaeta + wetaeta_wxieta) + d6 * D66 * wxieta_wxieta

/-- `calc_kG33_ijkl` [build_k.py:181-194] -/
noncomputable def calcKG33 (T : Readers) (a b : ℝ) (wi wj wk wl : ℕ) (Nxx Nyy Nxy : ℝ) : Except PyErr ℝ := do
  let ik := (wi, wk)
  let jl := (wj, wl)
  let wxi_wxi ← rmul (T.fxi_fxi ik) (T.ff jl)
  let weta_weta ← rmul (T.ff ik) (T.fxi_fxi jl)
  let weta_wxi ← rmul (T.f_fxi ik) (T.fxi_f jl)
  let wxi_weta ← rmul (T.fxi_f ik) (T.f_fxi jl)
  let d1 ← pyDiv b a
  let d2 ← pyDiv a b
  return Nxx * d1 * wxi_wxi + Nyy * d2 * weta_weta + Nxy * (weta_wxi + wxi_weta)

/-- Numeric data of a plate: sizes and loads. [structure.py:97-105] -/
structure PlateNum where
  a : ℝ
  b : ℝ
  Nxx : ℝ
  Nyy : ℝ
  Nxy : ℝ
  m : ℕ
  n : ℕ

/-- A matrix with `N` rows and columns. -/
abbrev SqMat (N : ℕ) := Matrix (Fin N) (Fin N) ℝ

/-- `np.array(l).reshape(N, N)`: row-major, `ValueError` for the wrong number of entries. -/
noncomputable def reshape (N : ℕ) (l : List ℝ) : Except PyErr (SqMat N) :=
  if l.length = N * N then .ok (fun r c => l.getD (r * N + c) 0) else .error .valueError

/-- The lists `uidx`, `vidx`, `widx` returned by `_compute_constraints`. [structure.py:257-265] -/
def constraintQuads (c : Constraints) (m n : ℕ) :
    Except PyErr (List (ℕ × ℕ × ℕ × ℕ) × List (ℕ × ℕ × ℕ × ℕ) × List (ℕ × ℕ × ℕ × ℕ)) := do
  let e ← chooseEdges c
  let i ← idxLists e m n
  return (quads i.um i.un, quads i.vm i.vn, quads i.wm i.wn)

/-- `calc_K_KG_D` [structure.py:333-365].  `D` is the outcome of reading `dproperty.D`; after the three
unpackings `D12`, `D16`, `D26` are the entries below the diagonal. -/
noncomputable def calcKKGD (T : Readers) (D : Except PyErr (Matrix (Fin 3) (Fin 3) ℝ)) (c : Constraints) (p : PlateNum) :
    Except PyErr (SqMat (p.m * p.n) × SqMat (p.m * p.n)) := do
  let D ← D
  let (_, _, widx) ← constraintQuads c p.m p.n
  let ks ← (List.range (p.m ^ 2 * p.n ^ 2)).mapM fun i => do
    let (wi, wj, wk, wl) ← pyIdx widx i
    let k ← calcK33 T p.a p.b wi wj wk wl (D 0 0) (D 1 0) (D 1 1) (D 2 0) (D 2 1) (D 2 2)
    let g ← calcKG33 T p.a p.b wi wj wk wl p.Nxx p.Nyy p.Nxy
    return (k, g)
  let K ← reshape (p.m * p.n) (ks.map Prod.fst)
  let KG ← reshape (p.m * p.n) (ks.map Prod.snd)
  return (K, KG)

/-- The ten entries computed for one loop index of `calc_K_KG_ABD`. -/
structure Ten where
  k11 : ℝ
  k12 : ℝ
  k13 : ℝ
  k21 : ℝ
  k22 : ℝ
  k23 : ℝ
  k31 : ℝ
  k32 : ℝ
  k33 : ℝ
  g33 : ℝ

/-- Three blocks of degrees of freedom. -/
abbrev I3 (N : ℕ) := Fin N ⊕ Fin N ⊕ Fin N

/-- `np.vstack` of three `np.hstack`s. -/
def stack3 {N : ℕ} (k : Fin 3 → Fin 3 → SqMat N) : Matrix (I3 N) (I3 N) ℝ := fun r c =>
  let num : I3 N → Fin 3 × Fin N := fun
    | .inl i => (0, i)
    | .inr (.inl i) => (1, i)
    | .inr (.inr i) => (2, i)
  k (num r).1 (num c).1 (num r).2 (num c).2

/-- `calc_K_KG_ABD` [structure.py:268-331].  `M` is the outcome of reading `dproperty.ABD`; after the six
unpackings every name is bound to the entry below the diagonal.  Row 2 of `K` repeats `k31`. -/
noncomputable def calcKKGABD (T : Readers) (M : Except PyErr (Matrix (Fin 6) (Fin 6) ℝ)) (c : Constraints) (p : PlateNum) :
    Except PyErr (Matrix (I3 (p.m * p.n)) (I3 (p.m * p.n)) ℝ × Matrix (I3 (p.m * p.n)) (I3 (p.m * p.n)) ℝ) := do
  let M ← M
  let A11 := M 0 0
  let A12 := M 1 0
  let A22 := M 1 1
  let A16 := M 2 0
  let A26 := M 2 1
  let A66 := M 2 2
  let B11 := M 3 0
  let B12 := M 4 0
  let B22 := M 4 1
  let B16 := M 5 0
  let B26 := M 5 1
  let B66 := M 5 2
  let D11 := M 3 3
  let D12 := M 4 3
  let D22 := M 4 4
  let D16 := M 5 3
  let D26 := M 5 4
  let D66 := M 5 5
  let (uidx, vidx, widx) ← constraintQuads c p.m p.n
  let ks ← (List.range (p.m ^ 2 * p.n ^ 2)).mapM fun i => do
    let (ui, uj, uk, ul) ← pyIdx uidx i
    let (vi, vj, vk, vl) ← pyIdx vidx i
    let (wi, wj, wk, wl) ← pyIdx widx i
    let k11 ← calcK11 T p.a p.b ui uj uk ul A11 A16 A66
    let k12 ← calcK12 T p.a p.b ui uj vk vl A12 A16 A26 A66
    let k13 ← calcK13 T p.a p.b ui uj wk wl B11 B12 B16 B26 B66
    let k21 ← calcK21 T p.a p.b vi vj uk ul A12 A16 A26 A66
    let k22 ← calcK22 T p.a p.b vi vj vk vl A22 A26 A66
    let k23 ← calcK23 T p.a p.b vi vj wk wl B12 B16 B22 B26 B66
    let k31 ← calcK31 T p.a p.b wi wj uk ul B11 B12 B16 B26 B66
    let k32 ← calcK32 T p.a p.b wi wj vk vl B12 B16 B22 B26 B66
    let k33 ← calcK33 T p.a p.b wi wj wk wl D11 D12 D22 D16 D26 D66
    let g33 ← calcKG33 T p.a p.b wi wj wk wl p.Nxx p.Nyy p.Nxy
    return ({ k11, k12, k13, k21, k22, k23, k31, k32, k33, g33 } : Ten)
  let N := p.m * p.n
  let k11 ← reshape N (ks.map Ten.k11)
  let k12 ← reshape N (ks.map Ten.k12)
  let k13 ← reshape N (ks.map Ten.k13)
  let k21 ← reshape N (ks.map Ten.k21)
  let k22 ← reshape N (ks.map Ten.k22)
  let _k23 ← reshape N (ks.map Ten.k23)
  let k31 ← reshape N (ks.map Ten.k31)
  let k32 ← reshape N (ks.map Ten.k32)
  let k33 ← reshape N (ks.map Ten.k33)
  let g33 ← reshape N (ks.map Ten.g33)
  let K := stack3 ![![k11, k12, k13], ![k21, k22, k31], ![k31, k32, k33]]
  let KG := stack3 ![![0, 0, 0], ![0, 0, 0], ![0, 0, g33]]
  return (K, KG)

end Composipy
