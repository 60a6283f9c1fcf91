import Verif.Lemmas.Coupled
import Verif.Props.Energy

/-!
# C52, C65: the coupled stiffness matrix
-/

namespace Composipy
open Polynomial Spec MeasureTheory

/-! ## C52: bending block -/

/-- The bending block `ABD[3:, 3:]`. -/
def Spec.dBlock (M : Matrix (Fin 6) (Fin 6) ℝ) : Matrix (Fin 3) (Fin 3) ℝ :=
  !![M 3 3, M 3 4, M 3 5; M 4 3, M 4 4, M 4 5; M 5 3, M 5 4, M 5 5]

/-- **C52** whatever the tables: if `calc_K_KG_ABD` returns, then `calc_K_KG_D` returns for the bending block of the
same laminate, the `w`-`w` blocks are its matrices, and the geometric matrix vanishes outside that block. -/
theorem C52_bending_block (T : Readers) (M : Matrix (Fin 6) (Fin 6) ℝ) (c : Constraints) (p : PlateNum)
    (K KG : Matrix (I3 (p.m * p.n)) (I3 (p.m * p.n)) ℝ) (h : calcKKGABD T (.ok M) c p = .ok (K, KG)) :
    ∃ K3 KG3, calcKKGD T (.ok (dBlock M)) c p = .ok (K3, KG3) ∧
      (∀ r s, K (.inr (.inr r)) (.inr (.inr s)) = K3 r s ∧ KG (.inr (.inr r)) (.inr (.inr s)) = KG3 r s) ∧
      (∀ i j, (∀ r s, ¬ (i = .inr (.inr r) ∧ j = .inr (.inr s))) → KG i j = 0) := by
  rw [calcKKGABD_steps] at h
  cases hq : constraintQuads c p.m p.n with
  | error e => rw [hq] at h; cases h
  | ok q =>
  obtain ⟨U, V, W⟩ := q
  rw [hq, ok_bind] at h
  cases hk : loopABD T p M U V W with
  | error e => rw [hk] at h; cases h
  | ok ks =>
  rw [hk, ok_bind] at h
  -- the loop of `calc_K_KG_D`
  have hsmall := mapM_proj _ _ (fun i => do
    let (wi, wj, wk, wl) ← pyIdx W i
    let k ← calcK33 T p.a p.b wi wj wk wl (dBlock M 0 0) (dBlock M 1 0) (dBlock M 1 1) (dBlock M 2 0) (dBlock M 2 1) (dBlock M 2 2)
    let g ← calcKG33 T p.a p.b wi wj wk wl p.Nxx p.Nyy p.Nxy
    return (k, g)) (fun t : Ten => (t.k33, t.g33)) ks hk (by
    intro i y hy
    cases hu : pyIdx U i with
    | error e => simp only [hu, error_bind] at hy; cases hy
    | ok u =>
    cases hv : pyIdx V i with
    | error e => simp only [hu, hv, ok_bind, error_bind] at hy; cases hy
    | ok v =>
    cases hw : pyIdx W i with
    | error e => simp only [hu, hv, hw, ok_bind, error_bind] at hy; cases hy
    | ok w =>
    simp only [hu, hv, hw, ok_bind] at hy ⊢
    unfold stepABD at hy
    cases h11 : calcK11 T p.a p.b u.1 u.2.1 u.2.2.1 u.2.2.2 (M 0 0) (M 2 0) (M 2 2) with
    | error e => rw [h11] at hy; cases hy
    | ok k11 =>
    rw [h11, ok_bind] at hy
    cases h12 : calcK12 T p.a p.b u.1 u.2.1 v.2.2.1 v.2.2.2 (M 1 0) (M 2 0) (M 2 1) (M 2 2) with
    | error e => rw [h12] at hy; cases hy
    | ok k12 =>
    rw [h12, ok_bind] at hy
    cases h13 : calcK13 T p.a p.b u.1 u.2.1 w.2.2.1 w.2.2.2 (M 3 0) (M 4 0) (M 5 0) (M 5 1) (M 5 2) with
    | error e => rw [h13] at hy; cases hy
    | ok k13 =>
    rw [h13, ok_bind] at hy
    cases h21 : calcK21 T p.a p.b v.1 v.2.1 u.2.2.1 u.2.2.2 (M 1 0) (M 2 0) (M 2 1) (M 2 2) with
    | error e => rw [h21] at hy; cases hy
    | ok k21 =>
    rw [h21, ok_bind] at hy
    cases h22 : calcK22 T p.a p.b v.1 v.2.1 v.2.2.1 v.2.2.2 (M 1 1) (M 2 1) (M 2 2) with
    | error e => rw [h22] at hy; cases hy
    | ok k22 =>
    rw [h22, ok_bind] at hy
    cases h23 : calcK23 T p.a p.b v.1 v.2.1 w.2.2.1 w.2.2.2 (M 4 0) (M 5 0) (M 4 1) (M 5 1) (M 5 2) with
    | error e => rw [h23] at hy; cases hy
    | ok k23 =>
    rw [h23, ok_bind] at hy
    cases h31 : calcK31 T p.a p.b w.1 w.2.1 u.2.2.1 u.2.2.2 (M 3 0) (M 4 0) (M 5 0) (M 5 1) (M 5 2) with
    | error e => rw [h31] at hy; cases hy
    | ok k31 =>
    rw [h31, ok_bind] at hy
    cases h32 : calcK32 T p.a p.b w.1 w.2.1 v.2.2.1 v.2.2.2 (M 4 0) (M 5 0) (M 4 1) (M 5 1) (M 5 2) with
    | error e => rw [h32] at hy; cases hy
    | ok k32 =>
    rw [h32, ok_bind] at hy
    cases h33 : calcK33 T p.a p.b w.1 w.2.1 w.2.2.1 w.2.2.2 (M 3 3) (M 4 3) (M 4 4) (M 5 3) (M 5 4) (M 5 5) with
    | error e => rw [h33] at hy; cases hy
    | ok k33 =>
    rw [h33, ok_bind] at hy
    cases hg : calcKG33 T p.a p.b w.1 w.2.1 w.2.2.1 w.2.2.2 p.Nxx p.Nyy p.Nxy with
    | error e => rw [hg] at hy; cases hy
    | ok g =>
    rw [hg, ok_bind] at hy
    cases hy
    have h33' : calcK33 T p.a p.b w.1 w.2.1 w.2.2.1 w.2.2.2 (dBlock M 0 0) (dBlock M 1 0) (dBlock M 1 1) (dBlock M 2 0)
        (dBlock M 2 1) (dBlock M 2 2) = .ok k33 := h33
    simp only [h33', hg, ok_bind, pure_eq_ok])
  -- the reshapes
  have hlen : ks.length = p.m * p.n * (p.m * p.n) := by
    have hl : ∀ (L : List ℕ) (f : ℕ → Except PyErr Ten) (ys : List Ten), L.mapM f = .ok ys → ys.length = L.length := by
      intro L f ys hL
      have := mapM_proj L f (fun _ => .ok ()) (fun _ => ()) ys hL (fun _ _ _ => rfl)
      rw [mapM_ok L _ (fun _ => ()) (fun _ _ => rfl)] at this
      have := congrArg List.length (Except.ok.inj this)
      simpa using this.symm
    rw [hl _ _ _ hk, List.length_range]; ring
  have hre : ∀ f : Ten → ℝ, reshape (p.m * p.n) (ks.map f) = .ok fun r c => (ks.map f).getD (r * (p.m * p.n) + c) 0 := by
    intro f
    unfold reshape
    rw [if_pos (by rw [List.length_map, hlen])]
  simp only [assemble, hre, ok_bind, pure_eq_ok, Except.ok.injEq, Prod.mk.injEq] at h
  obtain ⟨rfl, rfl⟩ := h
  refine ⟨fun r c => (ks.map Ten.k33).getD (r * (p.m * p.n) + c) 0,
    fun r c => (ks.map Ten.g33).getD (r * (p.m * p.n) + c) 0, ?_, ?_, ?_⟩
  · unfold calcKKGD
    rw [hq]
    simp only [ok_bind]
    rw [hsmall]
    simp only [ok_bind, List.map_map, Function.comp_def, hre, pure_eq_ok]
    rfl
  · intro r s
    exact ⟨rfl, rfl⟩
  · intro i j hij
    rcases i with i | i | i <;> rcases j with j | j | j <;> first | rfl | exact absurd ⟨rfl, rfl⟩ (hij _ _)

/-- **C52** the coupled matrices can be computed for every plate of non-zero sides with `m, n ≤ 26`. -/
theorem C52_computed (M : Matrix (Fin 6) (Fin 6) ℝ) (c : Constraints) (p : PlateNum)
    (hc : ∃ s, computeIdx c p.m p.n = .ok s) (ha : p.a ≠ 0) (hb : p.b ≠ 0) (hm : p.m ≤ 26) (hn : p.n ≤ 26) :
    ∃ K, calcKKGABD shipped (.ok M) c p = .ok K := by
  obtain ⟨s, hs⟩ := hc
  obtain ⟨h1, h2, h3⟩ := idx_range hs
  refine ⟨_, calcKKGABD_ok shipped_ok M c p s hs ha hb ?_ ?_ ?_⟩
  · intro q hq; have := h1 q hq; omega
  · intro q hq; have := h2 q hq; omega
  · intro q hq; have := h3 q hq; omega

/-! ## C52: symmetry -/

/-- No bending-extension coupling. -/
def Spec.Uncoupled (M : Matrix (Fin 6) (Fin 6) ℝ) : Prop := ∀ i j : Fin 3, M (Fin.natAdd 3 i) (Fin.castAdd 3 j) = 0

theorem uncoupled_entries {M : Matrix (Fin 6) (Fin 6) ℝ} (h : Uncoupled M) :
    M 3 0 = 0 ∧ M 4 0 = 0 ∧ M 4 1 = 0 ∧ M 5 0 = 0 ∧ M 5 1 = 0 ∧ M 5 2 = 0 :=
  ⟨h 0 0, h 1 0, h 1 1, h 2 0, h 2 1, h 2 2⟩

/-- **C52** (partial: the full claim fails, see `C52_symmetric_false`) for laminates without bending-extension
coupling the coupled stiffness matrix is symmetric if the plate is square or `A16 = 0`. -/
theorem C52_symmetric_partial (M : Matrix (Fin 6) (Fin 6) ℝ) (hM : Uncoupled M) (c : Constraints) (p : PlateNum)
    (hsq : p.a = p.b ∨ M 2 0 = 0) (hc : ∃ s, computeIdx c p.m p.n = .ok s) (ha : p.a ≠ 0) (hb : p.b ≠ 0)
    (hm : p.m ≤ 26) (hn : p.n ≤ 26) (K KG : Matrix (I3 (p.m * p.n)) (I3 (p.m * p.n)) ℝ)
    (h : calcKKGABD shipped (.ok M) c p = .ok (K, KG)) : K.IsSymm ∧ KG.IsSymm := by
  obtain ⟨s, hs⟩ := hc
  obtain ⟨h1, h2, h3⟩ := idx_range hs
  rw [calcKKGABD_ok shipped_ok M c p s hs ha hb (fun q hq => by have := h1 q hq; omega)
    (fun q hq => by have := h2 q hq; omega) (fun q hq => by have := h3 q hq; omega)] at h
  obtain ⟨rfl, rfl⟩ := Prod.mk.inj (Except.ok.inj h)
  obtain ⟨z1, z2, z3, z4, z5, z6⟩ := uncoupled_entries hM
  have S := shippedV_sym
  have hA : M 2 0 * (p.a / p.b) = M 2 0 * (p.b / p.a) := by
    rcases hsq with h | h <;> rw [h]
    ring
  constructor
  · refine Matrix.IsSymm.ext fun i j => ?_
    rcases i with i | i | i <;> rcases j with j | j | j <;>
      simp only [kABD, stack3, Matrix.cons_val_zero, Matrix.cons_val_one, Matrix.cons_val, Matrix.of_apply, tenMat, tenV,
        z1, z2, z3, z4, z5, z6, mul_zero, zero_mul, sub_zero, neg_zero, hA]
    · set x := s.u.getD i (0, 0)
      set y := s.u.getD j (0, 0)
      rw [(S y.1 x.1).1, (S y.2 x.2).1, (S y.1 x.1).2.1, (S y.2 x.2).2.1,
        (S y.1 x.1).2.2.2.1, (S y.2 x.2).2.2.2.1, (S x.1 y.1).2.2.2.1, (S x.2 y.2).2.2.2.1]
      ring
    · set x := s.u.getD i (0, 0)
      set y := s.v.getD j (0, 0)
      rw [(S y.1 x.1).1, (S y.2 x.2).1, (S y.1 x.1).2.1, (S y.2 x.2).2.1,
        (S y.1 x.1).2.2.2.1, (S y.2 x.2).2.2.2.1, (S x.1 y.1).2.2.2.1, (S x.2 y.2).2.2.2.1]
    · set x := s.v.getD i (0, 0)
      set y := s.u.getD j (0, 0)
      rw [(S y.1 x.1).1, (S y.2 x.2).1, (S y.1 x.1).2.1, (S y.2 x.2).2.1,
        (S y.1 x.1).2.2.2.1, (S y.2 x.2).2.2.2.1, (S x.1 y.1).2.2.2.1, (S x.2 y.2).2.2.2.1]
    · set x := s.v.getD i (0, 0)
      set y := s.v.getD j (0, 0)
      rw [(S y.1 x.1).1, (S y.2 x.2).1, (S y.1 x.1).2.1, (S y.2 x.2).2.1,
        (S y.1 x.1).2.2.2.1, (S y.2 x.2).2.2.2.1, (S x.1 y.1).2.2.2.1, (S x.2 y.2).2.2.2.1]
      ring
    · simp only [k33v]
      set x := s.w.getD i (0, 0)
      set y := s.w.getD j (0, 0)
      rw [(S y.1 x.1).1, (S y.2 x.2).1, (S y.1 x.1).2.1, (S y.2 x.2).2.1, (S y.1 x.1).2.2.1, (S y.2 x.2).2.2.1,
        (S y.1 x.1).2.2.2.1, (S y.2 x.2).2.2.2.1, (S y.1 x.1).2.2.2.2.1, (S y.2 x.2).2.2.2.2.1,
        (S y.1 x.1).2.2.2.2.2, (S y.2 x.2).2.2.2.2.2,
        (S x.1 y.1).2.2.2.1, (S x.2 y.2).2.2.2.1, (S x.1 y.1).2.2.2.2.1, (S x.2 y.2).2.2.2.2.1,
        (S x.1 y.1).2.2.2.2.2, (S x.2 y.2).2.2.2.2.2]
      ring
  · refine Matrix.IsSymm.ext fun i j => ?_
    rcases i with i | i | i <;> rcases j with j | j | j <;>
      simp only [stack3, Matrix.cons_val_zero, Matrix.cons_val_one, Matrix.cons_val, Matrix.of_apply, tenMat, tenV,
        Matrix.zero_apply]
    simp only [g33v]
    set x := s.w.getD i (0, 0)
    set y := s.w.getD j (0, 0)
    rw [(S y.1 x.1).1, (S y.2 x.2).1, (S y.1 x.1).2.1, (S y.2 x.2).2.1,
      (S y.1 x.1).2.2.2.1, (S y.2 x.2).2.2.2.1, (S x.1 y.1).2.2.2.1, (S x.2 y.2).2.2.2.1]
    ring

/-! ### Counterexamples -/

theorem shape4 : shape 4 = C (1 / 8) * X ^ 4 - C (1 / 4) * X ^ 2 + C (1 / 8) := by
  rw [shape_rodrigues 4 le_rfl]
  have : (1 / (2 ^ (4 - 2) * ((4 - 2).factorial : ℝ))) = 1 / 8 := by norm_num [Nat.factorial]
  rw [this]
  simp only [show 4 - 4 = 0 from rfl, show 4 - 2 = 2 from rfl, Function.iterate_zero, id]
  have e : (C (1 / 4) : ℝ[X]) = C (1 / 8) * 2 := by
    rw [show (2 : ℝ[X]) = C 2 from rfl, ← C_mul]; norm_num
  rw [e]
  ring

theorem shape5 : shape 5 = C (1 / 8) * X ^ 5 - C (1 / 4) * X ^ 3 + C (1 / 8) * X := by
  rw [shape_rodrigues 5 (by norm_num)]
  have : (1 / (2 ^ (5 - 2) * ((5 - 2).factorial : ℝ))) = 1 / 48 := by norm_num [Nat.factorial]
  rw [this]
  simp only [show 5 - 4 = 1 from rfl, show 5 - 2 = 3 from rfl, Function.iterate_one, derivative_pow, derivative_sub,
    derivative_X_pow, derivative_X, derivative_one]
  have e1 : (C (1 / 4) : ℝ[X]) = C (1 / 48) * 12 := by
    rw [show (12 : ℝ[X]) = C 12 from rfl, ← C_mul]; norm_num
  have e2 : (C (1 / 8) : ℝ[X]) = C (1 / 48) * 6 := by
    rw [show (6 : ℝ[X]) = C 6 from rfl, ← C_mul]; norm_num
  rw [e1, e2]
  simp only [Nat.cast_ofNat, map_ofNat, Nat.add_one_sub_one]
  ring

theorem pint_mono (c : ℝ) (q : ℕ) : pint (C c * X ^ q) = c * (if q % 2 = 0 then 2 / ((q : ℝ) + 1) else 0) := by
  rw [pint_C_mul, pint_X_pow]

/-- The table entries of the smallest clamped discretisations. -/
theorem entry44 : exactV.fxi_fxi 4 4 = 4 / 105 ∧ exactV.ff 4 4 = 4 / 315 ∧ exactV.fxi_fxixi 4 5 = 2 / 35 := by
  have d4 : derivative (shape 4) = C (1 / 2) * X ^ 3 - C (1 / 2) * X ^ 1 := by
    rw [shape4]
    simp only [derivative_add, derivative_sub, derivative_C_mul, derivative_X_pow, derivative_C]
    have e1 : (C (1 / 2) : ℝ[X]) = C (1 / 8) * 4 := by
      rw [show (4 : ℝ[X]) = C 4 from rfl, ← C_mul]; norm_num
    have e2 : (C (1 / 4) : ℝ[X]) = C (1 / 8) * 2 := by
      rw [show (2 : ℝ[X]) = C 2 from rfl, ← C_mul]; norm_num
    rw [e1, e2]
    simp only [Nat.cast_ofNat, map_ofNat]
    ring
  have d5 : derivative (derivative (shape 5)) = C (5 / 2) * X ^ 3 - C (3 / 2) * X ^ 1 := by
    rw [shape5]
    simp only [derivative_add, derivative_sub, derivative_C_mul, derivative_X_pow, derivative_X, derivative_one, map_natCast,
      derivative_natCast_mul, mul_one, derivative_C, add_zero]
    have e1 : (C (5 / 2) : ℝ[X]) = C (1 / 8) * 20 := by
      rw [show (20 : ℝ[X]) = C 20 from rfl, ← C_mul]; norm_num
    have e2 : (C (3 / 2) : ℝ[X]) = C (1 / 4) * 6 := by
      rw [show (6 : ℝ[X]) = C 6 from rfl, ← C_mul]; norm_num
    rw [e1, e2]
    push_cast
    ring
  refine ⟨?_, ?_, ?_⟩
  · have : exactV.fxi_fxi 4 4 = pint (derivative (shape 4) * derivative (shape 4)) := by simp [exactV, pint]
    rw [this, d4]
    have : ((C (1 / 2) * X ^ 3 - C (1 / 2) * X ^ 1) * (C (1 / 2) * X ^ 3 - C (1 / 2) * X ^ 1) : ℝ[X])
        = C (1 / 2) * (C (1 / 2) * X ^ 6) - C (1 / 2) * (C 1 * X ^ 4) + C (1 / 2) * (C (1 / 2) * X ^ 2) := by
      have e : (C 1 : ℝ[X]) = C (1 / 2) * 2 := by
        rw [show (2 : ℝ[X]) = C 2 from rfl, ← C_mul]; norm_num
      rw [e]; ring
    rw [this, pint_add, pint_sub]
    simp only [pint_C_mul, pint_X_pow]
    norm_num
  · have : exactV.ff 4 4 = pint (shape 4 * shape 4) := by simp [exactV, pint]
    rw [this, shape4]
    have : ((C (1 / 8) * X ^ 4 - C (1 / 4) * X ^ 2 + C (1 / 8)) * (C (1 / 8) * X ^ 4 - C (1 / 4) * X ^ 2 + C (1 / 8)) : ℝ[X])
        = C (1 / 8) * (C (1 / 8) * X ^ 8) - C (1 / 8) * (C (1 / 2) * X ^ 6) + C (1 / 8) * (C (3 / 4) * X ^ 4)
          - C (1 / 8) * (C (1 / 2) * X ^ 2) + C (1 / 8) * (C (1 / 8) * X ^ 0) := by
      have e : (C (1 / 4) : ℝ[X]) = C (1 / 8) * 2 := by
        rw [show (2 : ℝ[X]) = C 2 from rfl, ← C_mul]; norm_num
      have e2 : (C (1 / 2) : ℝ[X]) = C (1 / 8) * 4 := by
        rw [show (4 : ℝ[X]) = C 4 from rfl, ← C_mul]; norm_num
      have e3 : (C (3 / 4) : ℝ[X]) = C (1 / 8) * 6 := by
        rw [show (6 : ℝ[X]) = C 6 from rfl, ← C_mul]; norm_num
      rw [e, e2, e3]; ring
    rw [this, pint_add, pint_sub, pint_add, pint_sub]
    simp only [pint_C_mul, pint_X_pow]
    norm_num
  · have : exactV.fxi_fxixi 4 5 = pint (derivative (shape 4) * derivative (derivative (shape 5))) := by simp [exactV, pint]
    rw [this, d4, d5]
    have : ((C (1 / 2) * X ^ 3 - C (1 / 2) * X ^ 1) * (C (5 / 2) * X ^ 3 - C (3 / 2) * X ^ 1) : ℝ[X])
        = C (1 / 2) * (C (5 / 2) * X ^ 6) - C (1 / 2) * (C 4 * X ^ 4) + C (1 / 2) * (C (3 / 2) * X ^ 2) := by
      have e : (C 4 : ℝ[X]) = C (5 / 2) + C (3 / 2) := by rw [← C_add]; norm_num
      rw [e]; ring
    rw [this, pint_add, pint_sub]
    simp only [pint_C_mul, pint_X_pow]
    norm_num

/-- The clamped index sets of all three displacements. -/
theorem clamped_idx_all (m n : ℕ) : ∃ s, computeIdx (.str wCLAMPED) m n = .ok s ∧
    s.u = (List.range' 4 m).product (List.range' 4 n) ∧ s.v = (List.range' 4 m).product (List.range' 4 n) ∧
    s.w = (List.range' 4 m).product (List.range' 4 n) := by
  let e : Edges := ⟨.flags clampedFlags, .flags clampedFlags, .flags clampedFlags, .flags clampedFlags⟩
  obtain ⟨i, hi, h1, h2, h3, h4, h5, h6⟩ := idxLists_ok e m n
  have first : ∀ (N : ℕ) (f : List Str), f = clampedFlags → ∀ t r, t ∈ f → r ∈ f →
      IsFirst N (Kept ((Edge.flags f).has t) ((Edge.flags f).has r) ((Edge.flags f).has t) ((Edge.flags f).has r))
        (List.range' 4 N) := by
    intro N f _ t r ht hr
    refine ⟨by simp, List.pairwise_lt_range', ?_, ?_⟩
    · intro i hi
      simp only [List.mem_range'_1] at hi
      simp only [Kept]
      refine ⟨?_, ?_, ?_, ?_⟩ <;> omega
    · intro i hi j hj hk
      simp only [Kept, Edge.has, List.contains_iff_mem, ht, hr, and_true] at hk
      simp only [List.mem_range'_1] at hi ⊢
      omega
  have e1 := h1.unique (first m clampedFlags rfl TX RX (by decide) (by decide))
  have e2 := h2.unique (first m clampedFlags rfl TY RY (by decide) (by decide))
  have e3 := h3.unique (first m clampedFlags rfl TZ RZ (by decide) (by decide))
  have e4 := h4.unique (first n clampedFlags rfl TX RX (by decide) (by decide))
  have hch : chooseEdges (.str wCLAMPED) = .ok e := rfl
  refine ⟨_, by unfold computeIdx; rw [hch]; simp only [ok_bind, hi]; rfl, ?_, ?_, ?_⟩
  · simp only [e1, e4]
  · simp only [h5, e2, e4]
  · simp only [h6, e3, e4]

/-- The coupled matrices of a clamped plate, with exact integrals. -/
theorem clamped_ABD (M : Matrix (Fin 6) (Fin 6) ℝ) (p : PlateNum) (ha : p.a ≠ 0) (hb : p.b ≠ 0)
    (hm : p.m ≤ 26) (hn : p.n ≤ 26) : ∃ s KG, calcKKGABD shipped (.ok M) (.str wCLAMPED) p = .ok (kABD exactV p M s, KG) ∧
      computeIdx (.str wCLAMPED) p.m p.n = .ok s ∧
      s.u = (List.range' 4 p.m).product (List.range' 4 p.n) ∧ s.v = (List.range' 4 p.m).product (List.range' 4 p.n) ∧
      s.w = (List.range' 4 p.m).product (List.range' 4 p.n) := by
  obtain ⟨s, hs, hu, hv, hw⟩ := clamped_idx_all p.m p.n
  have hr : ∀ q ∈ (List.range' 4 p.m).product (List.range' 4 p.n), (4 ≤ q.1 ∧ q.1 < 30) ∧ (4 ≤ q.2 ∧ q.2 < 30) := by
    intro q hq
    have := List.mem_product.mp (show (q.1, q.2) ∈ (List.range' 4 p.m) ×ˢ (List.range' 4 p.n) from hq)
    simp only [List.mem_range'_1] at this
    omega
  exact ⟨s, _, calcKKGABD_ok shipped_exact M _ p s hs ha hb (hu ▸ hr) (hv ▸ hr) (hw ▸ hr), hs, hu, hv, hw⟩

/-- Position of a pair in the clamped index set. -/
theorem clamped_pos (m n i j : ℕ) (hi : 4 ≤ i ∧ i < 4 + m) (hj : 4 ≤ j ∧ j < 4 + n) :
    ∃ r : Fin (m * n), ((List.range' 4 m).product (List.range' 4 n)).getD r (0, 0) = (i, j) := by
  have hmem : (i, j) ∈ (List.range' 4 m).product (List.range' 4 n) := by
    refine List.mem_product.mpr ⟨?_, ?_⟩ <;> simp only [List.mem_range'_1] <;> omega
  obtain ⟨k, hk, he⟩ := List.getElem_of_mem hmem
  have hlen : ((List.range' 4 m).product (List.range' 4 n)).length = m * n := by
    show ((List.range' 4 m) ×ˢ (List.range' 4 n)).length = _
    simp [List.length_product]
  exact ⟨⟨k, hlen ▸ hk⟩, by rw [List.getD_eq_getElem _ _ hk, he]⟩

/-- **C52** sharpness: for a clamped plate and a laminate without bending-extension coupling the stiffness matrix is
symmetric only if the plate is square or `A16 = 0`. -/
theorem C52_symmetric_iff (M : Matrix (Fin 6) (Fin 6) ℝ) (hM : Uncoupled M) (p : PlateNum) (ha : 0 < p.a) (hb : 0 < p.b)
    (hm : 1 ≤ p.m ∧ p.m ≤ 26) (hn : 1 ≤ p.n ∧ p.n ≤ 26) :
    ∃ K KG, calcKKGABD shipped (.ok M) (.str wCLAMPED) p = .ok (K, KG) ∧ (K.IsSymm ↔ p.a = p.b ∨ M 2 0 = 0) := by
  obtain ⟨s, KG, hK, hs, hu, hv, hw⟩ := clamped_ABD M p ha.ne' hb.ne' hm.2 hn.2
  refine ⟨_, KG, hK, fun hsym => ?_, fun h => (C52_symmetric_partial M hM _ p h ⟨s, hs⟩ ha.ne' hb.ne' hm.2 hn.2 _ _ hK).1⟩
  obtain ⟨r, hr⟩ := clamped_pos p.m p.n 4 4 (by omega) (by omega)
  have h := hsym.apply (.inl r) (.inr (.inl r))
  simp only [kABD, stack3, Matrix.cons_val_zero, Matrix.cons_val_one, Matrix.cons_val, Matrix.of_apply, tenMat, tenV, hu, hv,
    hr, entry44.1, entry44.2.1] at h
  have h2 : M 2 0 * (p.a / p.b - p.b / p.a) = 0 := by linear_combination (105 * 315 / 16) * h
  rcases mul_eq_zero.mp h2 with h3 | h3
  · exact Or.inr h3
  · left
    have h4 : p.a / p.b = p.b / p.a := sub_eq_zero.mp h3
    rw [div_eq_div_iff hb.ne' ha.ne'] at h4
    nlinarith

/-- **C52** refuted for coupled laminates: a clamped plate whose only coupling term is `B11 ≠ 0` never gets a symmetric
stiffness matrix (block (2,3) repeats `k31`, block (3,2) is `k32`). -/
theorem C52_coupled_false (M : Matrix (Fin 6) (Fin 6) ℝ) (h11 : M 3 0 ≠ 0)
    (h0 : M 4 0 = 0 ∧ M 4 1 = 0 ∧ M 5 0 = 0 ∧ M 5 1 = 0 ∧ M 5 2 = 0) (p : PlateNum) (ha : 0 < p.a) (hb : 0 < p.b)
    (hm : 2 ≤ p.m ∧ p.m ≤ 26) (hn : 1 ≤ p.n ∧ p.n ≤ 26) :
    ∃ K KG, calcKKGABD shipped (.ok M) (.str wCLAMPED) p = .ok (K, KG) ∧ ¬ K.IsSymm := by
  obtain ⟨s, KG, hK, hs, hu, hv, hw⟩ := clamped_ABD M p ha.ne' hb.ne' hm.2 hn.2
  refine ⟨_, KG, hK, fun hsym => ?_⟩
  obtain ⟨r, hr⟩ := clamped_pos p.m p.n 4 4 (by omega) (by omega)
  obtain ⟨c, hc⟩ := clamped_pos p.m p.n 5 4 (by omega) (by omega)
  obtain ⟨z1, z2, z3, z4, z5⟩ := h0
  have h := hsym.apply (.inr (.inl r)) (.inr (.inr c))
  simp only [kABD, stack3, Matrix.cons_val_zero, Matrix.cons_val_one, Matrix.cons_val, Matrix.of_apply, tenMat, tenV, hu, hv, hw,
    hr, hc, entry44.1, entry44.2.1, entry44.2.2, z1, z2, z3, z4, z5, mul_zero, zero_mul, sub_zero, neg_zero] at h
  have h1 : 2 * p.b / p.a ^ 2 * M 3 0 = 0 := by linear_combination (35 / 2 * (315 / 4)) * h
  exact absurd h1 (mul_ne_zero (by positivity) h11)

/-- **C52** the claim as stated fails: a symmetric `ABD` with an unsymmetric stiffness matrix. -/
theorem C52_symmetric_false : ¬ ∀ (M : Matrix (Fin 6) (Fin 6) ℝ) (p : PlateNum) (K KG : _), M.IsSymm → 0 < p.a → 0 < p.b →
    calcKKGABD shipped (.ok M) (.str wCLAMPED) p = .ok (K, KG) → K.IsSymm := by
  intro hall
  let M : Matrix (Fin 6) (Fin 6) ℝ := Matrix.of fun i j => if (i = 2 ∧ j = 0) ∨ (i = 0 ∧ j = 2) then 1 else 0
  have hM : M.IsSymm := by
    refine Matrix.IsSymm.ext fun i j => ?_
    simp only [M, Matrix.of_apply]
    congr 1
    simp only [eq_iff_iff]
    tauto
  have hU : Uncoupled M := by
    intro i j
    have h1 : Fin.natAdd 3 i ≠ (2 : Fin 6) := by intro h; have := congrArg Fin.val h; simp at this
    have h2 : Fin.natAdd 3 i ≠ (0 : Fin 6) := by intro h; have := congrArg Fin.val h; simp at this
    simp only [M, Matrix.of_apply]
    exact if_neg (by tauto)
  obtain ⟨K, KG, hK, hiff⟩ := C52_symmetric_iff M hU ⟨2, 1, 0, 0, 0, 1, 1⟩ (by norm_num) (by norm_num) (by norm_num) (by norm_num)
  have := hiff.mp (hall M _ K KG hM (by norm_num) (by norm_num) hK)
  rcases this with h | h
  · norm_num at h
  · simp [M] at h

end Composipy
