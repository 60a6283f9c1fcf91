import Verif.Props.Energy

/-!
# C86: how far the computed matrices are from the energies of the plate

The shipped tables are exact only for shape numbers from 4 on.  For every other boundary condition the computed
matrices carry the rounding of the tables; here is how much of it, for all plates.
-/

namespace Composipy
open Polynomial Spec

/-! ## The exact integrals are at most `3/2` -/

/-- Scaled diagonal integrals, checked in the kernel. -/
theorem diag_check : (List.range 30).all (fun i =>
    let den : ℤ := shapeDen.getD i 0 * shapeDen.getD i 0 * momDen
    let p := shapeInt.getD i []
    decide (2 * dotZ p (shapeMom0.getD i []) ≤ 3 * den) &&
    decide (2 * dotZ (derivZ p) (shapeMom1.getD i []) ≤ 3 * den) &&
    decide (2 * dotZ (derivZ (derivZ p)) (shapeMom2.getD i []) ≤ 3 * den)) = true := by decide +kernel

/-- The mean square of a shape function or of one of its derivatives. -/
theorem diag_le {i : ℕ} (hi : i < 30) {d : ℝ[X] → ℝ[X]} {op : List ℤ → List ℤ} {mom : List ℤ}
    (hmom : mom = (List.range 30).map fun j => momZ (op (shapeInt.getD i [])) j) (hlen : ∀ l, (op l).length ≤ l.length)
    (hd : ∀ c l, d (C c * toPoly l) = C c * toPoly (op l))
    (hle : 2 * dotZ (op (shapeInt.getD i [])) mom ≤ 3 * ((shapeDen.getD i 0 * shapeDen.getD i 0 * momDen : ℕ) : ℤ)) :
    ∫ x in (-1 : ℝ)..1, (d (shape i)).eval x * (d (shape i)).eval x ≤ 3 / 2 := by
  obtain ⟨li, di, si⟩ := shape_int hi
  have h1 := pint_dotZ (op (shapeInt.getD i [])) (op (shapeInt.getD i [])) 0 30 ((hlen _).trans li)
    (by have := (hlen (shapeInt.getD i [])).trans li; omega)
  simp only [pow_zero, one_mul, Nat.zero_add, ← hmom] at h1
  have h2 : (∫ x in (-1 : ℝ)..1, (d (shape i)).eval x * (d (shape i)).eval x)
      = pint (C (1 / (shapeDen.getD i 0 : ℝ) * (1 / (shapeDen.getD i 0 : ℝ)))
          * (toPoly (op (shapeInt.getD i [])) * toPoly (op (shapeInt.getD i [])))) := by
    rw [si, hd, pint]
    congr 1
    funext x
    simp only [eval_mul, eval_C]
    ring
  have hden : (0 : ℝ) < (shapeDen.getD i 0 : ℝ) * shapeDen.getD i 0 * momDen :=
    mul_pos (mul_self_pos.mpr di) (lt_of_le_of_ne (Nat.cast_nonneg _) momDen_ne.symm)
  have hle' : 2 * (dotZ (op (shapeInt.getD i [])) mom : ℝ) ≤ 3 * ((shapeDen.getD i 0 : ℝ) * shapeDen.getD i 0 * momDen) := by
    exact_mod_cast hle
  rw [h2, pint_C_mul, h1]
  have e : 1 / (shapeDen.getD i 0 : ℝ) * (1 / (shapeDen.getD i 0 : ℝ)) * ((dotZ (op (shapeInt.getD i [])) mom : ℝ) / momDen)
      = dotZ (op (shapeInt.getD i [])) mom / ((shapeDen.getD i 0 : ℝ) * shapeDen.getD i 0 * momDen) := by
    have := momDen_ne
    field_simp
  rw [e, div_le_iff₀ hden]
  linarith

theorem diag_bounds {i : ℕ} (hi : i < 30) : exactV.ff i i ≤ 3 / 2 ∧ exactV.fxi_fxi i i ≤ 3 / 2 ∧
    exactV.fxixi_fxixi i i ≤ 3 / 2 := by
  have h := List.all_eq_true.mp diag_check i (by simpa using hi)
  simp only [Bool.and_eq_true, decide_eq_true_eq] at h
  obtain ⟨m0, m1, m2⟩ := mom_facts hi
  exact ⟨diag_le (d := id) (op := id) hi m0 (fun _ => le_rfl) (fun _ _ => rfl) (by exact_mod_cast h.1.1),
    diag_le (d := fun p => derivative p) hi m1 len1 d1_C (by exact_mod_cast h.1.2),
    diag_le (d := fun p => derivative (derivative p)) (op := fun l => derivZ (derivZ l)) hi m2 len2 d2_C
      (by exact_mod_cast h.2)⟩

/-- The mean product is at most the larger mean square. -/
theorem pair_le (p q : ℝ[X]) {B : ℝ} (hp : ∫ x in (-1 : ℝ)..1, p.eval x * p.eval x ≤ B)
    (hq : ∫ x in (-1 : ℝ)..1, q.eval x * q.eval x ≤ B) : |∫ x in (-1 : ℝ)..1, p.eval x * q.eval x| ≤ B := by
  have ii (r s : ℝ[X]) : IntervalIntegrable (fun x => r.eval x * s.eval x) MeasureTheory.volume (-1) 1 :=
    (r.continuous.mul s.continuous).intervalIntegrable _ _
  have hs (ε : ℝ) (hε : ε * ε = 1) : 0 ≤ (∫ x in (-1 : ℝ)..1, p.eval x * p.eval x)
      + 2 * ε * (∫ x in (-1 : ℝ)..1, p.eval x * q.eval x) + ∫ x in (-1 : ℝ)..1, q.eval x * q.eval x := by
    have h : 0 ≤ ∫ x in (-1 : ℝ)..1, (p.eval x * p.eval x + 2 * ε * (p.eval x * q.eval x) + q.eval x * q.eval x) := by
      refine intervalIntegral.integral_nonneg (by norm_num) fun x _ => ?_
      have : p.eval x * p.eval x + 2 * ε * (p.eval x * q.eval x) + q.eval x * q.eval x
          = (p.eval x + ε * q.eval x) ^ 2 := by linear_combination (-(q.eval x) ^ 2) * hε
      rw [this]
      positivity
    rwa [intervalIntegral.integral_add (((ii p p)).add ((ii p q).const_mul _)) (ii q q),
      intervalIntegral.integral_add (ii p p) ((ii p q).const_mul _), intervalIntegral.integral_const_mul] at h
  have h1 := hs 1 (by norm_num)
  have h2 := hs (-1) (by norm_num)
  rw [abs_le]
  constructor <;> linarith

/-- Tables within `1e-8` of each other, the second at most `3/2`. -/
structure Close (V W : ℕ → ℕ → ℝ) : Prop where
  near : ∀ i k, i < 30 → k < 30 → |V i k - W i k| ≤ 1e-8
  le : ∀ i k, i < 30 → k < 30 → |W i k| ≤ 3 / 2

theorem near_val {r : Except PyErr ℝ} {e : Prop} {I : ℝ} (h : Near r e I) : |readVal r - I| ≤ 1e-8 := by
  obtain ⟨q, rfl, hq, -⟩ := h
  exact hq

/-- The nine shipped tables. -/
theorem shipped_close : Close shippedV.ff exactV.ff ∧ Close shippedV.fxi_f exactV.fxi_f ∧
    Close shippedV.f_fxi exactV.f_fxi ∧ Close shippedV.fxi_fxi exactV.fxi_fxi ∧ Close shippedV.fxixi_f exactV.fxixi_f ∧
    Close shippedV.f_fxixi exactV.f_fxixi ∧ Close shippedV.fxixi_fxi exactV.fxixi_fxi ∧
    Close shippedV.fxi_fxixi exactV.fxi_fxixi ∧ Close shippedV.fxixi_fxixi exactV.fxixi_fxixi := by
  have b {i : ℕ} (hi : i < 30) := diag_bounds hi
  refine ⟨⟨fun i k hi hk => ?_, fun i k hi hk => ?_⟩, ⟨fun i k hi hk => ?_, fun i k hi hk => ?_⟩,
    ⟨fun i k hi hk => ?_, fun i k hi hk => ?_⟩, ⟨fun i k hi hk => ?_, fun i k hi hk => ?_⟩,
    ⟨fun i k hi hk => ?_, fun i k hi hk => ?_⟩, ⟨fun i k hi hk => ?_, fun i k hi hk => ?_⟩,
    ⟨fun i k hi hk => ?_, fun i k hi hk => ?_⟩, ⟨fun i k hi hk => ?_, fun i k hi hk => ?_⟩,
    ⟨fun i k hi hk => ?_, fun i k hi hk => ?_⟩⟩
  · exact near_val (C47_integrals i k hi hk).1
  · exact pair_le _ _ (b hi).1 (b hk).1
  · exact near_val (C47_integrals i k hi hk).2.1
  · exact pair_le _ _ (b hi).2.1 (b hk).1
  · exact near_val (C47_integrals i k hi hk).2.2.1
  · exact pair_le _ _ (b hi).1 (b hk).2.1
  · exact near_val (C47_integrals i k hi hk).2.2.2.1
  · exact pair_le _ _ (b hi).2.1 (b hk).2.1
  · exact near_val (C47_integrals i k hi hk).2.2.2.2.1
  · exact pair_le _ _ (b hi).2.2 (b hk).1
  · exact near_val (C47_integrals i k hi hk).2.2.2.2.2.1
  · exact pair_le _ _ (b hi).1 (b hk).2.2
  · exact near_val (C47_integrals i k hi hk).2.2.2.2.2.2.1
  · exact pair_le _ _ (b hi).2.2 (b hk).2.1
  · exact near_val (C47_integrals i k hi hk).2.2.2.2.2.2.2.1
  · exact pair_le _ _ (b hi).2.1 (b hk).2.2
  · exact near_val (C47_integrals i k hi hk).2.2.2.2.2.2.2.2
  · exact pair_le _ _ (b hi).2.2 (b hk).2.2

/-- Error of a product of two readings. -/
theorem Close.mul {V W V' W' : ℕ → ℕ → ℝ} (h : Close V W) (h' : Close V' W') {i k j l : ℕ} (hi : i < 30) (hk : k < 30)
    (hj : j < 30) (hl : l < 30) : |V i k * V' j l - W i k * W' j l| ≤ 4e-8 := by
  have a1 := h.near i k hi hk
  have a2 := h'.near j l hj hl
  have a3 := h.le i k hi hk
  have a4 := h'.le j l hj hl
  have e : V i k * V' j l - W i k * W' j l
      = (V i k - W i k) * (V' j l - W' j l) + (V i k - W i k) * W' j l + W i k * (V' j l - W' j l) := by ring
  rw [e]
  refine (abs_add_three _ _ _).trans ?_
  rw [abs_mul, abs_mul, abs_mul]
  have m1 := mul_le_mul a1 a2 (abs_nonneg _) (by norm_num)
  have m2 := mul_le_mul a1 a4 (abs_nonneg _) (by norm_num)
  have m3 := mul_le_mul a3 a2 (abs_nonneg _) (by norm_num)
  norm_num at m1 m2 m3 ⊢
  linarith

/-! ## The matrices -/

/-- Size of the bending stiffness of the plate, as a common bound of the six terms of the bending matrix. -/
noncomputable def Spec.bendSize (D : Matrix (Fin 3) (Fin 3) ℝ) (a b : ℝ) : ℝ :=
  4 * |b / a ^ 3| * |D 0 0| + 8 * |1 / (a * b)| * |D 1 0| + 4 * |a / b ^ 3| * |D 1 1| + 16 * |1 / a ^ 2| * |D 2 0|
    + 16 * |1 / b ^ 2| * |D 2 1| + 16 * |1 / (a * b)| * |D 2 2|

/-- Size of the loads. -/
noncomputable def Spec.loadSize (a b Nxx Nyy Nxy : ℝ) : ℝ := |b / a| * |Nxx| + |a / b| * |Nyy| + 2 * |Nxy|

theorem term_le {c e x y : ℝ} (h : |x - y| ≤ e) : |c * x - c * y| ≤ |c| * e := by
  rw [← mul_sub, abs_mul]
  exact mul_le_mul_of_nonneg_left h (abs_nonneg _)

theorem sum_le {x y x' y' e : ℝ} (h : |x - y| ≤ e) (h' : |x' - y'| ≤ e) : |(x + x') - (y + y')| ≤ 2 * e := by
  have : (x + x') - (y + y') = (x - y) + (x' - y') := by ring
  rw [this]
  have := abs_add_le (x - y) (x' - y')
  linarith

theorem k33v_close (a b : ℝ) (D : Matrix (Fin 3) (Fin 3) ℝ) {r c : ℕ × ℕ} (hr : r.1 < 30 ∧ r.2 < 30)
    (hc : c.1 < 30 ∧ c.2 < 30) : |k33v shippedV a b D r c - k33v exactV a b D r c| ≤ 4e-8 * bendSize D a b := by
  obtain ⟨ff, xf, fx, xx, xxf, fxx, xxx, x_xx, xxxx⟩ := shipped_close
  have m {V W V' W' : ℕ → ℕ → ℝ} (h : Close V W) (h' : Close V' W') := h.mul h' hr.1 hc.1 hr.2 hc.2
  have t1 := term_le (c := 4 * (b / a ^ 3) * D 0 0) (m xxxx ff)
  have t2 := term_le (c := 4 / (a * b) * D 1 0) (sum_le (m xxf fxx) (m fxx xxf))
  have t3 := term_le (c := 4 * (a / b ^ 3) * D 1 1) (m ff xxxx)
  have t4 := term_le (c := 8 / a ^ 2 * D 2 0) (sum_le (m xxx fx) (m x_xx xf))
  have t5 := term_le (c := 8 / b ^ 2 * D 2 1) (sum_le (m xf x_xx) (m fx xxx))
  have t6 := term_le (c := 16 / (a * b) * D 2 2) (m xx xx)
  rw [show (4 : ℝ) / (a * b) = 4 * (1 / (a * b)) by ring] at t2
  rw [show (8 : ℝ) / a ^ 2 = 8 * (1 / a ^ 2) by ring] at t4
  rw [show (8 : ℝ) / b ^ 2 = 8 * (1 / b ^ 2) by ring] at t5
  rw [show (16 : ℝ) / (a * b) = 16 * (1 / (a * b)) by ring] at t6
  simp only [abs_mul (_ * _) (D _ _), abs_mul (4 : ℝ), abs_mul (8 : ℝ), abs_mul (16 : ℝ), abs_of_pos (show (0 : ℝ) < 4 by norm_num),
    abs_of_pos (show (0 : ℝ) < 8 by norm_num), abs_of_pos (show (0 : ℝ) < 16 by norm_num)] at t1 t2 t3 t4 t5 t6
  unfold k33v
  rw [show (4 : ℝ) / (a * b) = 4 * (1 / (a * b)) by ring, show (8 : ℝ) / a ^ 2 = 8 * (1 / a ^ 2) by ring,
    show (8 : ℝ) / b ^ 2 = 8 * (1 / b ^ 2) by ring, show (16 : ℝ) / (a * b) = 16 * (1 / (a * b)) by ring]
  unfold bendSize
  rw [abs_le] at *
  constructor <;> linarith [t1.1, t1.2, t2.1, t2.2, t3.1, t3.2, t4.1, t4.2, t5.1, t5.2, t6.1, t6.2]

theorem g33v_close (a b Nxx Nyy Nxy : ℝ) {r c : ℕ × ℕ} (hr : r.1 < 30 ∧ r.2 < 30) (hc : c.1 < 30 ∧ c.2 < 30) :
    |g33v shippedV a b Nxx Nyy Nxy r c - g33v exactV a b Nxx Nyy Nxy r c| ≤ 4e-8 * loadSize a b Nxx Nyy Nxy := by
  obtain ⟨ff, xf, fx, xx, -⟩ := shipped_close
  have m {V W V' W' : ℕ → ℕ → ℝ} (h : Close V W) (h' : Close V' W') := h.mul h' hr.1 hc.1 hr.2 hc.2
  have t1 := term_le (c := Nxx * (b / a)) (m xx ff)
  have t2 := term_le (c := Nyy * (a / b)) (m ff xx)
  have t3 := term_le (c := Nxy) (sum_le (m fx xf) (m xf fx))
  rw [abs_mul] at t1 t2
  unfold g33v loadSize
  rw [abs_le] at *
  constructor <;> linarith [t1.1, t1.2, t2.1, t2.2, t3.1, t3.2]

/-- Quadratic forms of matrices that differ entrywise by at most `e`. -/
theorem quad_close {N : ℕ} {M M' : SqMat N} {e : ℝ} (h : ∀ r s, |M r s - M' r s| ≤ e) (c : Fin N → ℝ) :
    |c ⬝ᵥ M.mulVec c - c ⬝ᵥ M'.mulVec c| ≤ e * (∑ r, |c r|) ^ 2 := by
  rw [dot_mulVec_eq, dot_mulVec_eq, ← Finset.sum_sub_distrib]
  simp only [← Finset.sum_sub_distrib, ← mul_sub]
  calc |∑ r, ∑ s, c r * c s * (M r s - M' r s)| ≤ ∑ r, ∑ s, |c r| * |c s| * e := by
        refine (Finset.abs_sum_le_sum_abs _ _).trans (Finset.sum_le_sum fun r _ =>
          (Finset.abs_sum_le_sum_abs _ _).trans (Finset.sum_le_sum fun s _ => ?_))
        rw [abs_mul, abs_mul]
        exact mul_le_mul_of_nonneg_left (h r s) (by positivity)
    _ = e * (∑ r, |c r|) ^ 2 := by
        rw [pow_two, Finset.sum_mul_sum, Finset.mul_sum]
        refine Finset.sum_congr rfl fun r _ => ?_
        rw [Finset.mul_sum]
        exact Finset.sum_congr rfl fun s _ => by ring

/-- **C86** for every plate the library can compute, whatever its boundary conditions: the matrices it returns
give (twice) the bending energy and the work of the loads up to `4e-8` times the size of the plate's stiffness
(of its loads) and the square of the sum of the moduli of the coefficients. -/
theorem C86_energy_error (D : Matrix (Fin 3) (Fin 3) ℝ) (hD : D.IsSymm) (cs : Constraints) (p : PlateNum) (hm : 1 ≤ p.m)
    (hn : 1 ≤ p.n) {K KG : SqMat (p.m * p.n)} (h : calcKKGD shipped (.ok D) cs p = .ok (K, KG)) :
    ∃ s, computeIdx cs p.m p.n = .ok s ∧ ∀ c : Fin (p.m * p.n) → ℝ,
      |c ⬝ᵥ K.mulVec c - bendEnergy D p.a p.b (ritz p.a p.b s.w c)| ≤ 4e-8 * bendSize D p.a p.b * (∑ r, |c r|) ^ 2 ∧
      |c ⬝ᵥ KG.mulVec c - loadWork p.Nxx p.Nyy p.Nxy p.a p.b (ritz p.a p.b s.w c)|
        ≤ 4e-8 * loadSize p.a p.b p.Nxx p.Nyy p.Nxy * (∑ r, |c r|) ^ 2 := by
  obtain ⟨M, s, hM, hs, ha, hb, hr, rfl, rfl⟩ := calcKKGD_inv hm hn h
  obtain rfl : D = M := by injection hM
  have hlen := (C40_sizes cs _ _ s hs).2.2.len
  have hw (r : Fin (p.m * p.n)) : (s.w.getD r (0, 0)).1 < 30 ∧ (s.w.getD r (0, 0)).2 < 30 := by
    have hlt : (r : ℕ) < s.w.length := by rw [hlen]; exact r.2
    rw [List.getD_eq_getElem _ _ hlt]
    exact hr _ (List.getElem_mem hlt)
  refine ⟨s, hs, fun c => ⟨?_, ?_⟩⟩
  · rw [← kMat_energy ha hb D hD s.w _ c]
    exact quad_close (fun r q => k33v_close _ _ _ (hw r) (hw q)) c
  · rw [← gMat_work ha hb _ _ _ s.w _ c]
    exact quad_close (fun r q => g33v_close _ _ _ _ _ (hw r) (hw q)) c

/-- **C86** in particular the computed `K` is positive semidefinite up to that error, whatever the supports. -/
theorem C86_almost_nonneg (D : Matrix (Fin 3) (Fin 3) ℝ) (hD : D.PosSemidef) (cs : Constraints) (p : PlateNum) (hm : 1 ≤ p.m)
    (hn : 1 ≤ p.n) (ha : 0 ≤ p.a) (hb : 0 ≤ p.b) {K KG : SqMat (p.m * p.n)}
    (h : calcKKGD shipped (.ok D) cs p = .ok (K, KG)) (c : Fin (p.m * p.n) → ℝ) :
    -(4e-8 * bendSize D p.a p.b * (∑ r, |c r|) ^ 2) ≤ c ⬝ᵥ K.mulVec c := by
  have hsym : D.IsSymm := by
    have := hD.isHermitian
    rw [Matrix.IsHermitian, Matrix.conjTranspose_eq_transpose_of_trivial] at this
    exact this
  obtain ⟨s, hs, he⟩ := C86_energy_error D hsym cs p hm hn h
  have h1 := (abs_le.mp (he c).1).1
  have h2 : 0 ≤ bendEnergy D p.a p.b (ritz p.a p.b s.w c) := by
    refine intervalIntegral.integral_nonneg ha fun x _ => intervalIntegral.integral_nonneg hb fun y _ => ?_
    have := hD.dotProduct_mulVec_nonneg ![dX (dX (ritz p.a p.b s.w c)) x y, dY (dY (ritz p.a p.b s.w c)) x y,
      2 * dY (dX (ritz p.a p.b s.w c)) x y]
    simpa [bendDensity] using this
  linarith

/-- **C86** a buckled shape found from the computed matrices balances bending energy and work up to that error. -/
theorem C86_mode_balance (D : Matrix (Fin 3) (Fin 3) ℝ) (hD : D.IsSymm) (cs : Constraints) (p : PlateNum) (hm : 1 ≤ p.m)
    (hn : 1 ≤ p.n) {K KG : SqMat (p.m * p.n)} (h : calcKKGD shipped (.ok D) cs p = .ok (K, KG)) (lam : ℝ)
    (v : Fin (p.m * p.n) → ℝ) (hv : Buckles K KG lam v) :
    ∃ s, computeIdx cs p.m p.n = .ok s ∧
      |bendEnergy D p.a p.b (ritz p.a p.b s.w v) + lam * loadWork p.Nxx p.Nyy p.Nxy p.a p.b (ritz p.a p.b s.w v)|
        ≤ 4e-8 * (bendSize D p.a p.b + |lam| * loadSize p.a p.b p.Nxx p.Nyy p.Nxy) * (∑ r, |v r|) ^ 2 := by
  obtain ⟨s, hs, he⟩ := C86_energy_error D hD cs p hm hn h
  refine ⟨s, hs, ?_⟩
  obtain ⟨h1, h2⟩ := he v
  have h0 : v ⬝ᵥ K.mulVec v + lam * (v ⬝ᵥ KG.mulVec v) = 0 := by
    have := congrArg (fun u => v ⬝ᵥ u) hv.2
    simpa [Matrix.add_mulVec, Matrix.smul_mulVec, dotProduct_add, dotProduct_smul] using this
  set E := bendEnergy D p.a p.b (ritz p.a p.b s.w v)
  set W := loadWork p.Nxx p.Nyy p.Nxy p.a p.b (ritz p.a p.b s.w v)
  have e : E + lam * W = -((v ⬝ᵥ K.mulVec v - E) + lam * (v ⬝ᵥ KG.mulVec v - W)) := by linear_combination h0
  rw [e, abs_neg]
  refine (abs_add_le _ _).trans ?_
  rw [abs_mul]
  have := mul_le_mul_of_nonneg_left h2 (abs_nonneg lam)
  linarith

/-- **C86** the error is real: the shipped `ii_FF[(1, 1)]` is `0.0190476190476190`, the integral `2/105`. -/
theorem C86_not_exact : ii_ff (1, 1) = .ok 0.0190476190476190 ∧ exactV.ff 1 1 = 2 / 105 := by
  constructor
  · have h : textTerms (unpack ((text_FF.getD 1 []).getD 1 0)) = some [(190476190476190 / 10000000000000000, 0, 0)] := by decide +kernel
    have : evalAt text_FF (1, 1) = .ok (Terms.val 0 0 [(190476190476190 / 10000000000000000, 0, 0)]) := by
      rw [← pyEval_of_terms h]; rfl
    unfold ii_ff
    rw [this]
    simp [Terms.val, termVal]
    norm_num
  · have hs : shape 1 = C (1 / 8) - C (1 / 8) * X - C (1 / 8) * X ^ 2 + C (1 / 8) * X ^ 3 := by
      refine Polynomial.funext fun x => ?_
      simp only [shape, bardell, Polynomial.map_add, Polynomial.map_sub, Polynomial.map_neg, Polynomial.map_mul,
        Polynomial.map_pow, Polynomial.map_C, Polynomial.map_X, eval_add, eval_sub, eval_mul, eval_C, eval_X, eval_neg,
        eval_pow, eq_ratCast]
      norm_num
      try ring
    show ∫ x in (-1 : ℝ)..1, (shape 1).eval x * (shape 1).eval x = 2 / 105
    have e : ∀ x : ℝ, (shape 1).eval x * (shape 1).eval x
        = (1 / 64) * (1 - 2 * x - x ^ 2 + 4 * x ^ 3 - x ^ 4 - 2 * x ^ 5 + x ^ 6) := by
      intro x
      rw [hs]
      simp only [eval_add, eval_sub, eval_mul, eval_C, eval_X, eval_pow]
      ring
    simp only [e]
    rw [intervalIntegral.integral_const_mul]
    have hd : ∀ x ∈ Set.uIcc (-1 : ℝ) 1, HasDerivAt (fun x => x - x ^ 2 - x ^ 3 / 3 + x ^ 4 - x ^ 5 / 5 - x ^ 6 / 3 + x ^ 7 / 7)
        (1 - 2 * x - x ^ 2 + 4 * x ^ 3 - x ^ 4 - 2 * x ^ 5 + x ^ 6) x := by
      intro x _
      have p (n : ℕ) := hasDerivAt_pow n x
      have := ((((((hasDerivAt_id x).sub (p 2)).sub ((p 3).div_const 3)).add (p 4)).sub ((p 5).div_const 5)).sub
        ((p 6).div_const 3)).add ((p 7).div_const 7)
      exact this.congr_deriv (by norm_num; ring)
    rw [intervalIntegral.integral_eq_sub_of_hasDerivAt hd ((by fun_prop : Continuous fun x : ℝ =>
      1 - 2 * x - x ^ 2 + 4 * x ^ 3 - x ^ 4 - 2 * x ^ 5 + x ^ 6).intervalIntegrable _ _)]
    norm_num

/-- Non-vacuity for C86: the pinned plate is computed. -/
example (D : Matrix (Fin 3) (Fin 3) ℝ) : ∃ KK, calcKKGD shipped (.ok D) (.str wPINNED) ⟨2, 3, -1, 0, 0, 10, 10⟩ = .ok KK := by
  obtain ⟨s, hs⟩ := (C40_accepted_iff (.str wPINNED) 10 10).mpr ⟨_, rfl⟩
  exact (C51_computed_iff D (.str wPINNED) ⟨2, 3, -1, 0, 0, 10, 10⟩ s hs (by norm_num) (by norm_num)).1 fun q hq => by
    have := widx_range hs q hq
    omega

end Composipy
