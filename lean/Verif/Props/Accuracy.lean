import Verif.Lemmas.TableClose
import Verif.Props.NavierLimit

/-!
# C100: the rounding of the shipped tables relative to the energies of a plate held along its edges

C86 bounds the rounding with the sum of the moduli of the coefficients.  Here it is compared with the bending energy and the work
themselves, so the buckling multipliers can be compared.
-/

namespace Composipy
open Polynomial Spec Matrix Real

variable {a b : ℝ}

/-! ## From lists of coefficients to arrays -/

/-- The coefficients as an array indexed by the two shape numbers. -/
def arr (w : List (ℕ × ℕ)) {N : ℕ} (c : Fin N → ℝ) (i j : ℕ) : ℝ := ∑ r : Fin N, if w.getD r (0, 0) = (i, j) then c r else 0

theorem arr_sum {I : Finset ℕ} {w : List (ℕ × ℕ)} {N : ℕ} (c : Fin N → ℝ)
    (hw : ∀ r : Fin N, (w.getD r (0, 0)).1 ∈ I ∧ (w.getD r (0, 0)).2 ∈ I) (F : ℕ → ℕ → ℝ) :
    ∑ i ∈ I, ∑ j ∈ I, arr w c i j * F i j = ∑ r, c r * F (w.getD r (0, 0)).1 (w.getD r (0, 0)).2 := by
  have e : ∀ i j, arr w c i j * F i j = ∑ r : Fin N, if w.getD r (0, 0) = (i, j) then c r * F i j else 0 := fun i j => by
    unfold arr
    rw [Finset.sum_mul]
    exact Finset.sum_congr rfl fun r _ => by split_ifs <;> simp
  simp only [e]
  rw [Finset.sum_congr rfl fun i _ => Finset.sum_comm, Finset.sum_comm]
  refine Finset.sum_congr rfl fun r _ => ?_
  rw [Finset.sum_eq_single_of_mem _ (hw r).1, Finset.sum_eq_single_of_mem _ (hw r).2]
  · rw [if_pos rfl]
  · intro j _ hj
    rw [if_neg fun h => hj (by rw [h])]
  · intro i _ hi
    exact Finset.sum_eq_zero fun j _ => if_neg fun h => hi (by rw [h])

/-- The quadratic form of a product of two tables over a list of shapes. -/
def pairForm (w : List (ℕ × ℕ)) {N : ℕ} (c : Fin N → ℝ) (V V' : ℕ → ℕ → ℝ) : ℝ :=
  ∑ r, ∑ s, c r * c s * (V (w.getD r (0, 0)).1 (w.getD s (0, 0)).1 * V' (w.getD r (0, 0)).2 (w.getD s (0, 0)).2)

theorem tform_arr {I : Finset ℕ} {w : List (ℕ × ℕ)} {N : ℕ} (c : Fin N → ℝ)
    (hw : ∀ r : Fin N, (w.getD r (0, 0)).1 ∈ I ∧ (w.getD r (0, 0)).2 ∈ I) (V V' : ℕ → ℕ → ℝ) :
    tform I V V' (arr w c) = pairForm w c V V' := by
  have e : tform I V V' (arr w c) = ∑ i ∈ I, ∑ j ∈ I, arr w c i j * ∑ k ∈ I, ∑ l ∈ I, arr w c k l * (V i k * V' j l) := by
    unfold tform form
    refine Finset.sum_congr rfl fun i _ => ?_
    simp only [Finset.mul_sum]
    rw [Finset.sum_comm]
    exact Finset.sum_congr rfl fun j _ => Finset.sum_congr rfl fun k _ => Finset.sum_congr rfl fun l _ => by ring
  rw [e, arr_sum c hw]
  unfold pairForm
  refine Finset.sum_congr rfl fun r _ => ?_
  rw [arr_sum c hw, Finset.mul_sum]
  exact Finset.sum_congr rfl fun s _ => by ring

/-- The form of the bending matrix, term by term. -/
theorem kMat_pair (V : RTables) (a b : ℝ) (D : M3) (w : List (ℕ × ℕ)) {N : ℕ} (c : Fin N → ℝ) :
    c ⬝ᵥ (kMat V a b D w N).mulVec c
      = 4 * (b / a ^ 3) * D 0 0 * pairForm w c V.fxixi_fxixi V.ff
        + 4 / (a * b) * D 1 0 * (pairForm w c V.fxixi_f V.f_fxixi + pairForm w c V.f_fxixi V.fxixi_f)
        + 4 * (a / b ^ 3) * D 1 1 * pairForm w c V.ff V.fxixi_fxixi
        + 8 / a ^ 2 * D 2 0 * (pairForm w c V.fxixi_fxi V.f_fxi + pairForm w c V.fxi_fxixi V.fxi_f)
        + 8 / b ^ 2 * D 2 1 * (pairForm w c V.fxi_f V.fxi_fxixi + pairForm w c V.f_fxi V.fxixi_fxi)
        + 16 / (a * b) * D 2 2 * pairForm w c V.fxi_fxi V.fxi_fxi := by
  rw [dot_mulVec_eq]
  simp only [pairForm, Finset.mul_sum, ← Finset.sum_add_distrib]
  refine Finset.sum_congr rfl fun r _ => Finset.sum_congr rfl fun s _ => ?_
  simp only [kMat, of_apply, k33v]
  ring

theorem gMat_pair (V : RTables) (a b x y t : ℝ) (w : List (ℕ × ℕ)) {N : ℕ} (c : Fin N → ℝ) :
    c ⬝ᵥ (gMat V a b x y t w N).mulVec c
      = x * (b / a) * pairForm w c V.fxi_fxi V.ff + y * (a / b) * pairForm w c V.ff V.fxi_fxi
        + t * (pairForm w c V.f_fxi V.fxi_f + pairForm w c V.fxi_f V.f_fxi) := by
  rw [dot_mulVec_eq]
  simp only [pairForm, Finset.mul_sum, ← Finset.sum_add_distrib]
  refine Finset.sum_congr rfl fun r _ => Finset.sum_congr rfl fun s _ => ?_
  simp only [gMat, of_apply, g33v]
  ring

/-! ## The mean squares of the curvatures -/

/-- `∬ w_xx^2`, `∬ w_yy^2` and `∬ (2 w_xy)^2` over the plate. -/
noncomputable def Spec.curvX (a b : ℝ) (w : ℝ → ℝ → ℝ) : ℝ := ∫ x in (0 : ℝ)..a, ∫ y in (0 : ℝ)..b, dX (dX w) x y ^ 2
@[inherit_doc Spec.curvX]
noncomputable def Spec.curvY (a b : ℝ) (w : ℝ → ℝ → ℝ) : ℝ := ∫ x in (0 : ℝ)..a, ∫ y in (0 : ℝ)..b, dY (dY w) x y ^ 2
@[inherit_doc Spec.curvX]
noncomputable def Spec.twistXY (a b : ℝ) (w : ℝ → ℝ → ℝ) : ℝ := ∫ x in (0 : ℝ)..a, ∫ y in (0 : ℝ)..b, (2 * dY (dX w) x y) ^ 2

/-- The sum of the six energy terms, each taken with its modulus. -/
noncomputable def Spec.bendMix (D : M3) (X Y Z : ℝ) : ℝ :=
  |D 0 0| * X + |D 1 1| * Y + |D 2 2| * Z + 2 * |D 1 0| * (√X * √Y) + 2 * |D 2 0| * (√X * √Z) + 2 * |D 2 1| * (√Y * √Z)

/-- The sum of the three terms of the work, each taken with its modulus. -/
noncomputable def Spec.loadMix (x y t X Y : ℝ) : ℝ := |x| * X + |y| * Y + 2 * |t| * (√X * √Y)

theorem energy_unit (ha : a ≠ 0) (hb : b ≠ 0) (w : List (ℕ × ℕ)) {N : ℕ} (c : Fin N → ℝ) :
    curvX a b (ritz a b w c) = 4 * (b / a ^ 3) * pairForm w c exactV.fxixi_fxixi exactV.ff ∧
    curvY a b (ritz a b w c) = 4 * (a / b ^ 3) * pairForm w c exactV.ff exactV.fxixi_fxixi ∧
    twistXY a b (ritz a b w c) = 16 / (a * b) * pairForm w c exactV.fxi_fxi exactV.fxi_fxi := by
  have key (i : Fin 3) : c ⬝ᵥ (kMat exactV a b (Matrix.diagonal (Pi.single i 1)) w N).mulVec c
      = bendEnergy (Matrix.diagonal (Pi.single i 1)) a b (ritz a b w c) :=
    kMat_energy ha hb _ (Matrix.isSymm_diagonal _) w N c
  refine ⟨?_, ?_, ?_⟩
  · have := key 0
    rw [kMat_pair] at this
    simp only [bendEnergy, bendDensity, dotProduct, Matrix.mulVec, Fin.sum_univ_three] at this
    simp [Matrix.diagonal] at this
    rw [curvX, this]
    simp only [pow_two]
  · have := key 1
    rw [kMat_pair] at this
    simp only [bendEnergy, bendDensity, dotProduct, Matrix.mulVec, Fin.sum_univ_three] at this
    simp [Matrix.diagonal] at this
    rw [curvY, this]
    simp only [pow_two]
  · have := key 2
    rw [kMat_pair] at this
    simp only [bendEnergy, bendDensity, dotProduct, Matrix.mulVec, Fin.sum_univ_three] at this
    simp [Matrix.diagonal] at this
    rw [twistXY, this]
    simp only [pow_two]

theorem work_unit (ha : a ≠ 0) (hb : b ≠ 0) (w : List (ℕ × ℕ)) {N : ℕ} (c : Fin N → ℝ) :
    slopeX a b (ritz a b w c) = b / a * pairForm w c exactV.fxi_fxi exactV.ff ∧
    slopeY a b (ritz a b w c) = a / b * pairForm w c exactV.ff exactV.fxi_fxi := by
  constructor
  · have := gMat_work ha hb 1 0 0 w N c
    rw [gMat_pair, loadWork_split] at this
    simp at this
    exact this.symm
  · have := gMat_work ha hb 0 1 0 w N c
    rw [gMat_pair, loadWork_split] at this
    simp at this
    exact this.symm

/-! ## Closeness of the forms -/

theorem exactV_pint : exactV.ff = (fun i k => pint (shape i * shape k)) ∧
    exactV.fxi_f = (fun i k => pint (derivative (shape i) * shape k)) ∧
    exactV.f_fxi = (fun i k => pint (shape i * derivative (shape k))) ∧
    exactV.fxi_fxi = (fun i k => pint (derivative (shape i) * derivative (shape k))) ∧
    exactV.fxixi_f = (fun i k => pint (derivative (derivative (shape i)) * shape k)) ∧
    exactV.f_fxixi = (fun i k => pint (shape i * derivative (derivative (shape k)))) ∧
    exactV.fxixi_fxi = (fun i k => pint (derivative (derivative (shape i)) * derivative (shape k))) ∧
    exactV.fxi_fxixi = (fun i k => pint (derivative (shape i) * derivative (derivative (shape k)))) ∧
    exactV.fxixi_fxixi = (fun i k => pint (derivative (derivative (shape i)) * derivative (derivative (shape k)))) := by
  simp only [pint_mul_eq]
  exact ⟨rfl, rfl, rfl, rfl, rfl, rfl, rfl, rfl, rfl⟩

theorem tform_nonneg {I : Finset ℕ} (u v : ℕ → ℝ[X]) (w : List (ℕ × ℕ)) {N : ℕ} (c : Fin N → ℝ)
    (hw : ∀ r : Fin N, (w.getD r (0, 0)).1 ∈ I ∧ (w.getD r (0, 0)).2 ∈ I) :
    pairForm w c (fun i k => pint (u i * u k)) (fun j l => pint (v j * v l)) = tnorm I u v (arr w c) :=
  (tform_arr c hw _ _).symm

theorem sqrt_pair {x y z : ℝ} (hx : 0 ≤ x) (hz : 0 ≤ z) (h : x * y = z ^ 2) : √x * √y = z := by
  rw [← Real.sqrt_mul hx, h, Real.sqrt_sq hz]

theorem abs_mul_le {k d ε s : ℝ} (hk : 0 ≤ k) (h : |d| ≤ ε * s) (D : ℝ) : |k * D * d| ≤ ε * (|D| * (k * s)) := by
  rw [abs_mul, abs_mul, abs_of_nonneg hk]
  have := mul_le_mul_of_nonneg_left h (mul_nonneg hk (abs_nonneg D))
  linarith

theorem bend_close {I : Finset ℕ} {δ : ℝ} {h0 h1 h2 : ℕ → ℝ} (hδ : 0 ≤ δ) (hT : TabClose I δ h0 h1 h2) (ha : 0 < a) (hb : 0 < b)
    (D : M3) (hD : D.IsSymm) (w : List (ℕ × ℕ)) {N : ℕ} (c : Fin N → ℝ)
    (hw : ∀ r : Fin N, (w.getD r (0, 0)).1 ∈ I ∧ (w.getD r (0, 0)).2 ∈ I) :
    |c ⬝ᵥ (kMat shippedV a b D w N).mulVec c - bendEnergy D a b (ritz a b w c)|
      ≤ (2 * δ + δ ^ 2) * bendMix D (curvX a b (ritz a b w c)) (curvY a b (ritz a b w c)) (twistXY a b (ritz a b w c)) := by
  obtain ⟨E0, E1, E2, E3, E4, E5, E6, E7, E8⟩ := exactV_pint
  obtain ⟨eX, eY, eZ⟩ := energy_unit ha.ne' hb.ne' w c
  have pX : 0 ≤ curvX a b (ritz a b w c) :=
    intervalIntegral.integral_nonneg ha.le fun _ _ => intervalIntegral.integral_nonneg hb.le fun _ _ => sq_nonneg _
  have pY : 0 ≤ curvY a b (ritz a b w c) :=
    intervalIntegral.integral_nonneg ha.le fun _ _ => intervalIntegral.integral_nonneg hb.le fun _ _ => sq_nonneg _
  have pZ : 0 ≤ twistXY a b (ritz a b w c) :=
    intervalIntegral.integral_nonneg ha.le fun _ _ => intervalIntegral.integral_nonneg hb.le fun _ _ => sq_nonneg _
  rw [eX] at pX
  rw [eY] at pY
  rw [eZ] at pZ
  rw [← kMat_energy ha.ne' hb.ne' D hD w N c, kMat_pair, kMat_pair, eX, eY, eZ]
  set ε := 2 * δ + δ ^ 2
  have t1 := tensor_close hT.c2 hT.c2 hT.c0 hT.c0 hδ hT.fxixi_fxixi hT.ff (arr w c)
  have t2 := tensor_close hT.c2 hT.c0 hT.c0 hT.c2 hδ hT.fxixi_f hT.f_fxixi (arr w c)
  have t2' := tensor_close hT.c0 hT.c2 hT.c2 hT.c0 hδ hT.f_fxixi hT.fxixi_f (arr w c)
  have t3 := tensor_close hT.c0 hT.c0 hT.c2 hT.c2 hδ hT.ff hT.fxixi_fxixi (arr w c)
  have t4 := tensor_close hT.c2 hT.c1 hT.c0 hT.c1 hδ hT.fxixi_fxi hT.f_fxi (arr w c)
  have t4' := tensor_close hT.c1 hT.c2 hT.c1 hT.c0 hδ hT.fxi_fxixi hT.fxi_f (arr w c)
  have t5 := tensor_close hT.c1 hT.c0 hT.c1 hT.c2 hδ hT.fxi_f hT.fxi_fxixi (arr w c)
  have t5' := tensor_close hT.c0 hT.c1 hT.c2 hT.c1 hδ hT.f_fxi hT.fxixi_fxi (arr w c)
  have t6 := tensor_close hT.c1 hT.c1 hT.c1 hT.c1 hδ hT.fxi_fxi hT.fxi_fxi (arr w c)
  simp only [tform_arr c hw] at t1 t2 t2' t3 t4 t4' t5 t5' t6
  simp only [E0, E1, E2, E3, E4, E5, E6, E7, E8]
  simp only [E0, E3, E8] at pX pY pZ
  simp only [tform_nonneg (I := I) (fun i => derivative (derivative (shape i))) (fun i => shape i) w c hw,
    tform_nonneg (I := I) (fun i => shape i) (fun i => derivative (derivative (shape i))) w c hw,
    tform_nonneg (I := I) (fun i => derivative (shape i)) (fun i => derivative (shape i)) w c hw] at t1 t3 t6 pX pY pZ ⊢
  have kx : 0 < 4 * (b / a ^ 3) := by positivity
  have ky : 0 < 4 * (a / b ^ 3) := by positivity
  have kz : 0 < 16 / (a * b) := by positivity
  have kxy : 0 < 4 / (a * b) := by positivity
  have kxz : 0 < 8 / a ^ 2 := by positivity
  have kyz : 0 < 8 / b ^ 2 := by positivity
  generalize tnorm I (fun i => derivative (derivative (shape i))) (fun i => shape i) (arr w c) = n1 at *
  generalize tnorm I (fun i => shape i) (fun i => derivative (derivative (shape i))) (arr w c) = n2 at *
  generalize tnorm I (fun i => derivative (shape i)) (fun i => derivative (shape i)) (arr w c) = n3 at *
  have q1 : 0 ≤ n1 := nonneg_of_mul_nonneg_right pX kx
  have q2 : 0 ≤ n2 := nonneg_of_mul_nonneg_right pY ky
  have q3 : 0 ≤ n3 := nonneg_of_mul_nonneg_right pZ kz
  have exy : √(4 * (b / a ^ 3) * n1) * √(4 * (a / b ^ 3) * n2) = 4 / (a * b) * (√n1 * √n2) := by
    rw [Real.sqrt_mul kx.le, Real.sqrt_mul ky.le, ← sqrt_pair (x := 4 * (b / a ^ 3)) (y := 4 * (a / b ^ 3)) kx.le kxy.le (by field_simp)]
    ring
  have exz : √(4 * (b / a ^ 3) * n1) * √(16 / (a * b) * n3) = 8 / a ^ 2 * (√n1 * √n3) := by
    rw [Real.sqrt_mul kx.le, Real.sqrt_mul kz.le, ← sqrt_pair (x := 4 * (b / a ^ 3)) (y := 16 / (a * b)) kx.le kxz.le
      (by field_simp; norm_num)]
    ring
  have eyz : √(4 * (a / b ^ 3) * n2) * √(16 / (a * b) * n3) = 8 / b ^ 2 * (√n2 * √n3) := by
    rw [Real.sqrt_mul ky.le, Real.sqrt_mul kz.le, ← sqrt_pair (x := 4 * (a / b ^ 3)) (y := 16 / (a * b)) ky.le kyz.le
      (by field_simp; norm_num)]
    ring
  rw [Real.mul_self_sqrt q1] at t1
  rw [Real.mul_self_sqrt q2] at t3
  rw [Real.mul_self_sqrt q3] at t6
  rw [mul_comm (√n2) (√n1)] at t2'
  rw [mul_comm (√n3) (√n1)] at t4'
  rw [mul_comm (√n3) (√n2)] at t5
  have u1 := abs_mul_le kx.le t1 (D 0 0)
  have u2 := abs_mul_le kxy.le t2 (D 1 0)
  have u2' := abs_mul_le kxy.le t2' (D 1 0)
  have u3 := abs_mul_le ky.le t3 (D 1 1)
  have u4 := abs_mul_le kxz.le t4 (D 2 0)
  have u4' := abs_mul_le kxz.le t4' (D 2 0)
  have u5 := abs_mul_le kyz.le t5 (D 2 1)
  have u5' := abs_mul_le kyz.le t5' (D 2 1)
  have u6 := abs_mul_le kz.le t6 (D 2 2)
  unfold bendMix
  rw [exy, exz, eyz]
  rw [abs_le] at *
  constructor <;> linarith [u1.1, u1.2, u2.1, u2.2, u2'.1, u2'.2, u3.1, u3.2, u4.1, u4.2, u4'.1, u4'.2, u5.1, u5.2, u5'.1, u5'.2, u6.1, u6.2]

theorem load_close {I : Finset ℕ} {δ : ℝ} {h0 h1 h2 : ℕ → ℝ} (hδ : 0 ≤ δ) (hT : TabClose I δ h0 h1 h2) (ha : 0 < a) (hb : 0 < b)
    (x y t : ℝ) (w : List (ℕ × ℕ)) {N : ℕ} (c : Fin N → ℝ)
    (hw : ∀ r : Fin N, (w.getD r (0, 0)).1 ∈ I ∧ (w.getD r (0, 0)).2 ∈ I) :
    |c ⬝ᵥ (gMat shippedV a b x y t w N).mulVec c - loadWork x y t a b (ritz a b w c)|
      ≤ (2 * δ + δ ^ 2) * loadMix x y t (slopeX a b (ritz a b w c)) (slopeY a b (ritz a b w c)) := by
  obtain ⟨E0, E1, E2, E3, -⟩ := exactV_pint
  obtain ⟨eX, eY⟩ := work_unit ha.ne' hb.ne' w c
  obtain ⟨pX, pY⟩ := slopes_nonneg ha hb (ritz a b w c)
  rw [eX] at pX
  rw [eY] at pY
  rw [← gMat_work ha.ne' hb.ne' x y t w N c, gMat_pair, gMat_pair, eX, eY]
  set ε := 2 * δ + δ ^ 2
  have t1 := tensor_close hT.c1 hT.c1 hT.c0 hT.c0 hδ hT.fxi_fxi hT.ff (arr w c)
  have t2 := tensor_close hT.c0 hT.c0 hT.c1 hT.c1 hδ hT.ff hT.fxi_fxi (arr w c)
  have t3 := tensor_close hT.c0 hT.c1 hT.c1 hT.c0 hδ hT.f_fxi hT.fxi_f (arr w c)
  have t3' := tensor_close hT.c1 hT.c0 hT.c0 hT.c1 hδ hT.fxi_f hT.f_fxi (arr w c)
  simp only [tform_arr c hw] at t1 t2 t3 t3'
  simp only [E0, E1, E2, E3]
  simp only [E0, E3] at pX pY
  simp only [tform_nonneg (I := I) (fun i => derivative (shape i)) (fun i => shape i) w c hw,
    tform_nonneg (I := I) (fun i => shape i) (fun i => derivative (shape i)) w c hw] at t1 t2 pX pY ⊢
  have kx : 0 < b / a := by positivity
  have ky : 0 < a / b := by positivity
  generalize tnorm I (fun i => derivative (shape i)) (fun i => shape i) (arr w c) = n1 at *
  generalize tnorm I (fun i => shape i) (fun i => derivative (shape i)) (arr w c) = n2 at *
  have q1 : 0 ≤ n1 := nonneg_of_mul_nonneg_right pX kx
  have q2 : 0 ≤ n2 := nonneg_of_mul_nonneg_right pY ky
  have exy : √(b / a * n1) * √(a / b * n2) = 1 * (√n1 * √n2) := by
    rw [Real.sqrt_mul kx.le, Real.sqrt_mul ky.le, ← sqrt_pair (x := b / a) (y := a / b) kx.le zero_le_one (by field_simp)]
    ring
  rw [Real.mul_self_sqrt q1] at t1
  rw [Real.mul_self_sqrt q2] at t2
  rw [mul_comm (√n2) (√n1)] at t3
  have u1 := abs_mul_le kx.le t1 x
  have u2 := abs_mul_le ky.le t2 y
  have u3 := abs_mul_le zero_le_one t3 t
  have u3' := abs_mul_le zero_le_one t3' t
  unfold loadMix
  rw [exy]
  rw [abs_le] at *
  constructor <;> linarith [u1.1, u1.2, u2.1, u2.2, u3.1, u3.2, u3'.1, u3'.2]


/-! ## C100 -/

/-- The relative accuracy of the shipped tables on plates held along their edges, by number of terms. -/
noncomputable def Spec.tableAcc (m n : ℕ) : ℝ := if m ≤ 10 ∧ n ≤ 10 then 3e-9 else if m ≤ 16 ∧ n ≤ 16 then 5e-7 else 5e-3

theorem tableAcc_pos (m n : ℕ) : 0 < tableAcc m n := by
  unfold tableAcc
  split_ifs <;> norm_num

theorem tables_of {cs : Constraints} {m n : ℕ} {s : ShapeIdx} (hs : computeIdx cs m n = .ok s)
    (h30 : ∀ q ∈ s.w, q.1 < 30 ∧ q.2 < 30) {e : Edges} (he : chooseEdges cs = .ok e) (hh : EdgesHeld e) :
    ∃ I δ h0 h1 h2, 0 ≤ δ ∧ TabClose I δ h0 h1 h2 ∧ 2 * δ + δ ^ 2 ≤ tableAcc m n ∧
      ∀ r : Fin (m * n), (s.w.getD r (0, 0)).1 ∈ I ∧ (s.w.getD r (0, 0)).2 ∈ I := by
  have hlen := (C40_sizes cs _ _ s hs).2.2.len
  have hmem (r : Fin (m * n)) : s.w.getD r (0, 0) ∈ s.w := by
    have hlt : (r : ℕ) < s.w.length := by rw [hlen]; exact r.2
    rw [List.getD_eq_getElem _ _ hlt]
    exact List.getElem_mem hlt
  have hz := held_endZero hs he hh
  have hr := widx_range hs
  have mk (B : ℕ) (hB : ∀ q ∈ s.w, q.1 < B ∧ q.2 < B) (r : Fin (m * n)) :
      (s.w.getD r (0, 0)).1 ∈ endSet B ∧ (s.w.getD r (0, 0)).2 ∈ endSet B := by
    have h1 := hB _ (hmem r)
    have h2 := hz _ (hmem r)
    exact ⟨mem_endSet.mpr ⟨h1.1, h2.1.1, h2.1.2⟩, mem_endSet.mpr ⟨h1.2, h2.2.1, h2.2.2⟩⟩
  unfold tableAcc
  split_ifs with c1 c2
  · obtain ⟨h0, h1, h2, h⟩ := tabClose_14
    exact ⟨_, _, h0, h1, h2, by norm_num, h, by norm_num, mk 14 fun q hq => by have := hr q hq; omega⟩
  · obtain ⟨h0, h1, h2, h⟩ := tabClose_20
    exact ⟨_, _, h0, h1, h2, by norm_num, h, by norm_num, mk 20 fun q hq => by have := hr q hq; omega⟩
  · obtain ⟨h0, h1, h2, h⟩ := tabClose_30
    exact ⟨_, _, h0, h1, h2, by norm_num, h, by norm_num, mk 30 h30⟩

theorem curv_nonneg (ha : 0 < a) (hb : 0 < b) (w : ℝ → ℝ → ℝ) : 0 ≤ curvX a b w ∧ 0 ≤ curvY a b w ∧ 0 ≤ twistXY a b w :=
  ⟨intervalIntegral.integral_nonneg ha.le fun _ _ => intervalIntegral.integral_nonneg hb.le fun _ _ => sq_nonneg _,
    intervalIntegral.integral_nonneg ha.le fun _ _ => intervalIntegral.integral_nonneg hb.le fun _ _ => sq_nonneg _,
    intervalIntegral.integral_nonneg ha.le fun _ _ => intervalIntegral.integral_nonneg hb.le fun _ _ => sq_nonneg _⟩

theorem bendMix_nonneg (D : M3) {X Y Z : ℝ} (hX : 0 ≤ X) (hY : 0 ≤ Y) (hZ : 0 ≤ Z) : 0 ≤ bendMix D X Y Z := by
  unfold bendMix
  positivity

theorem loadMix_nonneg (x y t : ℝ) {X Y : ℝ} (hX : 0 ≤ X) (hY : 0 ≤ Y) : 0 ≤ loadMix x y t X Y := by
  unfold loadMix
  positivity

/-- **C100** every plate whose four edges cannot deflect, with the tables as shipped: the matrices give the bending energy and the
work of the loads up to a relative error of `tableAcc` in each of their terms. -/
theorem C100_energy (D : M3) (hD : D.IsSymm) (cs : Constraints) (p : PlateNum) (ha : 0 < p.a) (hb : 0 < p.b) (hm : 1 ≤ p.m)
    (hn : 1 ≤ p.n) (e : Edges) (he : chooseEdges cs = .ok e) (hh : EdgesHeld e) (K KG : SqMat (p.m * p.n))
    (h : calcKKGD shipped (.ok D) cs p = .ok (K, KG)) (s : ShapeIdx) (hs : computeIdx cs p.m p.n = .ok s)
    (c : Fin (p.m * p.n) → ℝ) :
    let w := ritz p.a p.b s.w c
    |c ⬝ᵥ K.mulVec c - bendEnergy D p.a p.b w|
      ≤ tableAcc p.m p.n * bendMix D (curvX p.a p.b w) (curvY p.a p.b w) (twistXY p.a p.b w) ∧
    |c ⬝ᵥ KG.mulVec c - loadWork p.Nxx p.Nyy p.Nxy p.a p.b w|
      ≤ tableAcc p.m p.n * loadMix p.Nxx p.Nyy p.Nxy (slopeX p.a p.b w) (slopeY p.a p.b w) := by
  obtain ⟨M, s', hM, hs', -, -, hr, rfl, rfl⟩ := calcKKGD_inv hm hn h
  obtain rfl : D = M := by injection hM
  obtain rfl : s = s' := Except.ok.inj (hs.symm.trans hs')
  obtain ⟨I, δ, h0, h1, h2, hδ, hT, hacc, hw⟩ := tables_of hs hr he hh
  obtain ⟨cX, cY, cZ⟩ := curv_nonneg ha hb (ritz p.a p.b s.w c)
  obtain ⟨sX, sY⟩ := slopes_nonneg ha hb (ritz p.a p.b s.w c)
  exact ⟨(bend_close hδ hT ha hb D hD s.w c hw).trans (mul_le_mul_of_nonneg_right hacc (bendMix_nonneg D cX cY cZ)),
    (load_close hδ hT ha hb p.Nxx p.Nyy p.Nxy s.w c hw).trans (mul_le_mul_of_nonneg_right hacc (loadMix_nonneg _ _ _ sX sY))⟩

/-- The stiffness is at least `mu` in every direction and its entries are at most `M`. -/
structure Spec.Between (D : M3) (mu M : ℝ) : Prop where
  symm : D.IsSymm
  low : (D - mu • (1 : M3)).PosSemidef
  pos : 0 < mu
  up : ∀ i j, |D i j| ≤ M

theorem Spec.Between.posDef {D : M3} {mu M : ℝ} (h : Between D mu M) : D.PosDef := by
  have h1 : (mu • (1 : M3)).PosDef := Matrix.PosDef.one.smul h.pos
  have := h1.add_posSemidef h.low
  rwa [add_sub_cancel] at this

theorem Spec.Between.M_nonneg {D : M3} {mu M : ℝ} (h : Between D mu M) : 0 ≤ M := (abs_nonneg _).trans (h.up 0 0)

theorem energy_ge_curv (ha : 0 < a) (hb : 0 < b) {D : M3} {mu M : ℝ} (h : Between D mu M) (w : List (ℕ × ℕ)) {N : ℕ} (c : Fin N → ℝ) :
    mu * (curvX a b (ritz a b w c) + curvY a b (ritz a b w c) + twistXY a b (ritz a b w c)) ≤ bendEnergy D a b (ritz a b w c) := by
  have k0 := kMat_nonneg h.low ha hb w c
  rw [kMat_energy ha.ne' hb.ne' _ (by
    have := h.low.isHermitian
    rwa [Matrix.IsHermitian, Matrix.conjTranspose_eq_transpose_of_trivial] at this) w N c] at k0
  obtain ⟨eX, eY, eZ⟩ := energy_unit ha.ne' hb.ne' w c
  have e : bendEnergy (D - mu • (1 : M3)) a b (ritz a b w c) = bendEnergy D a b (ritz a b w c)
      - mu * (curvX a b (ritz a b w c) + curvY a b (ritz a b w c) + twistXY a b (ritz a b w c)) := by
    rw [← kMat_energy ha.ne' hb.ne' _ (h.symm.sub (Matrix.isSymm_one.smul mu)), ← kMat_energy ha.ne' hb.ne' _ h.symm, kMat_pair, kMat_pair,
      eX, eY, eZ]
    simp
    ring
  rw [e] at k0
  linarith

theorem bendMix_le {D : M3} {M : ℝ} (h : ∀ i j, |D i j| ≤ M) {X Y Z : ℝ} (hX : 0 ≤ X) (hY : 0 ≤ Y) (hZ : 0 ≤ Z) :
    bendMix D X Y Z ≤ 3 * M * (X + Y + Z) := by
  have hM : 0 ≤ M := (abs_nonneg _).trans (h 0 0)
  have sx := Real.mul_self_sqrt hX
  have sy := Real.mul_self_sqrt hY
  have sz := Real.mul_self_sqrt hZ
  have px := Real.sqrt_nonneg X
  have py := Real.sqrt_nonneg Y
  have pz := Real.sqrt_nonneg Z
  unfold bendMix
  have t1 := mul_le_mul_of_nonneg_right (h 0 0) hX
  have t2 := mul_le_mul_of_nonneg_right (h 1 1) hY
  have t3 := mul_le_mul_of_nonneg_right (h 2 2) hZ
  have t4 := mul_le_mul_of_nonneg_right (h 1 0) (mul_nonneg px py)
  have t5 := mul_le_mul_of_nonneg_right (h 2 0) (mul_nonneg px pz)
  have t6 := mul_le_mul_of_nonneg_right (h 2 1) (mul_nonneg py pz)
  have u1 := mul_nonneg hM (sq_nonneg (√X - √Y))
  have u2 := mul_nonneg hM (sq_nonneg (√X - √Z))
  have u3 := mul_nonneg hM (sq_nonneg (√Y - √Z))
  have v1 : M * (√X - √Y) ^ 2 = M * X + M * Y - 2 * (M * (√X * √Y)) := by linear_combination M * sx + M * sy
  have v2 : M * (√X - √Z) ^ 2 = M * X + M * Z - 2 * (M * (√X * √Z)) := by linear_combination M * sx + M * sz
  have v3 : M * (√Y - √Z) ^ 2 = M * Y + M * Z - 2 * (M * (√Y * √Z)) := by linear_combination M * sy + M * sz
  linarith

/-- The relative error of the bending energy. -/
noncomputable def Spec.bendErr (p : PlateNum) (mu M : ℝ) : ℝ := 3 * tableAcc p.m p.n * M / mu

/-- **C100** relative to the bending energy: the error is at most `3 M / mu` times the accuracy of the tables, whatever the sides. -/
theorem C100_relative (D : M3) (mu M : ℝ) (hD : Between D mu M) (cs : Constraints) (p : PlateNum) (ha : 0 < p.a) (hb : 0 < p.b)
    (hm : 1 ≤ p.m) (hn : 1 ≤ p.n) (e : Edges) (he : chooseEdges cs = .ok e) (hh : EdgesHeld e) (K KG : SqMat (p.m * p.n))
    (h : calcKKGD shipped (.ok D) cs p = .ok (K, KG)) (s : ShapeIdx) (hs : computeIdx cs p.m p.n = .ok s)
    (c : Fin (p.m * p.n) → ℝ) :
    |c ⬝ᵥ K.mulVec c - bendEnergy D p.a p.b (ritz p.a p.b s.w c)| ≤ bendErr p mu M * bendEnergy D p.a p.b (ritz p.a p.b s.w c) := by
  have h1 := (C100_energy D hD.symm cs p ha hb hm hn e he hh K KG h s hs c).1
  obtain ⟨cX, cY, cZ⟩ := curv_nonneg ha hb (ritz p.a p.b s.w c)
  have h2 := bendMix_le hD.up cX cY cZ
  have h3 := energy_ge_curv ha hb hD s.w c
  have hacc := tableAcc_pos p.m p.n
  refine h1.trans ?_
  have h4 := mul_le_mul_of_nonneg_left h2 hacc.le
  have h5 := mul_le_mul_of_nonneg_left h3 (show 0 ≤ bendErr p mu M by
    have := hD.pos
    have := hD.M_nonneg
    unfold bendErr
    positivity)
  refine h4.trans (le_trans (le_of_eq ?_) h5)
  have := hD.pos.ne'
  unfold bendErr
  field_simp

/-- **C100** without shear and under compression the work is given with the relative accuracy of the tables. -/
theorem C100_work (D : M3) (hD : D.IsSymm) (cs : Constraints) (p : PlateNum) (ha : 0 < p.a) (hb : 0 < p.b) (hm : 1 ≤ p.m)
    (hn : 1 ≤ p.n) (e : Edges) (he : chooseEdges cs = .ok e) (hh : EdgesHeld e) (hx : p.Nxx ≤ 0) (hy : p.Nyy ≤ 0) (hxy : p.Nxy = 0)
    (K KG : SqMat (p.m * p.n)) (h : calcKKGD shipped (.ok D) cs p = .ok (K, KG)) (s : ShapeIdx)
    (hs : computeIdx cs p.m p.n = .ok s) (c : Fin (p.m * p.n) → ℝ) :
    |c ⬝ᵥ KG.mulVec c - loadWork p.Nxx p.Nyy p.Nxy p.a p.b (ritz p.a p.b s.w c)|
      ≤ tableAcc p.m p.n * -loadWork p.Nxx p.Nyy p.Nxy p.a p.b (ritz p.a p.b s.w c) := by
  have h1 := (C100_energy D hD cs p ha hb hm hn e he hh K KG h s hs c).2
  refine h1.trans (le_of_eq ?_)
  rw [hxy, loadWork_split, loadMix, abs_of_nonpos hx, abs_of_nonpos hy]
  rw [abs_zero]
  ring

/-- **C100** the computed bending matrix is positive definite as long as the stiffness is not too ill conditioned. -/
theorem C100_posDef (D : M3) (mu M : ℝ) (hD : Between D mu M) (cs : Constraints) (p : PlateNum) (ha : 0 < p.a) (hb : 0 < p.b)
    (hm : 1 ≤ p.m) (hn : 1 ≤ p.n) (e : Edges) (he : chooseEdges cs = .ok e) (hh : EdgesHeld e) (hcond : bendErr p mu M < 1)
    (K KG : SqMat (p.m * p.n)) (h : calcKKGD shipped (.ok D) cs p = .ok (K, KG)) : K.PosDef := by
  obtain ⟨s, hs⟩ := (C40_accepted_iff cs p.m p.n).mpr ⟨_, he⟩
  refine posDef_of_pos (C48_symmetric _ _ p hm hn K KG h).1 fun c hc => ?_
  have h1 := (abs_le.mp (C100_relative D mu M hD cs p ha hb hm hn e he hh K KG h s hs c)).1
  have h2 := C87_supported D hD.posDef cs p ha hb s hs e he (.inl (.inl ⟨hh.1, .inr (.inl hh.2.1)⟩)) c hc
  nlinarith

/-- Two pencils whose energies and works are comparable have comparable multipliers. -/
theorem compare {N : ℕ} {K1 G1 K2 G2 : SqMat N} (hK1 : K1.PosDef) (hK2 : K2.PosDef) (hG1 : G1.IsSymm) {r t : ℝ} (hr : 0 < r)
    (ht : 0 < t) {lam : ℝ} (hl : PosMult K2 G2 lam) (hE : ∀ c, r * (c ⬝ᵥ K1.mulVec c) ≤ c ⬝ᵥ K2.mulVec c)
    (hW : ∀ c, 0 < -(c ⬝ᵥ G2.mulVec c) → -(c ⬝ᵥ G2.mulVec c) ≤ t * -(c ⬝ᵥ G1.mulVec c)) :
    ∃ nu, PosMult K1 G1 nu ∧ r * nu ≤ t * lam := by
  obtain ⟨hpos, v, hv⟩ := hl
  have h0 := buckles_energy hv
  have hk : 0 < v ⬝ᵥ K2.mulVec v := by simpa using hK2.dotProduct_mulVec_pos hv.1
  have hg : 0 < -(v ⬝ᵥ G2.mulVec v) := by
    by_contra hno
    push Not at hno
    nlinarith
  have h1 := hE v
  have h2 := mul_le_mul_of_nonneg_left (hW v hg) hpos.le
  obtain ⟨nu, hnu, hp⟩ := posMult_le hK1 hG1 hv.1 (lam := t * lam / r) (by positivity) (by
    have h3 : r * (v ⬝ᵥ K1.mulVec v) + t * lam * (v ⬝ᵥ G1.mulVec v) ≤ 0 := by linarith
    have e : v ⬝ᵥ K1.mulVec v + t * lam / r * (v ⬝ᵥ G1.mulVec v) = (r * (v ⬝ᵥ K1.mulVec v) + t * lam * (v ⬝ᵥ G1.mulVec v)) / r := by
      field_simp
    rw [e]
    exact div_nonpos_of_nonpos_of_nonneg h3 hr.le)
  refine ⟨nu, hp, ?_⟩
  rw [le_div_iff₀ hr] at hnu
  linarith

/-- **C100** without shear and under compression: every positive multiplier of the computed matrices is, up to the accuracy of the
tables, at least a multiplier of the exactly integrated ones, and conversely. -/
theorem C100_multipliers (D : M3) (mu M : ℝ) (hD : Between D mu M) (cs : Constraints) (p : PlateNum) (ha : 0 < p.a) (hb : 0 < p.b)
    (hm : 1 ≤ p.m) (hn : 1 ≤ p.n) (e : Edges) (he : chooseEdges cs = .ok e) (hh : EdgesHeld e) (hx : p.Nxx ≤ 0) (hy : p.Nyy ≤ 0)
    (hxy : p.Nxy = 0) (hcond : bendErr p mu M < 1) (K KG : SqMat (p.m * p.n)) (h : calcKKGD shipped (.ok D) cs p = .ok (K, KG))
    (Ke KGe : SqMat (p.m * p.n)) (h' : calcKKGD exactReaders (.ok D) cs p = .ok (Ke, KGe)) :
    (∀ lam, PosMult K KG lam → ∃ nu, PosMult Ke KGe nu ∧ (1 - bendErr p mu M) * nu ≤ (1 + tableAcc p.m p.n) * lam) ∧
    ∀ nu, PosMult Ke KGe nu → ∃ lam, PosMult K KG lam ∧ (1 - tableAcc p.m p.n) * lam ≤ (1 + bendErr p mu M) * nu := by
  obtain ⟨s, hs⟩ := (C40_accepted_iff cs p.m p.n).mpr ⟨_, he⟩
  obtain ⟨K', KG', hK', hen⟩ := C49_energy D hD.symm cs p s hs ha.ne' hb.ne'
  obtain ⟨rfl, rfl⟩ := Prod.mk.inj (Except.ok.inj (h'.symm.trans hK'))
  have hpd := C100_posDef D mu M hD cs p ha hb hm hn e he hh hcond K KG h
  have hr := C100_relative D mu M hD cs p ha hb hm hn e he hh K KG h s hs
  have hw := C100_work D hD.symm cs p ha hb hm hn e he hh hx hy hxy K KG h s hs
  have hacc := tableAcc_pos p.m p.n
  have hacc1 : tableAcc p.m p.n < 1 := by unfold tableAcc; split_ifs <;> norm_num
  have hber : 0 ≤ bendErr p mu M := by
    have := hD.pos
    have := hD.M_nonneg
    unfold bendErr
    positivity
  obtain ⟨sK, sKG⟩ := C48_symmetric _ _ p hm hn K KG h
  obtain ⟨sKe, sKGe⟩ : Ke.IsSymm ∧ KGe.IsSymm := exact_symm_ok ha.ne' hb.ne' h' hs
  have hpde : Ke.PosDef := posDef_of_pos sKe fun c hc => by
    rw [(hen c).1]
    exact C87_supported D hD.posDef cs p ha hb s hs e he (.inl (.inl ⟨hh.1, .inr (.inl hh.2.1)⟩)) c hc
  constructor
  · intro lam hl
    refine compare hpde hpd sKGe (by linarith) (by linarith) hl (fun c => ?_) (fun c _ => ?_)
    · rw [(hen c).1]
      linarith [(abs_le.mp (hr c)).1]
    · rw [(hen c).2]
      linarith [(abs_le.mp (hw c)).1]
  · intro nu hl
    have key := compare (r := 1 / (1 + bendErr p mu M)) (t := 1 / (1 - tableAcc p.m p.n)) hpd hpde sKG (by positivity)
      (by have : 0 < 1 - tableAcc p.m p.n := by linarith
          positivity) hl (fun c => ?_) (fun c _ => ?_)
    · obtain ⟨lam, hp, hle⟩ := key
      refine ⟨lam, hp, ?_⟩
      have h1 : 0 < 1 - tableAcc p.m p.n := by linarith
      have h2 : 0 < 1 + bendErr p mu M := by linarith
      rw [div_mul_eq_mul_div, div_mul_eq_mul_div, div_le_div_iff₀ h2 h1] at hle
      linarith
    · have h2 : 0 < 1 + bendErr p mu M := by linarith
      rw [div_mul_eq_mul_div, one_mul, div_le_iff₀ h2, (hen c).1]
      linarith [(abs_le.mp (hr c)).2]
    · have h1 : 0 < 1 - tableAcc p.m p.n := by linarith
      rw [div_mul_eq_mul_div, one_mul, le_div_iff₀ h1, (hen c).2]
      linarith [(abs_le.mp (hw c)).2]

/-- **C100** the smallest multipliers: computed and exact ones differ by a relative amount of the order of the accuracy of the tables,
and one exists if and only if the other does. -/
theorem C100_critical (D : M3) (mu M : ℝ) (hD : Between D mu M) (cs : Constraints) (p : PlateNum) (ha : 0 < p.a) (hb : 0 < p.b)
    (hm : 1 ≤ p.m) (hn : 1 ≤ p.n) (e : Edges) (he : chooseEdges cs = .ok e) (hh : EdgesHeld e) (hx : p.Nxx ≤ 0) (hy : p.Nyy ≤ 0)
    (hxy : p.Nxy = 0) (hcond : bendErr p mu M < 1) (K KG : SqMat (p.m * p.n)) (h : calcKKGD shipped (.ok D) cs p = .ok (K, KG))
    (Ke KGe : SqMat (p.m * p.n)) (h' : calcKKGD exactReaders (.ok D) cs p = .ok (Ke, KGe)) :
    ((∃ lam, PosMult K KG lam) ↔ ∃ nu, PosMult Ke KGe nu) ∧
    ∀ lam nu, IsLeast {l | PosMult K KG l} lam → IsLeast {l | PosMult Ke KGe l} nu →
      (1 - bendErr p mu M) * nu ≤ (1 + tableAcc p.m p.n) * lam ∧ (1 - tableAcc p.m p.n) * lam ≤ (1 + bendErr p mu M) * nu := by
  obtain ⟨h1, h2⟩ := C100_multipliers D mu M hD cs p ha hb hm hn e he hh hx hy hxy hcond K KG h Ke KGe h'
  have hacc1 : tableAcc p.m p.n < 1 := by unfold tableAcc; split_ifs <;> norm_num
  refine ⟨⟨fun ⟨l, hl⟩ => ?_, fun ⟨l, hl⟩ => ?_⟩, fun lam nu hlam hnu => ⟨?_, ?_⟩⟩
  · obtain ⟨n, hn, -⟩ := h1 l hl
    exact ⟨n, hn⟩
  · obtain ⟨n, hn, -⟩ := h2 l hl
    exact ⟨n, hn⟩
  · obtain ⟨n, hn, hle⟩ := h1 lam hlam.1
    have := mul_le_mul_of_nonneg_left (hnu.2 hn) (show 0 ≤ 1 - bendErr p mu M by linarith)
    linarith
  · obtain ⟨l, hl, hle⟩ := h2 nu hnu.1
    have := mul_le_mul_of_nonneg_left (hlam.2 hl) (show 0 ≤ 1 - tableAcc p.m p.n by linarith)
    linarith

theorem navierBound_mono {D0 : M3} {p : PlateNum} (hx : p.Nxx ≤ 0) (hy : p.Nyy ≤ 0) {l l' : ℝ} (hl : l ≤ l') (h : NavierBound D0 p l) :
    NavierBound D0 p l' := by
  obtain ⟨i, j, hi, hj, h⟩ := h
  refine ⟨i, j, hi, hj, h.trans (mul_le_mul_of_nonneg_right hl ?_)⟩
  have w1 : 0 ≤ wave p.a i := by unfold wave; positivity
  have w2 : 0 ≤ wave p.b j := by unfold wave; positivity
  nlinarith

theorem longBound_mono {D0 : M3} {p : PlateNum} (hx : p.Nxx ≤ 0) (hy : p.Nyy ≤ 0) {l l' : ℝ} (hl : l ≤ l') (h : LongBound D0 p l) :
    LongBound D0 p l' := by
  obtain ⟨h1, h2, h3⟩ := h
  have m1 := mul_le_mul_of_nonneg_right hl (show 0 ≤ -p.Nxx by linarith)
  have m2 := mul_le_mul_of_nonneg_right hl (show 0 ≤ -p.Nyy by linarith)
  exact ⟨fun h => (h1 h).trans m1, fun h => (h2 h).trans m2, fun t a b => (h3 t a b).imp (fun h => h.trans m1) fun h => h.trans m2⟩

/-- **C100** so the bounds of C95 and C99 hold for the tables as shipped, after enlarging the multiplier by the accuracy of the tables. -/
theorem C100_bounds (D D0 : M3) (mu M : ℝ) (hD : Between D mu M) (h0 : NoTwist D0) (hdom : (D - D0).PosSemidef) (cs : Constraints)
    (p : PlateNum) (ha : 0 < p.a) (hb : 0 < p.b) (hm : 1 ≤ p.m) (hn : 1 ≤ p.n) (e : Edges) (he : chooseEdges cs = .ok e)
    (hh : EdgesHeld e) (hx : p.Nxx ≤ 0) (hy : p.Nyy ≤ 0) (hxy : p.Nxy = 0) (hcond : bendErr p mu M < 1) (K KG : SqMat (p.m * p.n))
    (h : calcKKGD shipped (.ok D) cs p = .ok (K, KG)) (lam : ℝ) (hl : PosMult K KG lam) :
    NavierBound D0 p ((1 + tableAcc p.m p.n) / (1 - bendErr p mu M) * lam) ∧
    LongBound D0 p ((1 + tableAcc p.m p.n) / (1 - bendErr p mu M) * lam) := by
  obtain ⟨s, hs⟩ := (C40_accepted_iff cs p.m p.n).mpr ⟨_, he⟩
  obtain ⟨Ke, KGe, hKe, -⟩ := C49_energy D hD.symm cs p s hs ha.ne' hb.ne'
  obtain ⟨nu, hnu, hle⟩ := (C100_multipliers D mu M hD cs p ha hb hm hn e he hh hx hy hxy hcond K KG h Ke KGe hKe).1 lam hl
  have hle' : nu ≤ (1 + tableAcc p.m p.n) / (1 - bendErr p mu M) * lam := by
    rw [div_mul_eq_mul_div, le_div_iff₀ (by linarith)]
    linarith
  exact ⟨navierBound_mono hx hy hle' (C99_held D D0 hD.posDef h0 hdom cs p ha hb e he hh hxy Ke KGe hKe nu hnu),
    longBound_mono hx hy hle' (C95_held D D0 hD.posDef h0 hdom cs p ha hb e he hh hxy Ke KGe hKe nu hnu)⟩

/-- The error of the work of arbitrary loads, relative to the bending energy. -/
noncomputable def Spec.loadErr (p : PlateNum) (mu : ℝ) : ℝ :=
  tableAcc p.m p.n * max |p.Nxx| (max |p.Nyy| |p.Nxy|) * (p.a ^ 2 + p.b ^ 2) / (3 * π ^ 2 * mu)

/-- **C100** any loads: the error of the work is at most `loadErr` times the bending energy. -/
theorem C100_work_any (D : M3) (mu M : ℝ) (hD : Between D mu M) (cs : Constraints) (p : PlateNum) (ha : 0 < p.a) (hb : 0 < p.b)
    (hm : 1 ≤ p.m) (hn : 1 ≤ p.n) (e : Edges) (he : chooseEdges cs = .ok e) (hh : EdgesHeld e)
    (K KG : SqMat (p.m * p.n)) (h : calcKKGD shipped (.ok D) cs p = .ok (K, KG)) (s : ShapeIdx)
    (hs : computeIdx cs p.m p.n = .ok s) (c : Fin (p.m * p.n) → ℝ) :
    |c ⬝ᵥ KG.mulVec c - loadWork p.Nxx p.Nyy p.Nxy p.a p.b (ritz p.a p.b s.w c)|
      ≤ loadErr p mu * bendEnergy D p.a p.b (ritz p.a p.b s.w c) := by
  have h1 := (C100_energy D hD.symm cs p ha hb hm hn e he hh K KG h s hs c).2
  have hpos := hD.pos
  have hid : NoTwist (mu • (1 : M3)) := ⟨(Matrix.PosDef.one.smul hpos).posSemidef, by simp, by simp⟩
  obtain ⟨d1, d2⟩ := energy_dominates ha hb hD.symm hid hD.low s.w (C40_sizes cs _ _ s hs).2.2.len (held_endZero hs he hh) c
  have el : longStiff (mu • (1 : M3)) = 3 * mu := by
    have : √(mu * mu) = mu := Real.sqrt_mul_self hpos.le
    simp [longStiff, this]
    ring
  obtain ⟨sX, sY⟩ := slopes_nonneg ha hb (ritz p.a p.b s.w c)
  rw [el] at d1 d2
  set E := bendEnergy D p.a p.b (ritz p.a p.b s.w c)
  set X := slopeX p.a p.b (ritz p.a p.b s.w c)
  set Y := slopeY p.a p.b (ritz p.a p.b s.w c)
  set N := max |p.Nxx| (max |p.Nyy| |p.Nxy|) with hN
  have n1 : |p.Nxx| ≤ N := le_max_left _ _
  have n2 : |p.Nyy| ≤ N := (le_max_left _ _).trans (le_max_right _ _)
  have n3 : |p.Nxy| ≤ N := (le_max_right _ _).trans (le_max_right _ _)
  have hN0 : 0 ≤ N := (abs_nonneg _).trans n1
  have hpi : 0 < π ^ 2 := by positivity
  have d1' : X ≤ p.b ^ 2 / (6 * π ^ 2 * mu) * E := by
    rw [div_mul_eq_mul_div, le_div_iff₀ (by positivity)]
    have := mul_le_mul_of_nonneg_left d1 (show 0 ≤ p.b ^ 2 by positivity)
    have e : p.b ^ 2 * (2 * π ^ 2 / p.b ^ 2 * (3 * mu) * X) = X * (6 * π ^ 2 * mu) := by field_simp; ring
    rwa [e] at this
  have d2' : Y ≤ p.a ^ 2 / (6 * π ^ 2 * mu) * E := by
    rw [div_mul_eq_mul_div, le_div_iff₀ (by positivity)]
    have := mul_le_mul_of_nonneg_left d2 (show 0 ≤ p.a ^ 2 by positivity)
    have e : p.a ^ 2 * (2 * π ^ 2 / p.a ^ 2 * (3 * mu) * Y) = Y * (6 * π ^ 2 * mu) := by field_simp; ring
    rwa [e] at this
  have hmix : loadMix p.Nxx p.Nyy p.Nxy X Y ≤ 2 * N * (X + Y) := by
    have q1 := Real.mul_self_sqrt sX
    have q2 := Real.mul_self_sqrt sY
    have m1 := mul_le_mul_of_nonneg_right n1 sX
    have m2 := mul_le_mul_of_nonneg_right n2 sY
    have m3 := mul_le_mul_of_nonneg_right n3 (mul_nonneg (Real.sqrt_nonneg X) (Real.sqrt_nonneg Y))
    have m4 := mul_nonneg hN0 (sq_nonneg (√X - √Y))
    have v1 : N * (√X - √Y) ^ 2 = N * X + N * Y - 2 * (N * (√X * √Y)) := by linear_combination N * q1 + N * q2
    unfold loadMix
    linarith
  refine h1.trans ?_
  have hacc := tableAcc_pos p.m p.n
  have f1 := mul_le_mul_of_nonneg_left hmix hacc.le
  have f2 := mul_le_mul_of_nonneg_left (add_le_add d1' d2') (show 0 ≤ tableAcc p.m p.n * (2 * N) by positivity)
  refine f1.trans (le_trans (le_of_eq (by ring)) (f2.trans (le_of_eq ?_)))
  unfold loadErr
  rw [← hN]
  field_simp
  ring

/-- **C100** any loads, shear included: a multiplier of the computed matrices is close to or above one of the exact ones, and conversely,
as long as the accuracy of the tables times the multiplier is small. -/
theorem C100_shear (D : M3) (mu M : ℝ) (hD : Between D mu M) (cs : Constraints) (p : PlateNum) (ha : 0 < p.a) (hb : 0 < p.b)
    (hm : 1 ≤ p.m) (hn : 1 ≤ p.n) (e : Edges) (he : chooseEdges cs = .ok e) (hh : EdgesHeld e) (hcond : bendErr p mu M < 1)
    (K KG : SqMat (p.m * p.n)) (h : calcKKGD shipped (.ok D) cs p = .ok (K, KG))
    (Ke KGe : SqMat (p.m * p.n)) (h' : calcKKGD exactReaders (.ok D) cs p = .ok (Ke, KGe)) :
    (∀ lam, PosMult K KG lam → bendErr p mu M + lam * loadErr p mu < 1 →
      ∃ nu, PosMult Ke KGe nu ∧ (1 - bendErr p mu M - lam * loadErr p mu) * nu ≤ lam) ∧
    ∀ nu, PosMult Ke KGe nu → nu * loadErr p mu < 1 →
      ∃ lam, PosMult K KG lam ∧ (1 - nu * loadErr p mu) * lam ≤ (1 + bendErr p mu M) * nu := by
  obtain ⟨s, hs⟩ := (C40_accepted_iff cs p.m p.n).mpr ⟨_, he⟩
  obtain ⟨K', KG', hK', hen⟩ := C49_energy D hD.symm cs p s hs ha.ne' hb.ne'
  obtain ⟨rfl, rfl⟩ := Prod.mk.inj (Except.ok.inj (h'.symm.trans hK'))
  have hpd := C100_posDef D mu M hD cs p ha hb hm hn e he hh hcond K KG h
  have hr := C100_relative D mu M hD cs p ha hb hm hn e he hh K KG h s hs
  have hw := C100_work_any D mu M hD cs p ha hb hm hn e he hh K KG h s hs
  have hber : 0 ≤ bendErr p mu M := by
    have := hD.pos
    have := hD.M_nonneg
    have := tableAcc_pos p.m p.n
    unfold bendErr
    positivity
  obtain ⟨sK, sKG⟩ := C48_symmetric _ _ p hm hn K KG h
  obtain ⟨sKe, sKGe⟩ : Ke.IsSymm ∧ KGe.IsSymm := exact_symm_ok ha.ne' hb.ne' h' hs
  have hE (c : Fin (p.m * p.n) → ℝ) (hc : c ≠ 0) : 0 < bendEnergy D p.a p.b (ritz p.a p.b s.w c) :=
    C87_supported D hD.posDef cs p ha hb s hs e he (.inl (.inl ⟨hh.1, .inr (.inl hh.2.1)⟩)) c hc
  have hpde : Ke.PosDef := posDef_of_pos sKe fun c hc => by
    rw [(hen c).1]
    exact hE c hc
  constructor
  · rintro lam ⟨hpos, v, hv⟩ hc1
    have b0 := buckles_energy hv
    have r1 := (abs_le.mp (hr v)).1
    have w1 := mul_le_mul_of_nonneg_left (abs_le.mp (hw v)).1 hpos.le
    have hden : 0 < 1 - bendErr p mu M - lam * loadErr p mu := by linarith
    obtain ⟨nu, hnu, hp⟩ := posMult_le hpde sKGe hv.1 (lam := lam / (1 - bendErr p mu M - lam * loadErr p mu)) (by positivity) (by
      rw [(hen v).1, (hen v).2]
      have h3 : (1 - bendErr p mu M - lam * loadErr p mu) * bendEnergy D p.a p.b (ritz p.a p.b s.w v)
          + lam * loadWork p.Nxx p.Nyy p.Nxy p.a p.b (ritz p.a p.b s.w v) ≤ 0 := by linarith
      refine le_of_mul_le_mul_left (a := 1 - bendErr p mu M - lam * loadErr p mu) (le_trans (le_of_eq ?_) (h3.trans (mul_zero _).ge)) hden
      field_simp)
    refine ⟨nu, hp, ?_⟩
    rw [le_div_iff₀ hden] at hnu
    linarith
  · rintro nu ⟨hpos, v, hv⟩ hc1
    have b0 := buckles_energy hv
    rw [(hen v).1, (hen v).2] at b0
    have r1 := (abs_le.mp (hr v)).2
    have w1 := mul_le_mul_of_nonneg_left (abs_le.mp (hw v)).2 hpos.le
    have hden : 0 < 1 - nu * loadErr p mu := by linarith
    have h1b : 0 < 1 + bendErr p mu M := by linarith
    obtain ⟨lam, hlam, hp⟩ := posMult_le hpd sKG hv.1 (lam := (1 + bendErr p mu M) * nu / (1 - nu * loadErr p mu)) (by positivity) (by
      have h3 : (1 - nu * loadErr p mu) * (v ⬝ᵥ K.mulVec v) + (1 + bendErr p mu M) * nu * (v ⬝ᵥ KG.mulVec v) ≤ 0 := by
        have m1 := mul_le_mul_of_nonneg_left r1 hden.le
        have m2 := mul_le_mul_of_nonneg_left w1 h1b.le
        have m3 : (1 + bendErr p mu M) * (bendEnergy D p.a p.b (ritz p.a p.b s.w v)
          + nu * loadWork p.Nxx p.Nyy p.Nxy p.a p.b (ritz p.a p.b s.w v)) = 0 := by rw [b0, mul_zero]
        linarith
      refine le_of_mul_le_mul_left (a := 1 - nu * loadErr p mu) (le_trans (le_of_eq ?_) (h3.trans (mul_zero _).ge)) hden
      field_simp)
    refine ⟨lam, hp, ?_⟩
    rw [le_div_iff₀ hden] at hlam
    linarith

/-- **C100** end to end: with a solver that keeps the contract of `eigsh`, the smallest positive multiplier that `buckling_analysis`
reports for a compressed held plate agrees with the smallest one of the exact energies to the accuracy of the tables, provided the
latter exceeds 1 by that accuracy (C54 says why a bound is needed). -/
theorem C100_reported (S : EigSolver) (D : M3) (mu M : ℝ) (hD : Between D mu M) (cs : Constraints) (p : PlateNum) (ha : 0 < p.a)
    (hb : 0 < p.b) (hm : 1 ≤ p.m) (hn : 1 ≤ p.n) (e : Edges) (he : chooseEdges cs = .ok e) (hh : EdgesHeld e) (hx : p.Nxx ≤ 0)
    (hy : p.Nyy ≤ 0) (hxy : p.Nxy = 0) (hcond : bendErr p mu M < 1) (K KG : SqMat (p.m * p.n))
    (h : calcKKGD shipped (.ok D) cs p = .ok (K, KG)) (hS : Honest S KG K)
    (Ke KGe : SqMat (p.m * p.n)) (h' : calcKKGD exactReaders (.ok D) cs p = .ok (Ke, KGe)) (nu : ℝ)
    (hnu : IsLeast {l | PosMult Ke KGe l} nu) (hone : 1 + tableAcc p.m p.n ≤ (1 - bendErr p mu M) * nu)
    (numEig : ℤ) (st : PlateState (p.m * p.n)) (vals : List PyFloat) (vecs : List (Fin (p.m * p.n) → ℝ))
    (hrun : (bucklingAnalysis S (.ok D) cs p numEig st).1 = .ok (vals, vecs)) :
    ∃ lam, XF.fin lam ∈ vals ∧ (∀ l, 0 < l → XF.fin l ∈ vals → lam ≤ l) ∧
      (1 - bendErr p mu M) * nu ≤ (1 + tableAcc p.m p.n) * lam ∧ (1 - tableAcc p.m p.n) * lam ≤ (1 + bendErr p mu M) * nu := by
  obtain ⟨hiff, hcmp⟩ := C100_critical D mu M hD cs p ha hb hm hn e he hh hx hy hxy hcond K KG h Ke KGe h'
  have hpd := C100_posDef D mu M hD cs p ha hb hm hn e he hh hcond K KG h
  obtain ⟨lam, hl, hmin⟩ := exists_min_posMult hpd (C48_symmetric _ _ p hm hn K KG h).2 (hiff.mpr ⟨nu, hnu.1⟩)
  obtain ⟨c1, c2⟩ := hcmp lam nu ⟨hl, fun l hl => hmin l hl⟩ hnu
  have h1 : 1 ≤ lam := by
    have := hone.trans c1
    have hacc := tableAcc_pos p.m p.n
    nlinarith
  obtain ⟨r1, r2⟩ := C54_critical_reported_partial S _ _ p numEig st vals vecs hrun K KG h hS lam hl hmin h1
  exact ⟨lam, r1, r2, c1, c2⟩

/-- Non-vacuity of C100: the pinned plate with ten terms each way and an isotropic stiffness meets the hypotheses, with a relative
error of the bending energy below `1e-8`. -/
example : let p : PlateNum := ⟨2, 3, -1, 0, 0, 10, 10⟩
    Between (1 : M3) 1 1 ∧ (∃ e, chooseEdges (.str wPINNED) = .ok e ∧ EdgesHeld e) ∧ bendErr p 1 1 ≤ 1e-8 ∧
    (∃ KK, calcKKGD shipped (.ok (1 : M3)) (.str wPINNED) p = .ok KK) ∧
    ∃ KK, calcKKGD exactReaders (.ok (1 : M3)) (.str wPINNED) p = .ok KK := by
  intro p
  refine ⟨⟨Matrix.isSymm_one, ?_, one_pos, fun i j => ?_⟩, ⟨_, rfl, by decide, by decide, by decide, by decide⟩, ?_, ?_, ?_⟩
  · rw [one_smul, sub_self]
    exact Matrix.PosSemidef.zero
  · rw [Matrix.one_apply]
    split_ifs <;> norm_num
  · simp only [bendErr, tableAcc, p]
    norm_num
  · obtain ⟨s, hs⟩ := (C40_accepted_iff (.str wPINNED) 10 10).mpr ⟨_, rfl⟩
    exact (C51_computed_iff 1 (.str wPINNED) p s hs (by norm_num [p]) (by norm_num [p])).1 fun q hq => by
      have := widx_range hs q hq
      omega
  · obtain ⟨s, hs⟩ := (C40_accepted_iff (.str wPINNED) 10 10).mpr ⟨_, rfl⟩
    obtain ⟨K, KG, hK, -⟩ := C49_energy 1 Matrix.isSymm_one (.str wPINNED) p s hs (by norm_num [p]) (by norm_num [p])
    exact ⟨_, hK⟩

end Composipy
