import Verif.Model.Laminate
import Verif.Spec.Linear
import Mathlib.Tactic.Ring
import Mathlib.Tactic.LinearCombination
import Mathlib.Tactic.FinCases
import Mathlib.Tactic.Linarith
import Mathlib.Tactic.NormNum
import Mathlib.Tactic.FieldSimp

namespace Composipy
open Matrix Spec

theorem OrthoMat.Q0_of_ne (m : OrthoMat ℝ) (hd : 1 - m.v12 * m.v21 ≠ 0) :
    m.Q0 = .ok !![m.e1 / (1 - m.v12 * m.v21), m.v12 * m.e2 / (1 - m.v12 * m.v21), 0;
      m.v12 * m.e2 / (1 - m.v12 * m.v21), m.e2 / (1 - m.v12 * m.v21), 0; 0, 0, m.g12] := by
  simp [OrthoMat.Q0, pyDiv, hd]

theorem OrthoMat.Q0_of_eq (m : OrthoMat ℝ) (hd : 1 - m.v12 * m.v21 = 0) :
    m.Q0 = .error .zeroDivisionError := by
  simp [OrthoMat.Q0, pyDiv, hd]

theorem IsoMat.Q0_of_ne (m : IsoMat ℝ) (hd : 1 - m.v * m.v ≠ 0) :
    m.Q0 = .ok !![m.e / (1 - m.v * m.v), m.v * m.e / (1 - m.v * m.v), 0;
      m.v * m.e / (1 - m.v * m.v), m.e / (1 - m.v * m.v), 0; 0, 0, m.g] := by
  simp [IsoMat.Q0, pyDiv, hd]

theorem cosd_sq_add (t : ℝ) : cosd t ^ 2 + sind t ^ 2 = 1 := by
  simp only [cosd, sind]; exact Real.cos_sq_add_sin_sq _

@[simp] theorem cosd_zero : cosd 0 = 1 := by simp [cosd]
@[simp] theorem sind_zero : sind 0 = 0 := by simp [sind]
@[simp] theorem cosd_neg (t : ℝ) : cosd (-t) = cosd t := by simp [cosd, neg_div]
@[simp] theorem sind_neg (t : ℝ) : sind (-t) = -sind t := by simp [sind, neg_div]
@[simp] theorem cosd_90 : cosd 90 = 0 := by
  rw [cosd, show (90 : ℝ) * Real.pi / 180 = Real.pi / 2 by ring, Real.cos_pi_div_two]
@[simp] theorem sind_90 : sind 90 = 1 := by
  rw [sind, show (90 : ℝ) * Real.pi / 180 = Real.pi / 2 by ring, Real.sin_pi_div_two]
theorem cosd_add_180 (t : ℝ) : cosd (t + 180) = -cosd t := by
  rw [cosd, cosd, show (t + 180) * Real.pi / 180 = t * Real.pi / 180 + Real.pi by ring,
    Real.cos_add_pi]
theorem sind_add_180 (t : ℝ) : sind (t + 180) = -sind t := by
  rw [sind, sind, show (t + 180) * Real.pi / 180 = t * Real.pi / 180 + Real.pi by ring,
    Real.sin_add_pi]
theorem cosd_add_90 (t : ℝ) : cosd (t + 90) = -sind t := by
  rw [cosd, sind, show (t + 90) * Real.pi / 180 = t * Real.pi / 180 + Real.pi / 2 by ring,
    Real.cos_add_pi_div_two]
theorem sind_add_90 (t : ℝ) : sind (t + 90) = cosd t := by
  rw [cosd, sind, show (t + 90) * Real.pi / 180 = t * Real.pi / 180 + Real.pi / 2 by ring,
    Real.sin_add_pi_div_two]

/-- The two rotation matrices are mutually inverse-transpose. -/
theorem TengT_mul_Treal (t : ℝ) : (Teng t)ᵀ * Treal t = 1 := by
  have h := cosd_sq_add t
  ext i j
  fin_cases i <;> fin_cases j <;>
    simp [Teng, Treal, Matrix.mul_apply, Fin.sum_univ_three, Matrix.one_apply]
  · linear_combination (cosd t ^ 2 + sind t ^ 2 + 1) * h
  · ring
  · ring
  · ring
  · linear_combination (cosd t ^ 2 + sind t ^ 2 + 1) * h
  · ring
  · ring
  · ring
  · linear_combination (cosd t ^ 2 + sind t ^ 2 + 1) * h

theorem Treal_mul_TengT (t : ℝ) : Treal t * (Teng t)ᵀ = 1 :=
  mul_eq_one_comm.mp (TengT_mul_Treal t)

theorem Treal_inv (t : ℝ) : (Treal t)⁻¹ = (Teng t)ᵀ :=
  Matrix.inv_eq_left_inv (TengT_mul_Treal t)

theorem Treal_det_ne (t : ℝ) : (Treal t).det ≠ 0 := by
  intro h
  have := congrArg Matrix.det (TengT_mul_Treal t)
  rw [Matrix.det_mul, h] at this
  simp at this

theorem Teng_det_ne (t : ℝ) : (Teng t).det ≠ 0 := by
  intro h
  have := congrArg Matrix.det (TengT_mul_Treal t)
  rw [Matrix.det_mul, Matrix.det_transpose, h] at this
  simp at this

theorem Teng_det_isUnit (t : ℝ) : IsUnit (Teng t).det := (Teng_det_ne t).isUnit
theorem Treal_det_isUnit (t : ℝ) : IsUnit (Treal t).det := (Treal_det_ne t).isUnit

theorem Teng_neg (t : ℝ) : Teng (-t) = (Treal t)ᵀ := by
  ext i j
  fin_cases i <;> fin_cases j <;> simp [Teng, Treal]

theorem npInv_Treal (t : ℝ) : npInv (Treal t) = .ok (Teng t)ᵀ := by
  simp [npInv, Treal_det_ne, Treal_inv]

/-- Rotated stiffness. -/
noncomputable def rotQ (t : ℝ) (Q : M3) : M3 := (Teng t)ᵀ * Q * Teng t

theorem plyQ_eq (p : ℝ × Mat) : plyQ p = (rotQ p.1) <$> p.2.Q0 := by
  simp only [plyQ, npInv_Treal, ok_bind]
  cases p.2.Q0 <;> rfl

theorem rotQ_isSymm (t : ℝ) {Q : M3} (h : Q.IsSymm) : (rotQ t Q).IsSymm := by
  simp only [rotQ, Matrix.IsSymm, Matrix.transpose_mul, Matrix.transpose_transpose, h.eq,
    Matrix.mul_assoc]

theorem rotQ_quad (t : ℝ) (Q : M3) (x : Fin 3 → ℝ) :
    x ⬝ᵥ (rotQ t Q *ᵥ x) = (Teng t *ᵥ x) ⬝ᵥ (Q *ᵥ (Teng t *ᵥ x)) := by
  rw [rotQ, Matrix.mul_assoc, ← Matrix.mulVec_mulVec, ← Matrix.mulVec_mulVec,
    Matrix.dotProduct_mulVec, Matrix.vecMul_transpose]

theorem Teng_mulVec_ne (t : ℝ) {x : Fin 3 → ℝ} (hx : x ≠ 0) : Teng t *ᵥ x ≠ 0 := by
  intro h
  apply hx
  have := congrArg (fun y => (Teng t)⁻¹ *ᵥ y) h
  simpa [Matrix.mulVec_mulVec, Matrix.nonsing_inv_mul _ (Teng_det_isUnit t)] using this

theorem rotQ_isPD (t : ℝ) {Q : M3} (h : IsPD Q) : IsPD (rotQ t Q) := by
  refine ⟨rotQ_isSymm t h.1, fun x hx => ?_⟩
  rw [rotQ_quad]
  exact h.2 _ (Teng_mulVec_ne t hx)

end Composipy
