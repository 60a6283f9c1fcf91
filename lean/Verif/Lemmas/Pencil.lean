import Verif.Model.Stiffness
import Mathlib.Analysis.Matrix.Spectrum
import Mathlib.Analysis.Matrix.PosDef
import Mathlib.Data.List.Sort

/-!
# The symmetric-definite pencil `A x = w M x` has a full set of eigenpairs
-/

namespace Composipy
open Matrix

variable {N : ℕ}

/-- A congruence taking a positive definite matrix to the identity. -/
theorem exists_whiten {M : SqMat N} (hM : M.PosDef) : ∃ P : SqMat N, Pᵀ * M * P = 1 := by
  let U : SqMat N := hM.1.eigenvectorUnitary
  let d := hM.1.eigenvalues
  have hU : Uᵀ * M * U = diagonal d := by
    have h := hM.1.conjStarAlgAut_star_eigenvectorUnitary
    rw [Unitary.conjStarAlgAut_star_apply] at h
    exact h
  let R : SqMat N := diagonal fun i => (Real.sqrt (d i))⁻¹
  refine ⟨U * R, ?_⟩
  have : (U * R)ᵀ * M * (U * R) = R * (Uᵀ * M * U) * R := by
    rw [transpose_mul, show Rᵀ = R from diagonal_transpose _]
    simp only [Matrix.mul_assoc]
  rw [this, hU, diagonal_mul_diagonal, diagonal_mul_diagonal, ← diagonal_one]
  congr 1
  funext i
  have hpos : 0 < d i := hM.eigenvalues_pos i
  have hs : Real.sqrt (d i) ≠ 0 := (Real.sqrt_pos.mpr hpos).ne'
  have h2 := Real.mul_self_sqrt hpos.le
  field_simp
  rw [sq, h2]

/-- For symmetric `A` and positive definite `M` there are `N` eigenpairs of `A x = w M x`, and every eigenvalue
is the eigenvalue of one of them. -/
theorem exists_eigenpairs {A M : SqMat N} (hA : A.IsSymm) (hM : M.PosDef) :
    ∃ (w : Fin N → ℝ) (x : Fin N → Fin N → ℝ), (∀ j, x j ≠ 0 ∧ A.mulVec (x j) = w j • M.mulVec (x j)) ∧
      ∀ t v, v ≠ 0 → A.mulVec v = t • M.mulVec v → ∃ j, w j = t := by
  obtain ⟨P, hP⟩ := exists_whiten hM
  have hinv : P * (Pᵀ * M) = 1 := mul_eq_one_comm.mp hP
  have hinv' : (M * P) * Pᵀ = 1 := mul_eq_one_comm.mp (by rw [← Matrix.mul_assoc]; exact hP)
  have hB : (Pᵀ * A * P).IsHermitian := by
    rw [IsHermitian, conjTranspose_eq_transpose_of_trivial, transpose_mul, transpose_mul, transpose_transpose, hA.eq,
      Matrix.mul_assoc]
  let u : Fin N → Fin N → ℝ := fun j => ⇑(hB.eigenvectorBasis j)
  have hu : ∀ j, (Pᵀ * A * P).mulVec (u j) = hB.eigenvalues j • u j := hB.mulVec_eigenvectorBasis
  have hu0 : ∀ j, u j ≠ 0 := fun j h => by
    have h1 := hB.star_eigenvectorUnitary_mulVec j
    have : (⇑(hB.eigenvectorBasis j) : Fin N → ℝ) = 0 := h
    rw [this, mulVec_zero] at h1
    have := congrFun h1 j
    simp at this
  refine ⟨hB.eigenvalues, fun j => P.mulVec (u j), fun j => ⟨fun h => hu0 j ?_, ?_⟩, ?_⟩
  · have h1 : (Pᵀ * M * P).mulVec (u j) = 0 := by rw [← mulVec_mulVec, show P.mulVec (u j) = 0 from h, mulVec_zero]
    rwa [hP, one_mulVec] at h1
  · have h1 : (M * P).mulVec ((Pᵀ * A * P).mulVec (u j)) = (M * P).mulVec (hB.eigenvalues j • u j) := by rw [hu]
    rw [mulVec_mulVec, ← Matrix.mul_assoc, ← Matrix.mul_assoc, hinv', Matrix.one_mul, mulVec_smul, ← mulVec_mulVec, ← mulVec_mulVec] at h1
    exact h1
  · intro t v hv h
    have hmem : t ∈ spectrum ℝ (Pᵀ * A * P) := by
      rw [spectrum.mem_iff]
      intro hunit
      set y := (Pᵀ * M).mulVec v with hy
      have hPy : P.mulVec y = v := by rw [hy, mulVec_mulVec, hinv, one_mulVec]
      have h0 : (algebraMap ℝ (SqMat N) t - Pᵀ * A * P).mulVec y = 0 := by
        have e : (Pᵀ * A * P).mulVec y = t • y := by
          rw [← mulVec_mulVec, hPy, ← mulVec_mulVec, h, mulVec_smul, mulVec_mulVec]
        rw [sub_mulVec, e, Algebra.algebraMap_eq_smul_one, smul_mulVec, one_mulVec, sub_self]
      have hinj := mulVec_injective_iff_isUnit.mpr hunit
      have : y = 0 := hinj (by simpa using h0)
      exact hv (by rw [← hPy, this, mulVec_zero])
    rw [hB.spectrum_real_eq_range_eigenvalues] at hmem
    exact hmem

/-- The order of the Cayley transform `|(w+1)/(w-1)|` as a number in `[0, 1]`. -/
noncomputable def cayKey (w : ℝ) : ℝ := |w + 1| / (|w + 1| + |w - 1|)

theorem cayDen_pos (w : ℝ) : 0 < |w + 1| + |w - 1| := by
  rcases eq_or_ne w 1 with rfl | h
  · norm_num
  · have := abs_pos.mpr (sub_ne_zero.mpr h)
    have := abs_nonneg (w + 1)
    linarith

theorem cayKey_le {r w : ℝ} : cayKey r ≤ cayKey w ↔ |r + 1| * |w - 1| ≤ |w + 1| * |r - 1| := by
  unfold cayKey
  rw [div_le_div_iff₀ (cayDen_pos r) (cayDen_pos w)]
  constructor <;> intro h <;> nlinarith

end Composipy
