import Mathlib.Analysis.Fourier.AddCircle
import Mathlib.Analysis.Normed.Ring.InfiniteSum
import Mathlib.Analysis.SpecialFunctions.Integrals.Basic

/-!
# Parseval's identity for sine series on `[0, L]`
-/

namespace Verif
open MeasureTheory Set Real

theorem hasSum_of_eq {ι : Type} {f g : ι → ℝ} {s t : ℝ} (h : HasSum f s) (hf : ∀ i, g i = f i) (hs : t = s) : HasSum g t := by
  rw [show g = f from funext hf, hs]
  exact h

/-- The coefficient of `f` on `sin (n pi x / L)`. -/
noncomputable def sineInt (L : ℝ) (f : ℝ → ℝ) (n : ℤ) : ℝ := ∫ x in (0 : ℝ)..L, f x * sin (n * π * x / L)

/-- The odd extension of `f`. -/
noncomputable def oddExt (f : ℝ → ℝ) (x : ℝ) : ℂ := if 0 ≤ x then (f x : ℂ) else (-f (-x) : ℝ)

theorem oddExt_integral {L : ℝ} (hL : 0 < L) {f : ℝ → ℝ} (g : ℝ → ℂ → ℂ)
    (h1 : IntervalIntegrable (fun x => g x (oddExt f x)) volume (-L) 0) (h2 : IntervalIntegrable (fun x => g x (oddExt f x)) volume 0 L) :
    ∫ x in -L..L, g x (oddExt f x) = (∫ x in (0 : ℝ)..L, g (-x) (-f x : ℝ)) + ∫ x in (0 : ℝ)..L, g x (f x) := by
  rw [← intervalIntegral.integral_add_adjacent_intervals h1 h2]
  congr 1
  · have := intervalIntegral.integral_comp_neg (a := (0 : ℝ)) (b := L) (fun x => g x (oddExt f x))
    rw [neg_zero] at this
    rw [← this]
    refine intervalIntegral.integral_congr_ae (Filter.Eventually.of_forall fun x hx => ?_)
    rw [uIoc_of_le hL.le] at hx
    have : ¬ 0 ≤ -x := by have := hx.1; linarith
    simp [oddExt, this]
  · refine intervalIntegral.integral_congr fun x hx => ?_
    rw [uIcc_of_le hL.le] at hx
    simp [oddExt, hx.1]

theorem oddExt_measurable {f : ℝ → ℝ} (hf : Continuous f) : Measurable (oddExt f) := by
  unfold oddExt
  refine Measurable.ite measurableSet_Ici ?_ ?_
  · exact (Complex.continuous_ofReal.comp hf).measurable
  · exact (Complex.continuous_ofReal.comp (hf.comp continuous_neg).neg).measurable

theorem oddExt_bound {L : ℝ} {f : ℝ → ℝ} (hf : Continuous f) : ∃ C, ∀ x ∈ Icc (-L) L, ‖oddExt f x‖ ≤ C := by
  obtain ⟨C, hC⟩ := (isCompact_Icc (a := -L) (b := L)).exists_bound_of_continuousOn hf.continuousOn
  refine ⟨C, fun x hx => ?_⟩
  unfold oddExt
  split
  · rw [Complex.norm_real]; exact hC x hx
  · rw [Complex.norm_real, norm_neg]
    exact hC (-x) ⟨by linarith [hx.2], by linarith [hx.1]⟩

theorem oddExt_memLp {L : ℝ} {f : ℝ → ℝ} (hf : Continuous f) : MemLp (oddExt f) 2 (volume.restrict (Ioc (-L) L)) := by
  obtain ⟨C, hC⟩ := oddExt_bound (L := L) hf
  refine MemLp.of_bound (oddExt_measurable hf).aestronglyMeasurable C ?_
  refine (ae_restrict_iff' measurableSet_Ioc).mpr (Filter.Eventually.of_forall fun x hx => hC x (Ioc_subset_Icc_self hx))

theorem oddExt_integrable {L : ℝ} {f : ℝ → ℝ} (hf : Continuous f) (u v : ℝ) (hu : -L ≤ u) (hv : v ≤ L) (huv : u ≤ v)
    (k : ℝ → ℂ) (hk : Continuous k) : IntervalIntegrable (fun x => k x * oddExt f x) volume u v := by
  have h : IntervalIntegrable (oddExt f) volume u v := by
    rw [intervalIntegrable_iff_integrableOn_Ioc_of_le huv]
    have := (oddExt_memLp (L := L) hf).integrable (by norm_num)
    exact this.mono_measure (Measure.restrict_mono (Ioc_subset_Ioc hu hv) le_rfl)
  exact h.continuousOn_mul hk.continuousOn

theorem fourierCoeffOn_oddExt {L : ℝ} (hL : 0 < L) {f : ℝ → ℝ} (hf : Continuous f) (n : ℤ) :
    ‖fourierCoeffOn (show -L < L by linarith) (oddExt f) n‖ ^ 2 = sineInt L f n ^ 2 / L ^ 2 := by
  rw [fourierCoeffOn_eq_integral]
  have hk : Continuous fun x : ℝ => Complex.exp (2 * π * Complex.I * ((-n : ℤ) : ℂ) * x / ((L - -L : ℝ) : ℂ)) := by fun_prop
  have e : (∫ x in -L..L, (fourier (-n) (x : AddCircle (L - -L)) : ℂ) • oddExt f x) = -2 * Complex.I * sineInt L f n := by
    simp only [fourier_coe_apply, smul_eq_mul]
    rw [oddExt_integral hL (fun x z => Complex.exp (2 * π * Complex.I * ((-n : ℤ) : ℂ) * x / ((L - -L : ℝ) : ℂ)) * z)
      (oddExt_integrable (L := L) hf _ _ le_rfl hL.le (by linarith) _ hk)
      (oddExt_integrable (L := L) hf _ _ (by linarith) le_rfl hL.le _ hk)]
    rw [← intervalIntegral.integral_add, sineInt, ← intervalIntegral.integral_ofReal, ← intervalIntegral.integral_const_mul]
    · refine intervalIntegral.integral_congr fun x _ => ?_
      have hLc : (L : ℂ) ≠ 0 := by exact_mod_cast hL.ne'
      have e1 : 2 * π * Complex.I * ((-n : ℤ) : ℂ) * ((-x : ℝ) : ℂ) / ((L - -L : ℝ) : ℂ) = ((n * π * x / L : ℝ) : ℂ) * Complex.I := by
        push_cast
        field_simp
        ring
      have e2 : 2 * π * Complex.I * ((-n : ℤ) : ℂ) * (x : ℂ) / ((L - -L : ℝ) : ℂ) = ((-(n * π * x / L) : ℝ) : ℂ) * Complex.I := by
        push_cast
        field_simp
        ring
      simp only [e1, e2, Complex.exp_mul_I, ← Complex.ofReal_cos, ← Complex.ofReal_sin, cos_neg, sin_neg]
      push_cast
      ring
    · exact (Continuous.intervalIntegrable (by fun_prop) _ _)
    · exact (Continuous.intervalIntegrable (by fun_prop) _ _)
  rw [e, norm_smul, norm_mul, norm_mul, Complex.norm_I, Complex.norm_real, norm_neg]
  have : ‖(1 / (L - -L) : ℝ)‖ = 1 / (2 * L) := by
    rw [Real.norm_of_nonneg (by apply one_div_nonneg.mpr; linarith)]
    ring_nf
  rw [this, Complex.norm_ofNat, mul_one, mul_pow, mul_pow, Real.norm_eq_abs, sq_abs]
  field_simp

/-- **Parseval** for the sine series of a continuous function on `[0, L]`. -/
theorem parseval_sine {L : ℝ} (hL : 0 < L) {f : ℝ → ℝ} (hf : Continuous f) :
    HasSum (fun n : ℕ => sineInt L f ((n + 1 : ℕ) : ℤ) ^ 2) (L / 2 * ∫ x in (0 : ℝ)..L, f x ^ 2) := by
  have h := hasSum_sq_fourierCoeffOn (show -L < L by linarith) (oddExt_memLp (L := L) hf)
  simp only [fourierCoeffOn_oddExt hL hf] at h
  have hv : (∫ x in -L..L, ‖oddExt f x‖ ^ 2) = 2 * ∫ x in (0 : ℝ)..L, f x ^ 2 := by
    have hc : ∀ u v : ℝ, -L ≤ u → v ≤ L → u ≤ v → IntervalIntegrable (fun x => ‖oddExt f x‖ ^ 2) volume u v := fun u v hu hv huv => by
      rw [intervalIntegrable_iff_integrableOn_Ioc_of_le huv]
      have := ((oddExt_memLp (L := L) hf).integrable_norm_pow (by norm_num))
      exact this.mono_measure (Measure.restrict_mono (Ioc_subset_Ioc hu hv) le_rfl)
    rw [← intervalIntegral.integral_add_adjacent_intervals (hc (-L) 0 le_rfl hL.le (by linarith)) (hc 0 L (by linarith) le_rfl hL.le)]
    have a1 : (∫ x in -L..0, ‖oddExt f x‖ ^ 2) = ∫ x in (0 : ℝ)..L, f x ^ 2 := by
      have := intervalIntegral.integral_comp_neg (a := (0 : ℝ)) (b := L) (fun x => ‖oddExt f x‖ ^ 2)
      rw [neg_zero] at this
      rw [← this]
      refine intervalIntegral.integral_congr_ae (Filter.Eventually.of_forall fun x hx => ?_)
      rw [uIoc_of_le hL.le] at hx
      have : ¬ 0 ≤ -x := by have := hx.1; linarith
      simp [oddExt, this]
    have a2 : (∫ x in (0 : ℝ)..L, ‖oddExt f x‖ ^ 2) = ∫ x in (0 : ℝ)..L, f x ^ 2 := by
      refine intervalIntegral.integral_congr fun x hx => ?_
      rw [uIcc_of_le hL.le] at hx
      simp [oddExt, hx.1]
    rw [a1, a2]
    ring
  rw [hv] at h
  have h2 := h.nat_add_neg
  have h0 : sineInt L f 0 = 0 := by simp [sineInt]
  have hneg : ∀ n : ℕ, sineInt L f (-(n : ℤ)) = -sineInt L f n := fun n => by
    simp only [sineInt]
    rw [← intervalIntegral.integral_neg]
    refine intervalIntegral.integral_congr fun x _ => ?_
    show f x * sin (((-(n : ℤ) : ℤ) : ℝ) * π * x / L) = -(f x * sin (((n : ℤ) : ℝ) * π * x / L))
    rw [show ((-(n : ℤ) : ℤ) : ℝ) * π * x / L = -(((n : ℤ) : ℝ) * π * x / L) by push_cast; ring, sin_neg]
    ring
  simp only [hneg, neg_sq, h0] at h2
  have h3 := (hasSum_nat_add_iff' (f := fun n : ℕ => sineInt L f n ^ 2 / L ^ 2 + sineInt L f n ^ 2 / L ^ 2) 1).mpr h2
  have h4 := h3.mul_left (L ^ 2 / 2)
  simp only [Finset.range_one, Finset.sum_singleton] at h4
  have e : ∀ n : ℕ, L ^ 2 / 2 * (sineInt L f ((n + 1 : ℕ) : ℤ) ^ 2 / L ^ 2 + sineInt L f ((n + 1 : ℕ) : ℤ) ^ 2 / L ^ 2)
      = sineInt L f ((n + 1 : ℕ) : ℤ) ^ 2 := fun n => by field_simp; ring
  simp only [e] at h4
  refine hasSum_of_eq h4 (fun _ => rfl) ?_
  simp only [Nat.cast_zero, h0, smul_eq_mul]
  field_simp
  ring

/-- **Parseval** for two functions. -/
theorem parseval_sine₂ {L : ℝ} (hL : 0 < L) {f g : ℝ → ℝ} (hf : Continuous f) (hg : Continuous g) :
    HasSum (fun n : ℕ => sineInt L f ((n + 1 : ℕ) : ℤ) * sineInt L g ((n + 1 : ℕ) : ℤ)) (L / 2 * ∫ x in (0 : ℝ)..L, f x * g x) := by
  have h1 := parseval_sine hL (hf.add hg)
  have h2 := parseval_sine hL (hf.sub hg)
  have h := (h1.sub h2).mul_left (1 / 4)
  have ii : ∀ k : ℝ → ℝ, Continuous k → IntervalIntegrable k volume 0 L := fun k hk => hk.intervalIntegrable _ _
  have ea : ∀ n, sineInt L (fun x => f x + g x) n = sineInt L f n + sineInt L g n := fun n => by
    simp only [sineInt, add_mul]
    exact intervalIntegral.integral_add (ii _ (by fun_prop)) (ii _ (by fun_prop))
  have es : ∀ n, sineInt L (fun x => f x - g x) n = sineInt L f n - sineInt L g n := fun n => by
    simp only [sineInt, sub_mul]
    exact intervalIntegral.integral_sub (ii _ (by fun_prop)) (ii _ (by fun_prop))
  refine hasSum_of_eq h (fun n => ?_) ?_
  · show _ = 1 / 4 * (sineInt L (fun x => f x + g x) _ ^ 2 - sineInt L (fun x => f x - g x) _ ^ 2)
    rw [ea, es]
    ring
  · have e1 : (∫ x in (0 : ℝ)..L, (f + g) x ^ 2) - (∫ x in (0 : ℝ)..L, (f - g) x ^ 2) = 4 * ∫ x in (0 : ℝ)..L, f x * g x := by
      rw [← intervalIntegral.integral_sub (ii (fun x => (f + g) x ^ 2) ((hf.add hg).pow 2)) (ii (fun x => (f - g) x ^ 2) ((hf.sub hg).pow 2)), ← intervalIntegral.integral_const_mul]
      refine intervalIntegral.integral_congr fun x _ => ?_
      simp only [Pi.add_apply, Pi.sub_apply]
      ring
    rw [← mul_sub, e1]
    ring

/-- The product of two such series, over pairs. -/
theorem parseval_sine_prod {L M : ℝ} (hL : 0 < L) (hM : 0 < M) {f f' g g' : ℝ → ℝ} (hf : Continuous f) (hf' : Continuous f')
    (hg : Continuous g) (hg' : Continuous g') :
    HasSum (fun k : ℕ × ℕ => (sineInt L f ((k.1 + 1 : ℕ) : ℤ) * sineInt M g ((k.2 + 1 : ℕ) : ℤ))
        * (sineInt L f' ((k.1 + 1 : ℕ) : ℤ) * sineInt M g' ((k.2 + 1 : ℕ) : ℤ)))
      (L * M / 4 * ((∫ x in (0 : ℝ)..L, f x * f' x) * ∫ y in (0 : ℝ)..M, g y * g' y)) := by
  have h1 := parseval_sine₂ hL hf hf'
  have h2 := parseval_sine₂ hM hg hg'
  have h := h1.mul h2 (summable_mul_of_summable_norm h1.summable.norm h2.summable.norm)
  exact hasSum_of_eq h (fun k => by ring) (by ring)

end Verif
