import Mathlib.MeasureTheory.Integral.IntervalIntegral.FundThmCalculus
import Mathlib.Analysis.SpecialFunctions.Trigonometric.Deriv
import Mathlib.Topology.Order.IntermediateValue

/-!
# The sharp Wirtinger inequality

A continuously differentiable function on `[0, a]` with equal end values and zero mean satisfies
`(2 pi / a)^2 ∫ f^2 ≤ ∫ f'^2`. This is pure analysis, used for the Euler bound on clamped plates.
-/

open Real intervalIntegral MeasureTheory Set Filter Topology

namespace Verif

variable {u u' : ℝ → ℝ}

/-- Completing the square with a shifted cotangent: no singularity as long as the phase stays inside `(0, pi)`. -/
theorem cot_phase {k p x e : ℝ} (hu : ∀ t, HasDerivAt u (u' t) t) (hc : Continuous u') (hp : u p = 0) (hpx : p ≤ x)
    (hk : 0 ≤ k) (he : 0 < e) (hx : k * (x - p) + e < π) :
    k ^ 2 * (∫ t in p..x, u t ^ 2) + k * (cos (k * (x - p) + e) / sin (k * (x - p) + e)) * u x ^ 2
      ≤ ∫ t in p..x, u' t ^ 2 := by
  have huc : Continuous u := continuous_iff_continuousAt.mpr fun t => (hu t).continuousAt
  have hs : ∀ t ∈ Icc p x, 0 < sin (k * (t - p) + e) := fun t ht => by
    have h1 : 0 ≤ k * (t - p) := mul_nonneg hk (by linarith [ht.1])
    have h2 : k * (t - p) ≤ k * (x - p) := mul_le_mul_of_nonneg_left (by linarith [ht.2]) hk
    exact sin_pos_of_pos_of_lt_pi (by linarith) (by linarith)
  have hB : ∀ t ∈ uIcc p x, HasDerivAt
      (fun t => k * (cos (k * (t - p) + e) / sin (k * (t - p) + e)) * u t ^ 2)
      (2 * k * (cos (k * (t - p) + e) / sin (k * (t - p) + e)) * u t * u' t - k ^ 2 * u t ^ 2 / sin (k * (t - p) + e) ^ 2)
      t := fun t ht => by
    rw [uIcc_of_le hpx] at ht
    have h0 := (hs t ht).ne'
    have hl : HasDerivAt (fun t => k * (t - p) + e) k t := by
      simpa using (((hasDerivAt_id t).sub_const p).const_mul k).add_const e
    have hd := ((hl.cos.div hl.sin h0).const_mul k).mul ((hu t).pow 2)
    refine hd.congr_deriv ?_
    have hsc := sin_sq_add_cos_sq (k * (t - p) + e)
    simp only [Pi.pow_apply, Pi.div_apply]
    field_simp
    linear_combination (-(k ^ 2 * u t ^ 2)) * hsc
  have hcont : ContinuousOn (fun t => 2 * k * (cos (k * (t - p) + e) / sin (k * (t - p) + e)) * u t * u' t
      - k ^ 2 * u t ^ 2 / sin (k * (t - p) + e) ^ 2) (uIcc p x) := by
    rw [uIcc_of_le hpx]
    have hsn : ContinuousOn (fun t => sin (k * (t - p) + e)) (Icc p x) := by fun_prop
    have hcs : ContinuousOn (fun t => cos (k * (t - p) + e)) (Icc p x) := by fun_prop
    have hu1 := huc.continuousOn (s := Icc p x)
    have hu2 := hc.continuousOn (s := Icc p x)
    exact (((continuousOn_const.mul (hcs.div hsn fun t ht => (hs t ht).ne')).mul hu1).mul hu2).sub
      ((continuousOn_const.mul (hu1.pow 2)).div (hsn.pow 2) fun t ht => (pow_pos (hs t ht) 2).ne')
  have hI := integral_eq_sub_of_hasDerivAt hB hcont.intervalIntegrable
  simp only [hp] at hI
  have hi1 : IntervalIntegrable (fun t => u' t ^ 2) volume p x := (hc.pow 2).intervalIntegrable _ _
  have hi2 : IntervalIntegrable (fun t => k ^ 2 * u t ^ 2) volume p x := ((huc.pow 2).const_mul _).intervalIntegrable _ _
  have hmono := integral_mono_on hpx (hi2.add hcont.intervalIntegrable) hi1 (fun t ht => by
    have h0 := (hs t ht).ne'
    have hsc := sin_sq_add_cos_sq (k * (t - p) + e)
    have : u' t ^ 2 - (k ^ 2 * u t ^ 2 + (2 * k * (cos (k * (t - p) + e) / sin (k * (t - p) + e)) * u t * u' t
        - k ^ 2 * u t ^ 2 / sin (k * (t - p) + e) ^ 2))
        = (u' t - k * u t * (cos (k * (t - p) + e) / sin (k * (t - p) + e))) ^ 2 := by
      field_simp
      linear_combination (-(k ^ 2 * u t ^ 2)) * hsc
    nlinarith [sq_nonneg (u' t - k * u t * (cos (k * (t - p) + e) / sin (k * (t - p) + e)))])
  rw [integral_add hi2 hcont.intervalIntegrable, hI, intervalIntegral.integral_const_mul] at hmono
  linarith

/-- From a zero on the left. -/
theorem cot_left {k p x : ℝ} (hu : ∀ t, HasDerivAt u (u' t) t) (hc : Continuous u') (hp : u p = 0) (hpx : p < x)
    (hk : 0 < k) (hx : k * (x - p) < π) :
    k ^ 2 * (∫ t in p..x, u t ^ 2) + k * (cos (k * (x - p)) / sin (k * (x - p))) * u x ^ 2 ≤ ∫ t in p..x, u' t ^ 2 := by
  have h0 : sin (k * (x - p)) ≠ 0 := (sin_pos_of_pos_of_lt_pi (mul_pos hk (by linarith)) hx).ne'
  have hcont : ContinuousAt (fun e => k ^ 2 * (∫ t in p..x, u t ^ 2)
      + k * (cos (k * (x - p) + e) / sin (k * (x - p) + e)) * u x ^ 2) 0 := by
    have h1 : ContinuousAt (fun e : ℝ => sin (k * (x - p) + e)) 0 := by fun_prop
    have h2 : ContinuousAt (fun e : ℝ => cos (k * (x - p) + e)) 0 := by fun_prop
    exact continuousAt_const.add ((continuousAt_const.mul (h2.div h1 (by simpa using h0))).mul continuousAt_const)
  have hlim := hcont.tendsto.mono_left (nhdsWithin_le_nhds (s := Ioi 0))
  simp only [add_zero] at hlim
  refine le_of_tendsto hlim ?_
  filter_upwards [self_mem_nhdsWithin, Ioo_mem_nhdsGT (show (0 : ℝ) < π - k * (x - p) by linarith)] with e he he'
  exact cot_phase hu hc hp hpx.le hk.le he (by linarith [he'.2])

/-- From a zero on the right. -/
theorem cot_right {k x q : ℝ} (hu : ∀ t, HasDerivAt u (u' t) t) (hc : Continuous u') (hq : u q = 0) (hxq : x < q)
    (hk : 0 < k) (hx : k * (q - x) < π) :
    k ^ 2 * (∫ t in x..q, u t ^ 2) + k * (cos (k * (q - x)) / sin (k * (q - x))) * u x ^ 2 ≤ ∫ t in x..q, u' t ^ 2 := by
  have hv : ∀ t, HasDerivAt (fun t => u (-t)) (-(u' (-t))) t := fun t => by
    have := (hu (-t)).comp t (hasDerivAt_neg t)
    simpa [Function.comp_def] using this
  have h := cot_left (u := fun t => u (-t)) (u' := fun t => -(u' (-t))) (p := -q) (x := -x) hv
    (hc.comp continuous_neg).neg (by simpa using hq) (by linarith) hk (by linarith)
  have e1 : ∫ t in (-q)..(-x), u (-t) ^ 2 = ∫ t in x..q, u t ^ 2 := by
    rw [integral_comp_neg (fun t => u t ^ 2)]; simp
  have e2 : ∫ t in (-q)..(-x), (-(u' (-t))) ^ 2 = ∫ t in x..q, u' t ^ 2 := by
    simp only [neg_sq]
    rw [integral_comp_neg (fun t => u' t ^ 2)]; simp
  rw [e1, e2, show -x - -q = q - x by ring, neg_neg] at h
  exact h

/-- Zeros on both ends: the constant is `(pi / length)^2`. -/
theorem poincare {p q : ℝ} (hu : ∀ t, HasDerivAt u (u' t) t) (hc : Continuous u') (hp : u p = 0) (hq : u q = 0)
    (hpq : p < q) : (π / (q - p)) ^ 2 * (∫ t in p..q, u t ^ 2) ≤ ∫ t in p..q, u' t ^ 2 := by
  have huc : Continuous u := continuous_iff_continuousAt.mpr fun t => (hu t).continuousAt
  have hl : 0 < q - p := by linarith
  have hk : 0 < π / (q - p) := div_pos pi_pos hl
  have e1 : π / (q - p) * ((p + q) / 2 - p) = π / 2 := by field_simp; ring
  have e2 : π / (q - p) * (q - (p + q) / 2) = π / 2 := by field_simp; ring
  have h1 := cot_left hu hc hp (x := (p + q) / 2) (by linarith) hk (by rw [e1]; linarith [pi_pos])
  have h2 := cot_right hu hc hq (x := (p + q) / 2) (by linarith) hk (by rw [e2]; linarith [pi_pos])
  rw [e1, cos_pi_div_two, zero_div, mul_zero, zero_mul, add_zero] at h1
  rw [e2, cos_pi_div_two, zero_div, mul_zero, zero_mul, add_zero] at h2
  have hu2 : Continuous fun t => u t ^ 2 := huc.pow 2
  have hc2 : Continuous fun t => u' t ^ 2 := hc.pow 2
  rw [← integral_add_adjacent_intervals (b := (p + q) / 2) (hu2.intervalIntegrable _ _) (hu2.intervalIntegrable _ _),
    ← integral_add_adjacent_intervals (b := (p + q) / 2) (hc2.intervalIntegrable _ _) (hc2.intervalIntegrable _ _)]
  linarith

/-- The Wirtinger inequality. -/
theorem wirtinger {f f' : ℝ → ℝ} {a : ℝ} (ha : 0 < a) (hf : ∀ t, HasDerivAt f (f' t) t) (hc : Continuous f')
    (hper : f 0 = f a) (hmean : ∫ t in (0 : ℝ)..a, f t = 0) :
    (2 * π / a) ^ 2 * (∫ t in (0 : ℝ)..a, f t ^ 2) ≤ ∫ t in (0 : ℝ)..a, f' t ^ 2 := by
  have hfc : Continuous f := continuous_iff_continuousAt.mpr fun t => (hf t).continuousAt
  -- a point with equal values half a period apart
  obtain ⟨x0, hx0, hx⟩ : ∃ x0 ∈ Icc 0 (a / 2), f (x0 + a / 2) - f x0 = 0 := by
    have hg : ContinuousOn (fun t => f (t + a / 2) - f t) (Icc 0 (a / 2)) := by fun_prop
    have e0 : f (0 + a / 2) - f 0 = -(f (a / 2 + a / 2) - f (a / 2)) := by
      rw [zero_add, add_halves, hper]; ring
    rcases le_total 0 (f (0 + a / 2) - f 0) with h | h
    · exact intermediate_value_Icc' (by linarith) hg ⟨by linarith, h⟩
    · exact intermediate_value_Icc (by linarith) hg ⟨h, by linarith⟩
  set c := f x0
  have hu : ∀ t, HasDerivAt (fun t => f t - c) (f' t) t := fun t => (hf t).sub_const c
  have huc : Continuous fun t => (f t - c) ^ 2 := by fun_prop
  have hsq : Continuous fun t => f' t ^ 2 := hc.pow 2
  -- the shifted function
  have hshift : ∫ t in (0 : ℝ)..a, (f t - c) ^ 2 = (∫ t in (0 : ℝ)..a, f t ^ 2) + c ^ 2 * a := by
    have : ∀ t, (f t - c) ^ 2 = f t ^ 2 - 2 * c * f t + c ^ 2 := fun t => by ring
    simp only [this]
    rw [integral_add (Continuous.intervalIntegrable (by fun_prop) _ _) (Continuous.intervalIntegrable (by fun_prop) _ _),
      integral_sub (Continuous.intervalIntegrable (by fun_prop) _ _) (Continuous.intervalIntegrable (by fun_prop) _ _),
      intervalIntegral.integral_const_mul, hmean, intervalIntegral.integral_const]
    simp [mul_comm]
  have key : (2 * π / a) ^ 2 * (∫ t in (0 : ℝ)..a, (f t - c) ^ 2) ≤ ∫ t in (0 : ℝ)..a, f' t ^ 2 := by
    have hh : ∀ p : ℝ, π / (p + a / 2 - p) = 2 * π / a := fun p => by
      rw [add_sub_cancel_left]; field_simp
    by_cases hend : f 0 = c ∧ f (a / 2) = c
    · have h1 := poincare hu hc (p := 0) (q := 0 + a / 2) (by simp [hend.1]) (by simp [hend.2]) (by linarith)
      have h2 := poincare hu hc (p := a / 2) (q := a / 2 + a / 2) (by simp [hend.2]) (by simp [← hper, hend.1])
        (by linarith)
      rw [hh] at h1 h2
      rw [zero_add] at h1
      rw [add_halves] at h2
      rw [← integral_add_adjacent_intervals (b := a / 2) (huc.intervalIntegrable _ _) (huc.intervalIntegrable _ _),
        ← integral_add_adjacent_intervals (b := a / 2) (hsq.intervalIntegrable _ _) (hsq.intervalIntegrable _ _)]
      linarith
    · have hx0' : 0 < x0 := lt_of_le_of_ne hx0.1 fun h => hend ⟨by rw [h], by
        have := hx; rw [← h, zero_add] at this; simp only [c, ← h] at *; linarith⟩
      have hx1 : x0 < a / 2 := lt_of_le_of_ne hx0.2 fun h => hend ⟨by
        have := hx; rw [h, add_halves] at this; rw [hper]; linarith, by simp only [c, h]⟩
      have hk : 0 < 2 * π / a := by positivity
      have h1 := poincare hu hc (p := x0) (q := x0 + a / 2) (by simp [c]) (by simp only [c]; linarith) (by linarith)
      have a1 : 2 * π / a * (x0 - 0) < π := by
        rw [div_mul_eq_mul_div, div_lt_iff₀ ha]; nlinarith [pi_pos]
      have a2 : 2 * π / a * (a - (x0 + a / 2)) = π - 2 * π / a * (x0 - 0) := by field_simp; ring
      have h2 := cot_right hu hc (x := 0) (q := x0) (by simp [c]) hx0' hk a1
      have h3 := cot_left hu hc (p := x0 + a / 2) (x := a) (by simp only [c]; linarith) (by linarith) hk (by
        rw [a2]
        have : 0 < 2 * π / a * (x0 - 0) := mul_pos hk (by linarith)
        linarith)
      rw [hh] at h1
      rw [a2, cos_pi_sub, sin_pi_sub, ← hper] at h3
      rw [← integral_add_adjacent_intervals (b := x0 + a / 2) (huc.intervalIntegrable 0 _) (huc.intervalIntegrable _ a),
        ← integral_add_adjacent_intervals (b := x0) (huc.intervalIntegrable 0 _)
          (huc.intervalIntegrable _ (x0 + a / 2)),
        ← integral_add_adjacent_intervals (b := x0 + a / 2) (hsq.intervalIntegrable 0 _) (hsq.intervalIntegrable _ a),
        ← integral_add_adjacent_intervals (b := x0) (hsq.intervalIntegrable 0 _)
          (hsq.intervalIntegrable _ (x0 + a / 2))]
      have : 2 * π / a * (-cos (2 * π / a * (x0 - 0)) / sin (2 * π / a * (x0 - 0))) * (f 0 - c) ^ 2
          = -(2 * π / a * (cos (2 * π / a * (x0 - 0)) / sin (2 * π / a * (x0 - 0))) * (f 0 - c) ^ 2) := by ring
      linarith
  rw [hshift] at key
  have : 0 ≤ (2 * π / a) ^ 2 * (c ^ 2 * a) := by positivity
  linarith

end Verif
