import Mathlib.Topology.ContinuousMap.Weierstrass
import Mathlib.Analysis.Calculus.MeanValue
import Mathlib.Analysis.Calculus.LocalExtr.Rolle
import Mathlib.Analysis.Calculus.Deriv.Polynomial
import Mathlib.Analysis.SpecialFunctions.Integrals.Basic

/-!
# Polynomials that vanish at both ends and approximate a function with two derivatives
-/

namespace Verif
open Polynomial MeasureTheory Set

/-- Every polynomial is a derivative. -/
theorem exists_antideriv (p : ℝ[X]) : ∃ q : ℝ[X], derivative q = p := by
  induction p using Polynomial.induction_on' with
  | add p q hp hq =>
    obtain ⟨p', rfl⟩ := hp
    obtain ⟨q', rfl⟩ := hq
    exact ⟨p' + q', by simp⟩
  | monomial n c =>
    refine ⟨monomial (n + 1) (c / (n + 1)), ?_⟩
    rw [derivative_monomial]
    simp only [Nat.add_sub_cancel]
    congr 1
    have : (n : ℝ) + 1 ≠ 0 := by positivity
    push_cast
    field_simp

/-- The bounds for a function with two derivatives that vanishes at both ends. -/
theorem small_of_second {a e : ℝ} (ha : 0 < a) {h h' h'' : ℝ → ℝ} (d1 : ∀ x, HasDerivAt h (h' x) x) (d2 : ∀ x, HasDerivAt h' (h'' x) x)
    (h0 : h 0 = 0) (h1 : h a = 0) (hb : ∀ x ∈ Icc 0 a, |h'' x| ≤ e) :
    (∀ x ∈ Icc 0 a, |h' x| ≤ e * a) ∧ ∀ x ∈ Icc 0 a, |h x| ≤ e * a * a := by
  obtain ⟨c, hc, hz⟩ := exists_hasDerivAt_eq_zero ha (fun x _ => (d1 x).continuousAt.continuousWithinAt) (h0.trans h1.symm) fun x _ => d1 x
  have hcc : c ∈ Icc 0 a := Ioo_subset_Icc_self hc
  have he : 0 ≤ e := (abs_nonneg _).trans (hb c hcc)
  have k1 : ∀ x ∈ Icc 0 a, |h' x| ≤ e * a := fun x hx => by
    have := Convex.norm_image_sub_le_of_norm_hasDerivWithin_le (s := Icc 0 a) (fun x _ => (d2 x).hasDerivWithinAt) hb (convex_Icc 0 a) hcc hx
    rw [hz, sub_zero, Real.norm_eq_abs, Real.norm_eq_abs] at this
    refine this.trans (mul_le_mul_of_nonneg_left ?_ he)
    rw [abs_le]
    constructor <;> linarith [hx.1, hx.2, hc.1, hc.2]
  refine ⟨k1, fun x hx => ?_⟩
  have z0 : (0 : ℝ) ∈ Icc 0 a := ⟨le_rfl, ha.le⟩
  have := Convex.norm_image_sub_le_of_norm_hasDerivWithin_le (s := Icc 0 a) (fun x _ => (d1 x).hasDerivWithinAt) k1 (convex_Icc 0 a) z0 hx
  rw [h0, sub_zero, sub_zero, Real.norm_eq_abs, Real.norm_eq_abs] at this
  refine this.trans (mul_le_mul_of_nonneg_left ?_ (mul_nonneg he ha.le))
  rw [abs_of_nonneg hx.1]
  exact hx.2

/-- A function with two continuous derivatives that vanishes at both ends is approximated, together with these derivatives, by
polynomials that vanish at both ends. -/
theorem exists_poly_near {a : ℝ} (ha : 0 < a) {s s' s'' : ℝ → ℝ} (d1 : ∀ x, HasDerivAt s (s' x) x) (d2 : ∀ x, HasDerivAt s' (s'' x) x)
    (hc : Continuous s'') (h0 : s 0 = 0) (h1 : s a = 0) {e : ℝ} (he : 0 < e) :
    ∃ P : ℝ[X], P.eval 0 = 0 ∧ P.eval a = 0 ∧ ∀ x ∈ Icc 0 a, |P.eval x - s x| ≤ e ∧ |(derivative P).eval x - s' x| ≤ e ∧
      |(derivative (derivative P)).eval x - s'' x| ≤ e := by
  set d := e / (1 + a + a * a) with hd
  have hpos : 0 < 1 + a + a * a := by positivity
  have hd0 : 0 < d := div_pos he hpos
  obtain ⟨g, hg⟩ := exists_polynomial_near_of_continuousOn 0 a s'' hc.continuousOn d hd0
  obtain ⟨G1, hG1⟩ := exists_antideriv g
  obtain ⟨G, hG⟩ := exists_antideriv G1
  set P : ℝ[X] := G - C (G.eval 0) - C ((G.eval a - G.eval 0) / a) * X with hP
  have p2 : derivative (derivative P) = g := by simp [hP, hG, hG1]
  have z0 : P.eval 0 = 0 := by simp [hP]
  have z1 : P.eval a = 0 := by simp [hP, ha.ne']
  have hb : ∀ x ∈ Icc 0 a, |(derivative (derivative P)).eval x - s'' x| ≤ d := fun x hx => by rw [p2]; exact (hg x hx).le
  obtain ⟨k1, k0⟩ := small_of_second ha (h := fun x => P.eval x - s x) (h' := fun x => (derivative P).eval x - s' x)
    (h'' := fun x => (derivative (derivative P)).eval x - s'' x) (fun x => (P.hasDerivAt x).sub (d1 x))
    (fun x => ((derivative P).hasDerivAt x).sub (d2 x)) (by simp [z0, h0]) (by simp [z1, h1]) hb
  have hde : d * (1 + a + a * a) = e := div_mul_cancel₀ _ hpos.ne'
  have m1 : 0 < d * a := by positivity
  have m2 : 0 < d * a * a := by positivity
  refine ⟨P, z0, z1, fun x hx => ⟨(k0 x hx).trans ?_, (k1 x hx).trans ?_, (hb x hx).trans ?_⟩⟩ <;> nlinarith

/-- Uniformly close functions have close integrals of squares. -/
theorem square_near {a e M : ℝ} (ha : 0 < a) {f g : ℝ → ℝ} (hf : Continuous f) (hg : Continuous g) (he : 0 ≤ e) (he1 : e ≤ 1)
    (hM : ∀ x ∈ Icc 0 a, |g x| ≤ M) (h : ∀ x ∈ Icc 0 a, |f x - g x| ≤ e) :
    |(∫ x in (0 : ℝ)..a, f x * f x) - ∫ x in (0 : ℝ)..a, g x * g x| ≤ e * (2 * M + 1) * a := by
  have ii : ∀ k : ℝ → ℝ, Continuous k → IntervalIntegrable k volume 0 a := fun k hk => hk.intervalIntegrable _ _
  rw [← intervalIntegral.integral_sub (ii (fun x => f x * f x) (by fun_prop)) (ii (fun x => g x * g x) (by fun_prop))]
  have := intervalIntegral.norm_integral_le_of_norm_le_const (a := 0) (b := a) (f := fun x => f x * f x - g x * g x) (C := e * (2 * M + 1))
    fun x hx => by
      rw [uIoc_of_le ha.le] at hx
      have hx' := Ioc_subset_Icc_self hx
      have h1 := h x hx'
      have h2 := hM x hx'
      have hs : |f x + g x| ≤ 2 * M + 1 := by
        have : f x + g x = (f x - g x) + 2 * g x := by ring
        rw [this]
        refine (abs_add_le _ _).trans ?_
        rw [abs_mul, abs_two]
        linarith
      rw [show f x * f x - g x * g x = (f x - g x) * (f x + g x) by ring, Real.norm_eq_abs, abs_mul]
      exact mul_le_mul h1 hs (abs_nonneg _) he
  rw [Real.norm_eq_abs, sub_zero, abs_of_pos ha] at this
  exact this

end Verif
