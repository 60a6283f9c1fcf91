import Verif.Props.Convex

/-!
# C106: the multipliers are bounded above

A polynomial of degree `n` on `[-1, 1]` satisfies `∫ p'^2 ≤ n (n+1)^2 (n+2) / 4 ∫ p^2`.  Hence the curvatures of a deflection are bounded by its
slopes, and all multipliers of a compressed plate are below a bound that grows with the number of terms.
-/

namespace Composipy
open Spec Matrix Polynomial MeasureTheory
open scoped Nat

variable {a b : ℝ}

/-! ## Legendre polynomials -/

theorem legendre_orth' {q : ℝ[X]} {n : ℕ} (h : q.degree < n) : pint (q * legendre n) = 0 := by
  have : q * legendre n = C (1 / (2 ^ n * (n ! : ℝ))) * (q * derivative^[n] ((X ^ 2 - 1) ^ n)) := by
    rw [legendre.eq_def n]
    ring
  rw [this, pint_C_mul, pint_move n n le_rfl, iterate_derivative_eq_zero_of_degree_lt h]
  simp [pint]

theorem legendre_degree_le (n : ℕ) : (legendre n).degree ≤ n := natDegree_le_iff_degree_le.mp (natDegree_legendre_le n)

theorem legendre_coeff (n : ℕ) : (legendre n).coeff n ≠ 0 := by
  have d : derivative^[n] (legendre n) = C (1 / (2 ^ n * (n ! : ℝ)) * ((2 * n)! : ℝ)) := by
    rw [legendre, iterate_derivative_C_mul, ← Function.iterate_add_apply, ← two_mul, derivative_full, C_mul]
  have h := congrArg (fun p => p.coeff 0) d
  simp only [coeff_iterate_derivative, coeff_C_zero, zero_add] at h
  intro h0
  rw [h0, smul_zero] at h
  have p1 : (n ! : ℝ) ≠ 0 := by exact_mod_cast Nat.factorial_ne_zero _
  have p2 : ((2 * n)! : ℝ) ≠ 0 := by exact_mod_cast Nat.factorial_ne_zero _
  have : (1 / (2 ^ n * (n ! : ℝ)) * ((2 * n)! : ℝ)) ≠ 0 := by positivity
  exact this h.symm

theorem pint_sq_zero {p : ℝ[X]} (h : pint (p * p) = 0) : p = 0 := by
  by_contra hp
  have hc : Continuous fun x => (p * p).eval x := (p * p).continuous
  obtain ⟨x, hx, hne⟩ : ∃ x ∈ Set.Icc (-1 : ℝ) 1, (p * p).eval x ≠ 0 := by
    by_contra hcon
    push Not at hcon
    refine hp (Polynomial.eq_zero_of_infinite_isRoot p ?_)
    refine (Set.Icc_infinite (show (-1 : ℝ) < 1 by norm_num)).mono fun x hx => ?_
    have := hcon x hx
    rw [eval_mul, mul_self_eq_zero] at this
    exact this
  have := intervalIntegral.integral_pos (show (-1 : ℝ) < 1 by norm_num) hc.continuousOn
    (fun x _ => by rw [eval_mul]; exact mul_self_nonneg _) ⟨x, hx, lt_of_le_of_ne (by rw [eval_mul]; exact mul_self_nonneg _) hne.symm⟩
  rw [pint] at h
  linarith

/-- The differential equation. -/
theorem legendre_ode (n : ℕ) : derivative ((X ^ 2 - 1) * derivative (legendre n)) = C ((n : ℝ) * (n + 1)) * legendre n := by
  set P := legendre n
  set R := derivative ((X ^ 2 - 1) * derivative P) - C ((n : ℝ) * (n + 1)) * P with hR
  have hco : ∀ k, n < k → P.coeff k = 0 := fun k hk => coeff_eq_zero_of_degree_lt (lt_of_le_of_lt (legendre_degree_le n) (by exact_mod_cast hk))
  have hcoef : ∀ k, (derivative ((X ^ 2 - 1) * derivative P)).coeff k = (k + 1) * ((k : ℝ) * P.coeff k - (k + 2) * P.coeff (k + 2)) := by
    intro k
    rw [coeff_derivative, sub_mul, coeff_sub, one_mul, coeff_derivative]
    have : (X ^ 2 * derivative P).coeff (k + 1) = (k : ℝ) * P.coeff k := by
      rw [mul_comm]
      cases k with
      | zero => rw [coeff_mul_X_pow']; simp
      | succ k =>
        rw [show k + 1 + 1 = k + 2 by ring, coeff_mul_X_pow, coeff_derivative]
        push_cast
        ring
    rw [this]
    push_cast
    ring
  have hdeg : R.degree < n := by
    rw [degree_lt_iff_coeff_zero]
    intro k hk
    rw [hR, coeff_sub, hcoef, coeff_C_mul, hco (k + 2) (by omega)]
    rcases hk.lt_or_eq with h | rfl
    · rw [hco k h]; simp
    · ring
  have h1 : pint (R * R) = 0 := by
    have e1 : pint (R * (C ((n : ℝ) * (n + 1)) * P)) = 0 := by
      rw [← mul_assoc, mul_comm R, mul_assoc, pint_C_mul, legendre_orth' hdeg, mul_zero]
    have e2 : pint (R * derivative ((X ^ 2 - 1) * derivative P)) = 0 := by
      rw [pint_by_parts]
      have e3 : derivative R * ((X ^ 2 - 1) * derivative P) = (derivative R * (X ^ 2 - 1)) * derivative P := by ring
      have e4 : (derivative (derivative R * (X ^ 2 - 1))).degree < n := by
        rw [degree_lt_iff_coeff_zero] at hdeg ⊢
        intro k hk
        have e5 : (derivative R * (X ^ 2 - 1)).coeff (k + 1) = (k : ℝ) * R.coeff k - (k + 2) * R.coeff (k + 2) := by
          rw [mul_sub, coeff_sub, mul_one, coeff_derivative]
          have : (derivative R * X ^ 2).coeff (k + 1) = (k : ℝ) * R.coeff k := by
            cases k with
            | zero => rw [coeff_mul_X_pow']; simp
            | succ k =>
              rw [show k + 1 + 1 = k + 2 by ring, coeff_mul_X_pow, coeff_derivative]
              push_cast
              ring
          rw [this]
          push_cast
          ring
        rw [coeff_derivative, e5, hdeg k hk, hdeg (k + 2) (by omega)]
        ring
      rw [e3, pint_by_parts, legendre_orth' e4]
      simp
    have : R * R = R * derivative ((X ^ 2 - 1) * derivative P) - R * (C ((n : ℝ) * (n + 1)) * P) := by rw [← mul_sub]
    rw [this, pint_sub, e1, e2, sub_zero]
  exact sub_eq_zero.mp (pint_sq_zero h1)

/-- The values at the ends. -/
theorem legendre_ends (n : ℕ) : (legendre n).eval 1 ^ 2 + (legendre n).eval (-1) ^ 2 = 2 := by
  set P := legendre n
  have h := pint_derivative (X * (P * P))
  have hq : (X * derivative P - C (n : ℝ) * P).degree < ((n : ℕ) : WithBot ℕ) := by
    rw [degree_lt_iff_coeff_zero]
    intro k hk
    have : (X * derivative P).coeff k = k * P.coeff k := by
      cases k with
      | zero => simp
      | succ k => rw [coeff_X_mul, coeff_derivative]; push_cast; ring
    rw [coeff_sub, coeff_C_mul, this]
    rcases hk.lt_or_eq with h | rfl
    · rw [coeff_eq_zero_of_degree_lt (lt_of_le_of_lt (legendre_degree_le n) (by exact_mod_cast h))]; simp
    · ring
  have e : derivative (X * (P * P)) = C (2 * (n : ℝ) + 1) * (P * P) + C 2 * ((X * derivative P - C (n : ℝ) * P) * P) := by
    simp only [derivative_mul, derivative_X, C_add, C_mul, C_1]
    rw [show (C 2 : ℝ[X]) = 2 from rfl]
    ring
  rw [e, pint_add, pint_C_mul, pint_C_mul, legendre_orth' hq, legendre_norm, mul_zero, add_zero, mul_div_cancel₀ _ (by positivity)] at h
  simp only [eval_mul, eval_X] at h
  linarith

/-- The norm of the derivative. -/
theorem legendre_deriv_norm (n : ℕ) : pint (derivative (legendre n) * derivative (legendre n)) = n * (n + 1) := by
  have hode := legendre_ode n
  have hends := legendre_ends n
  set P := legendre n
  have hd : (derivative (derivative P)).degree < n := by
    rw [degree_lt_iff_coeff_zero]
    intro k hk
    rw [coeff_derivative, coeff_derivative, coeff_eq_zero_of_degree_lt (lt_of_le_of_lt (legendre_degree_le n) (by exact_mod_cast by omega))]
    simp
  rw [pint_by_parts, legendre_orth' hd, sub_zero, eval_mul, eval_mul]
  have h1 := congrArg (eval 1) hode
  have h2 := congrArg (eval (-1)) hode
  simp only [derivative_mul, derivative_sub, derivative_X_pow, derivative_one, eval_add, eval_mul, eval_sub, eval_pow, eval_X, eval_one, eval_C] at h1 h2
  norm_num at h1 h2
  linear_combination (P.eval 1 / 2) * h1 + (P.eval (-1) / 2) * h2 + (n * (n + 1) / 2 : ℝ) * hends

/-- Expansion in Legendre polynomials. -/
theorem legendre_expand (n : ℕ) (p : ℝ[X]) (hp : p.degree < (n + 1 : ℕ)) : ∃ c : ℕ → ℝ, p = ∑ j ∈ Finset.range (n + 1), C (c j) * legendre j := by
  induction n generalizing p with
  | zero =>
    have hp0 : p.natDegree = 0 := by
      rw [degree_lt_iff_coeff_zero] at hp
      exact Nat.le_zero.mp (natDegree_le_iff_coeff_eq_zero.mpr fun k hk => hp k hk)
    have hl0 : (legendre 0).natDegree = 0 := Nat.le_zero.mp (natDegree_legendre_le 0)
    have hl := legendre_coeff 0
    refine ⟨fun _ => p.coeff 0 / (legendre 0).coeff 0, ?_⟩
    rw [Finset.sum_range_one]
    conv_lhs => rw [eq_C_of_natDegree_eq_zero hp0]
    conv_rhs => rw [eq_C_of_natDegree_eq_zero hl0]
    rw [← C_mul, coeff_C_zero, div_mul_cancel₀ _ hl]
  | succ n ih =>
    have hl := legendre_coeff (n + 1)
    obtain ⟨c, hc⟩ := ih (p - C (p.coeff (n + 1) / (legendre (n + 1)).coeff (n + 1)) * legendre (n + 1)) (by
      rw [degree_lt_iff_coeff_zero] at hp ⊢
      intro k hk
      rw [coeff_sub, coeff_C_mul]
      rcases hk.lt_or_eq with h | rfl
      · have h0 : (legendre (n + 1)).coeff k = 0 := coeff_eq_zero_of_degree_lt (lt_of_le_of_lt (legendre_degree_le _) (by exact_mod_cast h))
        rw [hp k h, h0, mul_zero, sub_zero]
      · rw [div_mul_cancel₀ _ hl, sub_self])
    refine ⟨Function.update c (n + 1) (p.coeff (n + 1) / (legendre (n + 1)).coeff (n + 1)), ?_⟩
    rw [Finset.sum_range_succ, Function.update_self]
    rw [Finset.sum_congr rfl fun j hj => by rw [Function.update_of_ne (Finset.mem_range.mp hj).ne], ← hc]
    ring

/-- The constant of the inequality. -/
noncomputable def Spec.markov (n : ℕ) : ℝ := n * (n + 1) ^ 2 * (n + 2) / 4

theorem markov_sum (n : ℕ) : ∑ j ∈ Finset.range (n + 1), (2 * (j : ℝ) + 1) / 2 * (j * (j + 1)) = markov n := by
  induction n with
  | zero => simp [markov]
  | succ n ih =>
    rw [Finset.sum_range_succ, ih, markov, markov]
    push_cast
    ring

/-- **C106** the slope of a polynomial of degree at most `n` on `[-1, 1]`, in the mean square. -/
theorem markov_ineq {n : ℕ} {p : ℝ[X]} (hp : p.degree < (n + 1 : ℕ)) : pint (derivative p * derivative p) ≤ markov n * pint (p * p) := by
  obtain ⟨c, hc⟩ := legendre_expand n p hp
  have hnorm : pint (p * p) = ∑ j ∈ Finset.range (n + 1), c j ^ 2 * (2 / (2 * j + 1)) := by
    conv_lhs => rw [hc]
    rw [Finset.sum_mul, pint_sum]
    refine Finset.sum_congr rfl fun j hj => ?_
    rw [Finset.mul_sum, pint_sum, Finset.sum_eq_single j]
    · rw [show C (c j) * legendre j * (C (c j) * legendre j) = C (c j ^ 2) * (legendre j * legendre j) by rw [C_pow]; ring, pint_C_mul, legendre_norm]
    · intro k _ hk
      rw [show C (c j) * legendre j * (C (c k) * legendre k) = C (c j * c k) * (legendre j * legendre k) by rw [C_mul]; ring, pint_C_mul]
      rcases lt_or_gt_of_ne hk with h | h
      · rw [mul_comm (legendre j), legendre_orth _ _ h, mul_zero]
      · rw [legendre_orth _ _ h, mul_zero]
    · intro h
      exact absurd hj h
  have hpt : ∀ x : ℝ, (derivative p * derivative p).eval x ≤
      (C (pint (p * p)) * ∑ j ∈ Finset.range (n + 1), C ((2 * (j : ℝ) + 1) / 2) * (derivative (legendre j) * derivative (legendre j))).eval x := by
    intro x
    have hd : (derivative p).eval x = ∑ j ∈ Finset.range (n + 1), c j * (derivative (legendre j)).eval x := by
      conv_lhs => rw [hc]
      rw [derivative_sum, eval_finsetSum]
      exact Finset.sum_congr rfl fun j _ => by rw [derivative_C_mul, eval_mul, eval_C]
    rw [eval_mul, ← pow_two, hd, eval_mul, eval_C, hnorm, eval_finsetSum]
    refine Finset.sum_sq_le_sum_mul_sum_of_sq_le_mul _ (fun j _ => by positivity) (fun j _ => ?_) (fun j _ => ?_)
    · rw [eval_mul, eval_mul, eval_C]
      exact mul_nonneg (by positivity) (mul_self_nonneg _)
    · rw [eval_mul, eval_mul, eval_C]
      have : (2 * (j : ℝ) + 1) ≠ 0 := by positivity
      refine le_of_eq ?_
      field_simp
  have hle := intervalIntegral.integral_mono_on (μ := volume) (show (-1 : ℝ) ≤ 1 by norm_num) ((derivative p * derivative p).continuous.intervalIntegrable _ _)
    (Polynomial.continuous _ |>.intervalIntegrable _ _) fun x _ => hpt x
  change pint _ ≤ pint _ at hle
  refine hle.trans (le_of_eq ?_)
  rw [pint_C_mul, pint_sum, mul_comm, ← markov_sum]
  congr 1
  exact Finset.sum_congr rfl fun j _ => by rw [pint_C_mul, legendre_deriv_norm]

/-! ## Plates -/

/-- The inequality along `x`, for a sum of products of polynomials of degree at most `n` in `x`. -/
theorem markov_sep {N n : ℕ} (ha : 0 < a) (hb : 0 < b) (c : Fin N → ℝ) (u Q : Fin N → ℝ[X]) (hu : ∀ r, (u r).degree < (n + 1 : ℕ)) :
    (∫ x in (0 : ℝ)..a, ∫ y in (0 : ℝ)..b, sep c (fun r => derivative (phys a (u r))) Q x y ^ 2)
      ≤ (2 / a) ^ 2 * markov n * ∫ x in (0 : ℝ)..a, ∫ y in (0 : ℝ)..b, sep c (fun r => phys a (u r)) Q x y ^ 2 := by
  have c1 := sep_continuous c (fun r => derivative (phys a (u r))) Q
  have c2 := sep_continuous c (fun r => phys a (u r)) Q
  have e1 : Continuous (Function.uncurry fun x y => sep c (fun r => derivative (phys a (u r))) Q x y ^ 2) := c1.pow 2
  have e2 : Continuous (Function.uncurry fun x y => sep c (fun r => phys a (u r)) Q x y ^ 2) := c2.pow 2
  have sw : ∀ {F : ℝ → ℝ → ℝ}, Continuous (Function.uncurry F) → Continuous fun y => ∫ x in (0 : ℝ)..a, F x y := by
    intro F hF
    exact intervalIntegral.continuous_parametric_intervalIntegral_of_continuous' (f := fun y x => F x y)
      (hF.comp continuous_swap) 0 a
  rw [int_swap e1, int_swap e2, ← intervalIntegral.integral_const_mul]
  refine intervalIntegral.integral_mono_on hb.le ((sw e1).intervalIntegrable _ _)
    ((sw e2).const_mul _ |>.intervalIntegrable _ _) fun y _ => ?_
  set q : ℝ[X] := ∑ r, C (c r * (Q r).eval y) * u r with hq
  have hdeg : q.degree < (n + 1 : ℕ) := by
    rw [degree_lt_iff_coeff_zero]
    intro k hk
    rw [hq, finsetSum_coeff]
    refine Finset.sum_eq_zero fun r _ => ?_
    rw [coeff_C_mul, (degree_lt_iff_coeff_zero _ _).mp (hu r) k hk, mul_zero]
  have s0 : ∀ x, sep c (fun r => phys a (u r)) Q x y = (phys a q).eval x := fun x => by
    rw [phys_eval, hq, eval_finsetSum, sep]
    exact Finset.sum_congr rfl fun r _ => by rw [phys_eval, eval_mul, eval_C]; ring
  have s1 : ∀ x, sep c (fun r => derivative (phys a (u r))) Q x y = 2 / a * (phys a (derivative q)).eval x := fun x => by
    rw [phys_eval, hq, derivative_sum, eval_finsetSum, sep, Finset.mul_sum]
    exact Finset.sum_congr rfl fun r _ => by rw [derivative_phys, eval_mul, eval_C, phys_eval, derivative_C_mul, eval_mul, eval_C]; ring
  have i0 : ∫ x in (0 : ℝ)..a, sep c (fun r => phys a (u r)) Q x y ^ 2 = a / 2 * pint (q * q) := by
    simp only [s0, pow_two]
    rw [int_phys ha.ne', pint]
    simp only [eval_mul]
  have i1 : ∫ x in (0 : ℝ)..a, sep c (fun r => derivative (phys a (u r))) Q x y ^ 2 = (2 / a) ^ 2 * (a / 2 * pint (derivative q * derivative q)) := by
    simp only [s1, mul_pow]
    rw [intervalIntegral.integral_const_mul]
    congr 1
    simp only [pow_two]
    rw [int_phys ha.ne', pint]
    simp only [eval_mul]
  rw [i0, i1]
  have := mul_le_mul_of_nonneg_left (markov_ineq hdeg) (show 0 ≤ (2 / a) ^ 2 * (a / 2) by positivity)
  linarith

/-- The same along `y`. -/
theorem markov_sep' {N n : ℕ} (ha : 0 < a) (hb : 0 < b) (c : Fin N → ℝ) (P u : Fin N → ℝ[X]) (hu : ∀ r, (u r).degree < (n + 1 : ℕ)) :
    (∫ x in (0 : ℝ)..a, ∫ y in (0 : ℝ)..b, sep c P (fun r => derivative (phys b (u r))) x y ^ 2)
      ≤ (2 / b) ^ 2 * markov n * ∫ x in (0 : ℝ)..a, ∫ y in (0 : ℝ)..b, sep c P (fun r => phys b (u r)) x y ^ 2 := by
  have sw : ∀ P Q : Fin N → ℝ[X], ∫ x in (0 : ℝ)..b, ∫ y in (0 : ℝ)..a, sep c Q P x y ^ 2
      = ∫ x in (0 : ℝ)..a, ∫ y in (0 : ℝ)..b, sep c P Q x y ^ 2 := fun P Q => by
    have e1 : Continuous (Function.uncurry fun x y => sep c Q P x y ^ 2) := (sep_continuous c Q P).pow 2
    rw [int_swap e1]
    refine intervalIntegral.integral_congr fun x _ => intervalIntegral.integral_congr fun y _ => ?_
    simp only [sep]
    congr 1
    exact Finset.sum_congr rfl fun r _ => by ring
  have := markov_sep hb ha c u P hu
  rwa [sw, sw] at this

theorem shape_degree {i n : ℕ} (h : i < n + 4) : (shape i).degree < (n + 3 + 1 : ℕ) := by
  rw [degree_lt_iff_coeff_zero]
  intro k hk
  by_cases h4 : 4 ≤ i
  · exact coeff_eq_zero_of_natDegree_lt (lt_of_le_of_lt (shape_top h4).1 (by omega))
  · have : i = 0 ∨ i = 1 ∨ i = 2 ∨ i = 3 := by omega
    have hd : (shape i).natDegree ≤ 3 := by
      refine natDegree_map_le.trans ?_
      rcases this with rfl | rfl | rfl | rfl
      all_goals
        rw [natDegree_le_iff_coeff_eq_zero]
        intro k hk
        have k0 : k ≠ 0 := by omega
        have k1 : 1 ≠ k := by omega
        have k2 : k ≠ 2 := by omega
        have k3 : k ≠ 3 := by omega
        simp [bardell, coeff_C, coeff_X, coeff_X_pow, k0, k1, k2, k3]
    exact coeff_eq_zero_of_natDegree_lt (lt_of_le_of_lt hd (by omega))

theorem deriv_degree {p : ℝ[X]} {n : ℕ} (h : p.degree < (n + 1 : ℕ)) : (derivative p).degree < (n + 1 : ℕ) := by
  rw [degree_lt_iff_coeff_zero] at h ⊢
  intro k hk
  rw [coeff_derivative, h (k + 1) (by omega), zero_mul]

theorem deriv_phys (p : ℝ[X]) : derivative (phys a p) = phys a (C (2 / a) * derivative p) := by
  rw [derivative_phys, phys, phys, mul_comp, C_comp]

theorem cmul_degree {p : ℝ[X]} {n : ℕ} (t : ℝ) (h : p.degree < (n + 1 : ℕ)) : (C t * p).degree < (n + 1 : ℕ) := by
  rw [degree_lt_iff_coeff_zero] at h ⊢
  intro k hk
  rw [coeff_C_mul, h k hk, mul_zero]

/-- Curvatures are bounded by slopes. -/
theorem curv_le_slope (ha : 0 < a) (hb : 0 < b) (w : List (ℕ × ℕ)) {m n N : ℕ} (hN : w.length = N) (hw : ∀ q ∈ w, q.1 < m + 4 ∧ q.2 < n + 4)
    (c : Fin N → ℝ) :
    curvX a b (ritz a b w c) ≤ (2 / a) ^ 2 * markov (m + 3) * slopeX a b (ritz a b w c) ∧
    curvY a b (ritz a b w c) ≤ (2 / b) ^ 2 * markov (n + 3) * slopeY a b (ritz a b w c) ∧
    twistXY a b (ritz a b w c) ≤ 4 * ((2 / b) ^ 2 * markov (n + 3)) * slopeX a b (ritz a b w c) ∧
    twistXY a b (ritz a b w c) ≤ 4 * ((2 / a) ^ 2 * markov (m + 3)) * slopeY a b (ritz a b w c) := by
  have hr : ∀ r : Fin N, (w.getD r (0, 0)).1 < m + 4 ∧ (w.getD r (0, 0)).2 < n + 4 := fun r => by
    have hlt : (r : ℕ) < w.length := by rw [hN]; exact r.2
    rw [List.getD_eq_getElem _ _ hlt]
    exact hw _ (List.getElem_mem hlt)
  have dx : ∀ r : Fin N, (C (2 / a) * derivative (shape (w.getD r (0, 0)).1)).degree < (m + 3 + 1 : ℕ) := fun r =>
    cmul_degree _ (deriv_degree (shape_degree (hr r).1))
  have dy : ∀ r : Fin N, (C (2 / b) * derivative (shape (w.getD r (0, 0)).2)).degree < (n + 3 + 1 : ℕ) := fun r =>
    cmul_degree _ (deriv_degree (shape_degree (hr r).2))
  have tw : twistXY a b (ritz a b w c) = 4 * ∫ x in (0 : ℝ)..a, ∫ y in (0 : ℝ)..b, sep c
      (fun r => derivative (phys a (shape (w.getD r (0, 0)).1))) (fun r => derivative (phys b (shape (w.getD r (0, 0)).2))) x y ^ 2 := by
    simp only [twistXY, ritz_sep, dX_sep, dY_sep, mul_pow, intervalIntegral.integral_const_mul]
    norm_num
  rw [tw]
  simp only [curvX, curvY, slopeX, slopeY, ritz_sep, dX_sep, dY_sep]
  refine ⟨?_, ?_, ?_, ?_⟩
  · have := markov_sep ha hb c _ (fun r => phys b (shape (w.getD r (0, 0)).2)) dx
    simpa only [← deriv_phys] using this
  · have := markov_sep' ha hb c (fun r => phys a (shape (w.getD r (0, 0)).1)) _ dy
    simpa only [← deriv_phys] using this
  · have := markov_sep' ha hb c (fun r => derivative (phys a (shape (w.getD r (0, 0)).1))) _ fun r => shape_degree (hr r).2
    linarith
  · have := markov_sep ha hb c _ (fun r => derivative (phys b (shape (w.getD r (0, 0)).2))) fun r => shape_degree (hr r).1
    linarith

/-- The ratio of curvatures to slopes is at most this. -/
noncomputable def Spec.curvRatio (p : PlateNum) : ℝ := 8 * (markov (p.m + 3) / p.a ^ 2 + markov (p.n + 3) / p.b ^ 2)

/-- The stiffness is at most `M` in every direction. -/
def Spec.Below (D : M3) (M : ℝ) : Prop := D.IsSymm ∧ 0 ≤ M ∧ (M • (1 : M3) - D).PosSemidef

theorem markov_nonneg (n : ℕ) : 0 ≤ markov n := by
  unfold markov
  positivity

/-- **C106** the bending energy of a deflection of the plate is bounded by its slopes. -/
theorem C106_energy (D : M3) (M : ℝ) (hD : Below D M) (cs : Constraints) (p : PlateNum) (ha : 0 < p.a) (hb : 0 < p.b) (s : ShapeIdx)
    (hs : computeIdx cs p.m p.n = .ok s) (c : Fin (p.m * p.n) → ℝ) :
    bendEnergy D p.a p.b (ritz p.a p.b s.w c) ≤ M * curvRatio p * (slopeX p.a p.b (ritz p.a p.b s.w c) + slopeY p.a p.b (ritz p.a p.b s.w c)) := by
  obtain ⟨h1, h2, h3, h4⟩ := curv_le_slope ha hb s.w (C40_sizes cs _ _ s hs).2.2.len (widx_range hs) c
  obtain ⟨sX, sY⟩ := slopes_nonneg ha hb (ritz p.a p.b s.w c)
  have k0 := kMat_nonneg hD.2.2 ha hb s.w c
  have hsy : (M • (1 : M3) - D).IsSymm := (Matrix.isSymm_one.smul M).sub hD.1
  rw [kMat_energy ha.ne' hb.ne' _ hsy] at k0
  obtain ⟨eX, eY, eZ⟩ := energy_unit ha.ne' hb.ne' s.w c
  have e : bendEnergy (M • (1 : M3) - D) p.a p.b (ritz p.a p.b s.w c) =
      M * (curvX p.a p.b (ritz p.a p.b s.w c) + curvY p.a p.b (ritz p.a p.b s.w c) + twistXY p.a p.b (ritz p.a p.b s.w c))
      - bendEnergy D p.a p.b (ritz p.a p.b s.w c) := by
    rw [← kMat_energy ha.ne' hb.ne' _ hsy, ← kMat_energy ha.ne' hb.ne' _ hD.1, kMat_pair, kMat_pair, eX, eY, eZ]
    simp
    ring
  rw [e] at k0
  set X := slopeX p.a p.b (ritz p.a p.b s.w c)
  set Y := slopeY p.a p.b (ritz p.a p.b s.w c)
  have m1 := markov_nonneg (p.m + 3)
  have m2 := markov_nonneg (p.n + 3)
  have e1 : (2 / p.a) ^ 2 * markov (p.m + 3) = 4 * (markov (p.m + 3) / p.a ^ 2) := by rw [div_pow]; ring
  have e2 : (2 / p.b) ^ 2 * markov (p.n + 3) = 4 * (markov (p.n + 3) / p.b ^ 2) := by rw [div_pow]; ring
  rw [e1] at h1 h4
  rw [e2] at h2 h3
  have q1 : 0 ≤ markov (p.m + 3) / p.a ^ 2 := by positivity
  have q2 : 0 ≤ markov (p.n + 3) / p.b ^ 2 := by positivity
  unfold curvRatio
  set A := markov (p.m + 3) / p.a ^ 2
  set B := markov (p.n + 3) / p.b ^ 2
  have hsum : curvX p.a p.b (ritz p.a p.b s.w c) + curvY p.a p.b (ritz p.a p.b s.w c) + twistXY p.a p.b (ritz p.a p.b s.w c) ≤ 8 * (A + B) * (X + Y) := by
    have := mul_nonneg q1 sX
    have := mul_nonneg q2 sY
    have := mul_nonneg q1 sY
    have := mul_nonneg q2 sX
    nlinarith
  have := mul_le_mul_of_nonneg_left hsum hD.2.1
  linarith

/-- The work of a shear load is at most that of a tension `k |s|` along `x` and `|s| / k` along `y`. -/
theorem work_shear_le (ha : 0 < a) (hb : 0 < b) (x y s k : ℝ) (hk : 0 < k) (w : List (ℕ × ℕ)) {N : ℕ} (c : Fin N → ℝ) :
    loadWork x y s a b (ritz a b w c) ≤ (x + k * |s|) * slopeX a b (ritz a b w c) + (y + |s| / k) * slopeY a b (ritz a b w c) := by
  set P : Fin N → ℝ[X] := fun r => phys a (shape (w.getD r (0, 0)).1) with hP
  set Q : Fin N → ℝ[X] := fun r => phys b (shape (w.getD r (0, 0)).2) with hQ
  obtain ⟨u, hu⟩ := DI.sq (a := a) (b := b) c (fun r => derivative (P r)) Q
  obtain ⟨v, hv⟩ := DI.sq (a := a) (b := b) c P (fun r => derivative (Q r))
  have hz := DI.quad (a := a) (b := b) c (fun r => derivative (P r)) Q P (fun r => derivative (Q r))
  set z := ∑ r, ∑ s, c r * c s * _ with hzdef
  clear_value z
  have hz' : DI a b (fun x y => sep c (fun r => derivative (P r)) Q x y * sep c P (fun r => derivative (Q r)) x y) z := hz
  have hX : slopeX a b (ritz a b w c) = u := by
    rw [← hu.val]
    simp only [slopeX, ritz_sep, dX_sep]
    rfl
  have hY : slopeY a b (ritz a b w c) = v := by
    rw [← hv.val]
    simp only [slopeY, ritz_sep, dY_sep]
    rfl
  have hW : loadWork x y s a b (ritz a b w c) = x * u + y * v + 2 * s * z := by
    rw [← (((hu.smul x).add (hv.smul y)).add (hz'.smul (2 * s))).val]
    simp only [loadWork, ritz_sep, dX_sep, dY_sep]
    rfl
  have sq : ∀ t : ℝ, 0 ≤ t ^ 2 * u + v + 2 * t * z := fun t => by
    rw [← ((((hu.smul (t ^ 2))).add hv).add (hz'.smul (2 * t))).val]
    refine intervalIntegral.integral_nonneg ha.le fun x _ => intervalIntegral.integral_nonneg hb.le fun y _ => ?_
    generalize sep c (fun r => derivative (P r)) Q x y = A
    generalize sep c P (fun r => derivative (Q r)) x y = B
    nlinarith [sq_nonneg (t * A + B)]
  rw [hX, hY, hW]
  have key : 0 ≤ |s| * (k * u + v / k) - 2 * s * z := by
    have : 0 ≤ k * (|s| * (k * u + v / k) - 2 * s * z) := by
      have e : k * (|s| * (k * u + v / k) - 2 * s * z) = |s| * (k ^ 2 * u + v) - 2 * s * k * z := by field_simp
      rw [e]
      rcases abs_cases s with ⟨h, h'⟩ | ⟨h, h'⟩
      · have := mul_nonneg h' (sq (-k))
        rw [h]; nlinarith
      · have := mul_nonneg (neg_nonneg.mpr h'.le) (sq k)
        rw [h]; nlinarith
    exact nonneg_of_mul_nonneg_right this hk
  have : (x + k * |s|) * u + (y + |s| / k) * v = x * u + y * v + |s| * (k * u + v / k) := by ring
  linarith

/-- The compression left after the shear has been traded for tensions is at least `n0`. -/
def Spec.Compressed (p : PlateNum) (n0 : ℝ) : Prop := 0 < n0 ∧ ∃ k > (0 : ℝ), p.Nxx + k * |p.Nxy| ≤ -n0 ∧ p.Nyy + |p.Nxy| / k ≤ -n0

theorem compressed_work {p : PlateNum} {n0 : ℝ} (h : Compressed p n0) (ha : 0 < p.a) (hb : 0 < p.b) (w : List (ℕ × ℕ)) {N : ℕ} (c : Fin N → ℝ) :
    n0 * (slopeX p.a p.b (ritz p.a p.b w c) + slopeY p.a p.b (ritz p.a p.b w c)) ≤ -loadWork p.Nxx p.Nyy p.Nxy p.a p.b (ritz p.a p.b w c) := by
  obtain ⟨-, k, hk, hx, hy⟩ := h
  obtain ⟨sX, sY⟩ := slopes_nonneg ha hb (ritz p.a p.b w c)
  have h1 := work_shear_le ha hb p.Nxx p.Nyy p.Nxy k hk w c
  have h2 := mul_le_mul_of_nonneg_right hx sX
  have h3 := mul_le_mul_of_nonneg_right hy sY
  linarith

/-- **C106** exact integrals, any supports that make the stiffness definite: every multiplier of a compressed plate is at most the stiffness
times the ratio of curvatures to slopes over the compression. -/
theorem C106_bound (D : M3) (M n0 : ℝ) (hD : Below D M) (cs : Constraints) (p : PlateNum) (ha : 0 < p.a) (hb : 0 < p.b) (hc : Compressed p n0)
    (e : Edges) (he : chooseEdges cs = .ok e) (K KG : SqMat (p.m * p.n)) (h : calcKKGD exactReaders (.ok D) cs p = .ok (K, KG)) (hpd : K.PosDef) (lam : ℝ) (hl : PosMult K KG lam) :
    lam ≤ M * curvRatio p / n0 := by
  obtain ⟨s, hs⟩ := (C40_accepted_iff cs p.m p.n).mpr ⟨_, he⟩
  obtain ⟨K', KG', hK', hen⟩ := C49_energy D hD.1 cs p s hs ha.ne' hb.ne'
  obtain ⟨rfl, rfl⟩ := Prod.mk.inj (Except.ok.inj (h.symm.trans hK'))
  obtain ⟨hpos, v, hv⟩ := hl
  have hbal : v ⬝ᵥ K.mulVec v = lam * -(v ⬝ᵥ KG.mulVec v) := by
    have := buckles_energy hv
    linarith
  have hE : 0 < v ⬝ᵥ K.mulVec v := by simpa using hpd.dotProduct_mulVec_pos hv.1
  rw [(hen v).1, (hen v).2] at hbal
  rw [(hen v).1] at hE
  have h1 := C106_energy D M hD cs p ha hb s hs v
  have h2 := mul_le_mul_of_nonneg_left (compressed_work hc ha hb s.w v) hpos.le
  obtain ⟨sX, sY⟩ := slopes_nonneg ha hb (ritz p.a p.b s.w v)
  have hn0 := hc.1
  rw [le_div_iff₀ hn0]
  set S := slopeX p.a p.b (ritz p.a p.b s.w v) + slopeY p.a p.b (ritz p.a p.b s.w v) with hS
  have hS0 : 0 < S := by
    rcases (add_nonneg sX sY).lt_or_eq with h | h
    · exact h
    · rw [← hS] at h
      rw [← h] at h1
      linarith
  refine le_of_mul_le_mul_right ?_ hS0
  linarith

/-- Bounds on the entries give a bound in every direction. -/
theorem below_of_up {D : M3} {M : ℝ} (hs : D.IsSymm) (h : ∀ i j, |D i j| ≤ M) : Below D (3 * M) := by
  have hM : 0 ≤ M := (abs_nonneg _).trans (h 0 0)
  refine ⟨hs, by linarith, PosSemidef.of_dotProduct_mulVec_nonneg ?_ fun x => ?_⟩
  · exact (((Matrix.isSymm_one.smul (3 * M)).sub hs : _))
  have s10 : D 0 1 = D 1 0 := by rw [← Matrix.transpose_apply D, hs]
  have s20 : D 0 2 = D 2 0 := by rw [← Matrix.transpose_apply D, hs]
  have s21 : D 1 2 = D 2 1 := by rw [← Matrix.transpose_apply D, hs]
  have bd : ∀ i j, x i * x j * D i j ≤ M * (x i ^ 2 + x j ^ 2) / 2 := by
    intro i j
    have h1 : x i * x j * D i j ≤ |x i * x j| * M := (le_abs_self _).trans (by rw [abs_mul]; exact mul_le_mul_of_nonneg_left (h i j) (abs_nonneg _))
    have h2 : |x i * x j| ≤ (x i ^ 2 + x j ^ 2) / 2 := by
      rw [abs_le]
      constructor <;> nlinarith [sq_nonneg (x i + x j), sq_nonneg (x i - x j)]
    have := mul_le_mul_of_nonneg_right h2 hM
    linarith
  have e : star x ⬝ᵥ ((3 * M) • (1 : M3) - D).mulVec x = 3 * M * (x 0 ^ 2 + x 1 ^ 2 + x 2 ^ 2) - (x 0 * x 0 * D 0 0 + x 1 * x 1 * D 1 1 + x 2 * x 2 * D 2 2
      + 2 * (x 1 * x 0 * D 1 0) + 2 * (x 2 * x 0 * D 2 0) + 2 * (x 2 * x 1 * D 2 1)) := by
    simp [Matrix.mulVec, dotProduct, Fin.sum_univ_three, Matrix.one_apply, s10, s20, s21]
    ring
  have := bd 0 0
  have := bd 1 1
  have := bd 2 2
  have := bd 1 0
  have := bd 2 0
  have := bd 2 1
  rw [e]
  nlinarith

/-- **C106** tables as shipped, plates held along all edges: the same bound up to the accuracy of the tables. -/
theorem C106_shipped (D : M3) (mu M0 M n0 : ℝ) (hD : Between D mu M0) (hB : Below D M) (cs : Constraints) (p : PlateNum) (ha : 0 < p.a)
    (hb : 0 < p.b) (hm : 1 ≤ p.m) (hn : 1 ≤ p.n) (e : Edges) (he : chooseEdges cs = .ok e) (hh : EdgesHeld e) (hc : Compressed p n0)
    (K KG : SqMat (p.m * p.n)) (h : calcKKGD shipped (.ok D) cs p = .ok (K, KG)) (hcond : M * curvRatio p / n0 * loadErr p mu < 1) (lam : ℝ)
    (hl : PosMult K KG lam) : lam ≤ (1 + bendErr p mu M0) * (M * curvRatio p / n0) / (1 - M * curvRatio p / n0 * loadErr p mu) := by
  obtain ⟨s, hs⟩ := (C40_accepted_iff cs p.m p.n).mpr ⟨_, he⟩
  obtain ⟨hpos, v, hv⟩ := hl
  have hbal := buckles_energy hv
  have hE : 0 < bendEnergy D p.a p.b (ritz p.a p.b s.w v) :=
    C87_supported D hD.posDef cs p ha hb s hs e he (.inl (.inl ⟨hh.1, .inr (.inl hh.2.1)⟩)) v hv.1
  have h1 := (abs_le.mp (C100_relative D mu M0 hD cs p ha hb hm hn e he hh K KG h s hs v)).2
  have h2 := (abs_le.mp (C100_work_any D mu M0 hD cs p ha hb hm hn e he hh K KG h s hs v)).2
  have h3 := C106_energy D M hB cs p ha hb s hs v
  have h4 := compressed_work hc ha hb s.w v
  have hn0 := hc.1
  set E := bendEnergy D p.a p.b (ritz p.a p.b s.w v)
  set W := loadWork p.Nxx p.Nyy p.Nxy p.a p.b (ritz p.a p.b s.w v)
  set S := slopeX p.a p.b (ritz p.a p.b s.w v) + slopeY p.a p.b (ritz p.a p.b s.w v)
  set L := M * curvRatio p / n0 with hL
  have hr : 0 ≤ M * curvRatio p := by
    have := markov_nonneg (p.m + 3)
    have := markov_nonneg (p.n + 3)
    have := hB.2.1
    unfold curvRatio
    positivity
  have h5 : E ≤ L * -W := by
    have := mul_le_mul_of_nonneg_left h4 (show 0 ≤ L from div_nonneg hr hn0.le)
    have e1 : L * (n0 * S) = M * curvRatio p * S := by rw [hL]; field_simp
    linarith
  rw [le_div_iff₀ (by linarith)]
  refine le_of_mul_le_mul_right ?_ hE
  have hL0 : 0 ≤ L := div_nonneg hr hn0.le
  have h6 : lam * -(v ⬝ᵥ KG.mulVec v) ≤ (1 + bendErr p mu M0) * E := by linarith
  have h7 := mul_le_mul_of_nonneg_left h6 hL0
  have h8 : -W - loadErr p mu * E ≤ -(v ⬝ᵥ KG.mulVec v) := by linarith
  have h9 := mul_le_mul_of_nonneg_left h8 (mul_nonneg hL0 hpos.le)
  have h10 := mul_le_mul_of_nonneg_left h5 hpos.le
  nlinarith

/-- If all positive multipliers are at most 1, the first reported value is the greatest of them. -/
theorem head_greatest {S : EigSolver} {D : Except PyErr M3} {c : Constraints} {p : PlateNum} {numEig : ℤ} {st : PlateState (p.m * p.n)}
    {vals : List PyFloat} {vecs : List (Fin (p.m * p.n) → ℝ)} (h : (bucklingAnalysis S D c p numEig st).1 = .ok (vals, vecs))
    {K KG : SqMat (p.m * p.n)} (hK : calcKKGD shipped D c p = .ok (K, KG)) (hS : Honest S KG K)
    (hsort : ∀ k out, S _ KG K k = .ok out → CayleySorted out) {e lam : ℝ} (he : vals[0]? = some (.fin e))
    (hl : PosMult K KG lam) (h1 : ∀ nu, PosMult K KG nu → nu ≤ 1) : IsGreatest {nu | PosMult K KG nu} e := by
  obtain ⟨_, K', KG', out, _, hK', _, hout, rfl, -, -⟩ := buckling_inv h
  rw [hK] at hK'
  obtain ⟨rfl, rfl⟩ := Prod.mk.inj (Except.ok.inj hK')
  have hc := hS _ _ hout
  have hso := hsort _ _ hout
  cases out with
  | nil => cases he
  | cons q rest =>
    simp only [List.map_cons, List.getElem?_cons_zero, Option.some.injEq] at he
    have hq : e ≠ 0 ∧ q.1 = -1 / e := by
      obtain ⟨a, q', hq', b⟩ := reported_iff.mp (show XF.fin e ∈ [q].map (fun q => npDiv (-1) q.1) by simp [he])
      simp only [List.mem_singleton] at hq'
      exact ⟨a, by rw [← hq']; exact b⟩
    have key : ∀ lam, PosMult K KG lam → |e - 1| * |lam + 1| ≤ |lam - 1| * |e + 1| := by
      rintro lam ⟨hlpos, v, hv⟩
      obtain ⟨hv0, hp⟩ := (buckles_pencil hlpos.ne').mp hv
      have hkey : |q.1 + 1| * |-1 / lam - 1| ≤ |-1 / lam + 1| * |q.1 - 1| := by
        by_cases hin : ∃ q' ∈ q :: rest, q'.1 = -1 / lam
        · obtain ⟨q', hq', e'⟩ := hin
          rcases List.mem_cons.mp hq' with rfl | hr
          · rw [e', mul_comm]
          · have := (List.pairwise_cons.mp hso).1 q' hr
            rw [e'] at this
            exact this
        · push Not at hin
          exact hc.best _ v hv0 hp hin q List.mem_cons_self
      rw [hq.2] at hkey
      obtain ⟨k1, k2⟩ := cayley_key hlpos.ne'
      obtain ⟨m1, m2⟩ := cayley_key hq.1
      rw [← k1, ← k2, ← m1, ← m2]
      have := mul_le_mul_of_nonneg_right hkey (mul_nonneg (abs_nonneg lam) (abs_nonneg e))
      nlinarith [this]
    have hepos : 0 < e := by
      by_contra hno
      push Not at hno
      have h0 := key lam hl
      have hlp := hl.1
      have := lt_of_le_of_ne hno hq.1
      have a1 := h1 lam hl
      rw [abs_of_nonpos (by linarith : e - 1 ≤ 0), abs_of_pos (by linarith : 0 < lam + 1), abs_of_nonpos (by linarith : lam - 1 ≤ 0)] at h0
      rcases abs_cases (e + 1) with ⟨h, h'⟩ | ⟨h, h'⟩ <;> rw [h] at h0 <;> nlinarith
    have hmem : PosMult K KG e := by
      obtain ⟨hqv, hqp⟩ := hc.pair q List.mem_cons_self
      exact ⟨hepos, q.2, (buckles_pencil hepos.ne').mpr ⟨hqv, by rw [← hq.2]; exact hqp⟩⟩
    refine ⟨hmem, fun nu hnu => ?_⟩
    have h0 := key nu hnu
    have a1 := h1 nu hnu
    have a2 := h1 e hmem
    have := hnu.1
    rw [abs_of_nonpos (by linarith : e - 1 ≤ 0), abs_of_pos (by linarith : 0 < nu + 1), abs_of_nonpos (by linarith : nu - 1 ≤ 0),
      abs_of_pos (by linarith : 0 < e + 1)] at h0
    nlinarith

/-- The first reported value is a multiplier as soon as there is one. -/
theorem head_finite {S : EigSolver} {D : Except PyErr M3} {c : Constraints} {p : PlateNum} {numEig : ℤ} {st : PlateState (p.m * p.n)}
    {vals : List PyFloat} {vecs : List (Fin (p.m * p.n) → ℝ)} (h : (bucklingAnalysis S D c p numEig st).1 = .ok (vals, vecs))
    {K KG : SqMat (p.m * p.n)} (hK : calcKKGD shipped D c p = .ok (K, KG)) (hS : Honest S KG K)
    (hsort : ∀ k out, S _ KG K k = .ok out → CayleySorted out) {e : PyFloat} {lam : ℝ} (he : vals[0]? = some e)
    (hl : PosMult K KG lam) : ∃ x, e = .fin x ∧ PosMult K KG x := by
  obtain ⟨_, K', KG', out, _, hK', _, hout, rfl, -, -⟩ := buckling_inv h
  rw [hK] at hK'
  obtain ⟨rfl, rfl⟩ := Prod.mk.inj (Except.ok.inj hK')
  have hc := hS _ _ hout
  have hso := hsort _ _ hout
  obtain ⟨hlpos, v, hv⟩ := hl
  obtain ⟨hv0, hp⟩ := (buckles_pencil hlpos.ne').mp hv
  cases out with
  | nil => cases he
  | cons q rest =>
    simp only [List.map_cons, List.getElem?_cons_zero, Option.some.injEq] at he
    have hkey : |q.1 + 1| * |-1 / lam - 1| ≤ |-1 / lam + 1| * |q.1 - 1| := by
      by_cases hin : ∃ q' ∈ q :: rest, q'.1 = -1 / lam
      · obtain ⟨q', hq', e'⟩ := hin
        rcases List.mem_cons.mp hq' with rfl | hr
        · rw [e', mul_comm]
        · have := (List.pairwise_cons.mp hso).1 q' hr
          rw [e'] at this
          exact this
      · push Not at hin
        exact hc.best _ v hv0 hp hin q List.mem_cons_self
    have hneg : q.1 < 0 := by
      by_contra hno
      push Not at hno
      have ht : -1 / lam < 0 := div_neg_of_neg_of_pos (by norm_num) hlpos
      set t := -1 / lam
      rw [abs_of_pos (by linarith : 0 < q.1 + 1), abs_of_neg (by linarith : t - 1 < 0)] at hkey
      rcases abs_cases (t + 1) with ⟨e1, e1'⟩ | ⟨e1, e1'⟩ <;> rcases abs_cases (q.1 - 1) with ⟨e2, e2'⟩ | ⟨e2, e2'⟩ <;>
        rw [e1, e2] at hkey <;> nlinarith
    have hx : 0 < -1 / q.1 := div_pos_of_neg_of_neg (by norm_num) hneg
    obtain ⟨hqv, hqp⟩ := hc.pair q List.mem_cons_self
    refine ⟨-1 / q.1, ?_, hx, q.2, (buckles_pencil hx.ne').mpr ⟨hqv, ?_⟩⟩
    · rw [← he, npDiv, if_neg hneg.ne]
    · rw [hqp]
      congr 1
      field_simp

/-- If the loads do negative work in every shape, there is a multiplier at least as great as any quotient. -/
theorem posMult_ge {N : ℕ} {K KG : SqMat N} (hK : K.PosDef) (hG : KG.IsSymm) (hneg : ∀ x, x ≠ 0 → x ⬝ᵥ KG.mulVec x < 0) {v : Fin N → ℝ}
    (hv : v ≠ 0) {lam : ℝ} (hl : 0 < lam) (h : 0 ≤ v ⬝ᵥ K.mulVec v + lam * (v ⬝ᵥ KG.mulVec v)) : ∃ mu ≥ lam, PosMult K KG mu := by
  obtain ⟨t, ht, x, hx, he⟩ := exists_pair_le (A := -KG) (M := K) hG.neg hK hv (c := 1 / lam) (by
    rw [Matrix.neg_mulVec, dotProduct_neg, div_mul_eq_mul_div, le_div_iff₀ hl]
    linarith)
  have hxK : 0 < x ⬝ᵥ K.mulVec x := by simpa using hK.dotProduct_mulVec_pos hx
  have ht0 : 0 < t := by
    have h1 := congrArg (x ⬝ᵥ ·) he
    simp only [Matrix.neg_mulVec, dotProduct_neg, dotProduct_smul, smul_eq_mul] at h1
    have := hneg x hx
    by_contra hno
    push Not at hno
    nlinarith
  have hmu : 0 < 1 / t := by positivity
  refine ⟨1 / t, ?_, hmu, x, (buckles_pencil hmu.ne').mpr ⟨hx, ?_⟩⟩
  · rw [ge_iff_le, le_div_iff₀ ht0]
    rw [le_div_iff₀ hl] at ht
    linarith
  · rw [Matrix.neg_mulVec, neg_eq_iff_eq_neg] at he
    rw [he, ← neg_smul]
    congr 1
    field_simp

/-- **C106** tables as shipped: a compressed plate held along all edges meets every quotient from both sides, up to the accuracy of the
tables. -/
theorem C106_quotient (D : M3) (mu M0 M n0 : ℝ) (hD : Between D mu M0) (hB : Below D M) (cs : Constraints) (p : PlateNum) (ha : 0 < p.a)
    (hb : 0 < p.b) (hm : 1 ≤ p.m) (hn : 1 ≤ p.n) (e : Edges) (he : chooseEdges cs = .ok e) (hh : EdgesHeld e) (hc : Compressed p n0)
    (hbe : bendErr p mu M0 < 1) (s : ShapeIdx) (hs : computeIdx cs p.m p.n = .ok s)
    (K KG : SqMat (p.m * p.n)) (h : calcKKGD shipped (.ok D) cs p = .ok (K, KG)) (hcond : M * curvRatio p / n0 * loadErr p mu < 1)
    (v : Fin (p.m * p.n) → ℝ) (E W : ℝ) (hE0 : 0 < E) (hE : bendEnergy D p.a p.b (ritz p.a p.b s.w v) = E)
    (hW : loadWork p.Nxx p.Nyy p.Nxy p.a p.b (ritz p.a p.b s.w v) = -W) :
    (∃ nu ≥ (1 - bendErr p mu M0) * E / (W + loadErr p mu * E), PosMult K KG nu) ∧
    (∃ nu ≤ (1 + bendErr p mu M0) * E / (W - loadErr p mu * E), PosMult K KG nu) := by
  have hKs := C48_symmetric _ _ p hm hn K KG h
  have hpd := C100_posDef D mu M0 hD cs p ha hb hm hn e he hh hbe K KG h
  set L := M * curvRatio p / n0 with hL
  have hL0 : 0 ≤ L := by
    have := markov_nonneg (p.m + 3)
    have := markov_nonneg (p.n + 3)
    have := hB.2.1
    have := hc.1
    rw [hL]
    unfold curvRatio
    positivity
  have base : ∀ x : Fin (p.m * p.n) → ℝ, x ≠ 0 → 0 < bendEnergy D p.a p.b (ritz p.a p.b s.w x) ∧
      bendEnergy D p.a p.b (ritz p.a p.b s.w x) ≤ L * -loadWork p.Nxx p.Nyy p.Nxy p.a p.b (ritz p.a p.b s.w x) := by
    intro x hx
    refine ⟨C87_supported D hD.posDef cs p ha hb s hs e he (.inl (.inl ⟨hh.1, .inr (.inl hh.2.1)⟩)) x hx, ?_⟩
    have h3 := C106_energy D M hB cs p ha hb s hs x
    have := mul_le_mul_of_nonneg_left (compressed_work hc ha hb s.w x) hL0
    refine h3.trans (le_trans (le_of_eq ?_) this)
    have := hc.1.ne'
    rw [hL]
    field_simp
  have sep : ∀ E W : ℝ, 0 < E → E ≤ L * W → 0 < W - loadErr p mu * E := by
    intro E W hE hW
    have : 0 < L * (W - loadErr p mu * E) := by
      have := mul_lt_mul_of_pos_right hcond hE
      linarith
    exact (pos_iff_pos_of_mul_pos this).mp (lt_of_le_of_ne hL0 fun h0 => by rw [← h0] at this; linarith)
  have rel := fun x => C100_relative D mu M0 hD cs p ha hb hm hn e he hh K KG h s hs x
  have wrk := fun x => C100_work_any D mu M0 hD cs p ha hb hm hn e he hh K KG h s hs x
  have hneg : ∀ x, x ≠ 0 → x ⬝ᵥ KG.mulVec x < 0 := by
    intro x hx
    obtain ⟨b1, b2⟩ := base x hx
    have := sep _ _ b1 b2
    have := (abs_le.mp (wrk x)).2
    linarith
  have hv : v ≠ 0 := fun h0 => by
    have := rel v
    rw [hE, h0, zero_dotProduct, zero_sub, abs_neg, abs_of_pos hE0] at this
    nlinarith
  obtain ⟨b1, b2⟩ := base v hv
  have r := rel v
  have w := wrk v
  rw [hE] at b1 b2 r w
  rw [hW] at b2 w
  rw [neg_neg] at b2
  have hs1 := sep E W b1 b2
  have hle : 0 ≤ loadErr p mu := nonneg_of_mul_nonneg_left ((abs_nonneg _).trans w) b1
  have hbe0 : 0 ≤ bendErr p mu M0 := nonneg_of_mul_nonneg_left ((abs_nonneg _).trans r) b1
  have hW0 : 0 < W + loadErr p mu * E := by
    have := mul_nonneg hle b1.le
    linarith
  obtain ⟨r1, r2⟩ := abs_le.mp r
  obtain ⟨w1, w2⟩ := abs_le.mp w
  constructor
  · have hq : 0 < (1 - bendErr p mu M0) * E / (W + loadErr p mu * E) := div_pos (mul_pos (by linarith) b1) hW0
    refine posMult_ge hpd hKs.2 hneg hv hq ?_
    have : (1 - bendErr p mu M0) * E / (W + loadErr p mu * E) * (W + loadErr p mu * E) = (1 - bendErr p mu M0) * E := div_mul_cancel₀ _ hW0.ne'
    have h3 := mul_le_mul_of_nonneg_left (show -(W + loadErr p mu * E) ≤ v ⬝ᵥ KG.mulVec v by linarith) hq.le
    linarith
  · have hq : 0 < (1 + bendErr p mu M0) * E / (W - loadErr p mu * E) := div_pos (mul_pos (by linarith) b1) hs1
    refine posMult_le hpd hKs.2 hv hq ?_
    have : (1 + bendErr p mu M0) * E / (W - loadErr p mu * E) * (W - loadErr p mu * E) = (1 + bendErr p mu M0) * E := div_mul_cancel₀ _ hs1.ne'
    have h3 := mul_le_mul_of_nonneg_left (show v ⬝ᵥ KG.mulVec v ≤ -(W - loadErr p mu * E) by linarith) hq.le
    linarith

/-- **C106** what `buckling_analysis` reports for a compressed plate held along all edges: if the bound is at most 1, the first value is the
greatest of all multipliers, not the critical one. -/
theorem C106_first (S : EigSolver) (D : M3) (mu M0 M n0 : ℝ) (hD : Between D mu M0) (hB : Below D M) (cs : Constraints) (p : PlateNum)
    (ha : 0 < p.a) (hb : 0 < p.b) (hm : 1 ≤ p.m) (hn : 1 ≤ p.n) (e : Edges) (he : chooseEdges cs = .ok e) (hh : EdgesHeld e) (hc : Compressed p n0)
    (K KG : SqMat (p.m * p.n)) (h : calcKKGD shipped (.ok D) cs p = .ok (K, KG)) (hcond : M * curvRatio p / n0 * loadErr p mu < 1)
    (hthin : (1 + bendErr p mu M0) * (M * curvRatio p / n0) / (1 - M * curvRatio p / n0 * loadErr p mu) ≤ 1)
    (hS : Honest S KG K) (hsort : ∀ k out, S _ KG K k = .ok out → CayleySorted out) (numEig : ℤ) (st : PlateState (p.m * p.n))
    (vals : List PyFloat) (vecs : List (Fin (p.m * p.n) → ℝ)) (hrun : (bucklingAnalysis S (.ok D) cs p numEig st).1 = .ok (vals, vecs))
    (lam : ℝ) (hl : PosMult K KG lam) (e0 : PyFloat) (hx : vals[0]? = some e0) : ∃ x, e0 = .fin x ∧ IsGreatest {nu | PosMult K KG nu} x := by
  obtain ⟨x, rfl, -⟩ := head_finite hrun h hS hsort hx hl
  exact ⟨x, rfl, head_greatest hrun h hS hsort hx hl fun _ hnu =>
    (C106_shipped D mu M0 M n0 hD hB cs p ha hb hm hn e he hh hc K KG h hcond _ hnu).trans hthin⟩

/-! ## The weight test without a restriction on the thickness -/

theorem wt_compressed : Compressed wtPlate 0.27 := by
  refine ⟨by norm_num, 5, by norm_num, ?_, ?_⟩
  · rw [show wtPlate.Nxx = -1 from rfl, show wtPlate.Nxy = 59 / 775 from rfl, abs_of_pos (by norm_num)]
    norm_num
  · rw [show wtPlate.Nyy = -907 / 3100 from rfl, show wtPlate.Nxy = 59 / 775 from rfl, abs_of_pos (by norm_num)]
    norm_num

/-- The bound of the designs of the test, and its product with the accuracy of the tables. -/
theorem wt_cond {k : ℝ} (hk : 0 < k) : 3 * (k * 140000) * curvRatio wtPlate / 0.27 ≤ 113400 * k ∧ 0 ≤ 3 * (k * 140000) * curvRatio wtPlate / 0.27 ∧
    3 * (k * 140000) * curvRatio wtPlate / 0.27 * loadErr wtPlate (k * 5000) ≤ 0.005 := by
  obtain ⟨-, e2, e3⟩ := wt_err hk
  have hr : curvRatio wtPlate ≤ 0.0729 := by
    rw [curvRatio, show wtPlate.a = 1181.1 from rfl, show wtPlate.b = 746.74 from rfl, show wtPlate.m = 7 from rfl, show wtPlate.n = 7 from rfl,
      markov]
    norm_num
  have hr0 : 0 ≤ curvRatio wtPlate := by
    have := markov_nonneg (wtPlate.m + 3)
    have := markov_nonneg (wtPlate.n + 3)
    unfold curvRatio
    positivity
  set L := 3 * (k * 140000) * curvRatio wtPlate / 0.27 with hL
  have hLk : L ≤ 113400 * k := by
    rw [hL, div_le_iff₀ (by norm_num)]
    have := mul_le_mul_of_nonneg_left hr hk.le
    norm_num at this ⊢
    linarith
  have hL0 : 0 ≤ L := by positivity
  have herr : L * loadErr wtPlate (k * 5000) ≤ 0.005 := by
    have h1 := mul_le_mul_of_nonneg_right hLk e2
    norm_num at e3 ⊢
    linarith
  exact ⟨hLk, hL0, herr⟩

/-- All multipliers of the designs of the test are small if the panel is thin. -/
theorem wt_top {k x1 x3 : ℝ} (hk : 0 < k) (b3 : -1 ≤ x3) (b3' : x3 ≤ 1) (g1 : -0.0001 ≤ x3 + 2 * x1 + 1) (g2 : -0.0001 ≤ x3 - 2 * x1 + 1)
    (K KG : SqMat (wtPlate.m * wtPlate.n)) (h : calcKKGD shipped (.ok (lpStiffness k wtU ![x1, 0, x3, 0])) (.str wPINNED) wtPlate = .ok (K, KG))
    (lam : ℝ) (hl : PosMult K KG lam) : lam ≤ 115000 * k := by
  have hbt := wt_between hk b3 b3' g1 g2
  obtain ⟨e1, e2, e3⟩ := wt_err hk
  have ha : 0 < wtPlate.a := by norm_num [panelPlate, wtPanel]
  have hb : 0 < wtPlate.b := by norm_num [panelPlate, wtPanel]
  obtain ⟨hLk, hL0, herr⟩ := wt_cond hk
  set L := 3 * (k * 140000) * curvRatio wtPlate / 0.27 with hL
  have hmain := C106_shipped _ _ _ _ _ hbt (below_of_up hbt.symm hbt.up) (.str wPINNED) wtPlate ha hb (by norm_num [panelPlate, wtPanel])
    (by norm_num [panelPlate, wtPanel]) _ rfl ⟨by decide, by decide, by decide, by decide⟩ wt_compressed K KG h
    (lt_of_le_of_lt herr (by norm_num)) lam hl
  rw [e1, ← hL] at hmain
  clear_value L
  refine hmain.trans ?_
  rw [div_le_iff₀ (by linarith [show (0.005 : ℝ) < 1 by norm_num])]
  have : 115000 * k * (L * loadErr wtPlate (k * 5000)) ≤ 115000 * k * 0.005 := mul_le_mul_of_nonneg_left herr (by positivity)
  norm_num at this hLk ⊢
  linarith

/-- A finite first value of at least 1 is a multiplier. -/
theorem first_mult {S : EigSolver} {D : Except PyErr M3} {c : Constraints} {p : PlateNum} {numEig : ℤ} {st : PlateState (p.m * p.n)}
    {vals : List PyFloat} {vecs : List (Fin (p.m * p.n) → ℝ)} (h : (bucklingAnalysis S D c p numEig st).1 = .ok (vals, vecs))
    {K KG : SqMat (p.m * p.n)} (hK : calcKKGD shipped D c p = .ok (K, KG)) (hS : Honest S KG K) {e : ℝ} (he : vals[0]? = some (.fin e))
    (hpos : 0 < e) : PosMult K KG e := by
  obtain ⟨_, K', KG', out, _, hK', _, hout, rfl, -, -⟩ := buckling_inv h
  rw [hK] at hK'
  obtain ⟨rfl, rfl⟩ := Prod.mk.inj (Except.ok.inj hK')
  have hc := hS _ _ hout
  obtain ⟨-, q, hq, e'⟩ := reported_iff.mp (List.mem_of_getElem? he)
  obtain ⟨hqv, hqp⟩ := hc.pair q hq
  exact ⟨hpos, q.2, (buckles_pencil hpos.ne').mpr ⟨hqv, by rw [← e']; exact hqp⟩⟩

/-- **C106** `tests/optimization_test/minimize_panel_weight_test.py`, all thicknesses: no feasible design is thinner than 22.06, there is a
local minimum, and the thickness of every local minimum is close to the reference in the sense of the test. -/
theorem C106_test_weight (S : EigSolver) (hS : GoodSolver S) (x0 : List ℝ) :
    ∃ prob, (minimizePanelWeight S wtPanel (-3100) (-907) 236 x0).2 = .ok prob ∧ (∃ v, LocalMinOn prob Set.univ v) ∧
      (∀ v, Feas prob v → ∃ T x1 x3, v = [T, x1, x3] ∧ 22.06 ≤ T) ∧
      ∀ v, LocalMinOn prob Set.univ v → ∃ T x1 x3, v = [T, x1, x3] ∧ NpClose 0.1 0.1 T 22.09 := by
  obtain ⟨prob, hp, hex, hmain⟩ := C104_test_weight S hS x0
  obtain ⟨prob', hp', -, hthin, -⟩ := C103_test_weight S hS x0
  obtain rfl : prob = prob' := Except.ok.inj (hp.symm.trans hp')
  have hnorm : normalizeCriticalLoad (-3100) (-907) 236 = .ok (-1, -907 / 3100, 59 / 775, 3100) := by
    have := normalize_eq (-3100) (-907) 236 (by norm_num)
    norm_num at this
    rw [this]
    norm_num
  have key : ∀ v, Feas prob v → ∃ T x1 x3, v = [T, x1, x3] ∧ 0.35 ≤ T := by
    intro v hv
    obtain ⟨q, he, ⟨⟨⟨hT1, hT2⟩, ⟨-, -⟩, b3, b3'⟩, g1, g2⟩, r, hr, h31⟩ := (weight_feas S wtPanel _ _ _ x0 prob hp _ _ _ _ hnorm v).mp hv
    refine ⟨q.1, q.2.1, q.2.2, he, ?_⟩
    by_contra hcon
    push Not at hcon
    have hT0 : 0 < q.1 := lt_of_lt_of_le (by norm_num) hT1
    have hk0 : 0 < q.1 ^ 3 / 12 := by positivity
    have hbt := wt_between hk0 b3 b3' g1 g2
    obtain ⟨K, KG, vals, vecs, e, hK, hpd, hsy, ho, hso, hrun, he, hn⟩ := panel_first S hS wtPanel wtPanel_ok rfl (by norm_num [wtPanel])
      (by norm_num [wtPanel]) (by norm_num [wtPanel]) (by norm_num [wtPanel]) (by norm_num [wtPanel]) q.1 q.2.1 q.2.2 (-1) (-907 / 3100) (59 / 775)
      _ (panelD_eq wtPanel wtU wtU_eq _ _ _) _ _ hbt (by rw [(wt_err hk0).1]; norm_num)
    obtain rfl : e = .fin r := Except.ok.inj (hn.symm.trans hr)
    have hm := first_mult hrun hK ho he (by linarith)
    have hle := wt_top hk0 b3 b3' g1 g2 K KG hK r hm
    have hT3 : q.1 ^ 3 ≤ (0.35 : ℝ) ^ 3 := pow_le_pow_left₀ hT0.le hcon.le 3
    norm_num at hT3
    linarith
  refine ⟨prob, hp, hex, fun v hv => ?_, fun v hv => ?_⟩
  · obtain ⟨T, x1, x3, rfl, hT⟩ := key v hv
    exact ⟨T, x1, x3, rfl, hthin T x1 x3 hT hv.1 hv.2⟩
  · obtain ⟨T, x1, x3, rfl, hT⟩ := key v hv.2.1
    exact ⟨T, x1, x3, rfl, hmain T x1 x3 hT hv⟩

theorem gap_arith {k E1 W1 E2 W2 q lo hi : ℝ} (hk : 0 < k) (n1 : 0 < E1 ∧ E1 ≤ 25 * W1 ∧ 0 < W1) (n2 : 0 < E2 ∧ E2 ≤ 250 * W2 ∧ 0 < W2)
    (n3 : 1.6 * (E1 * W2) ≤ E2 * W1) (e2 : 0 ≤ q) (e3 : q * k ≤ 4e-8) (hlo : lo ≤ (1 + 252e-9) * (k * E1) / (W1 - q * (k * E1)))
    (hhi : hi ≥ (1 - 252e-9) * (k * E2) / (W2 + q * (k * E2))) : 1.5 * lo ≤ hi := by
  obtain ⟨a1, a2, a3⟩ := n1
  obtain ⟨c1, c2, c3⟩ := n2
  have hqE1 : q * (k * E1) ≤ 0.00001 * W1 := by
    have := mul_le_mul_of_nonneg_right e3 a1.le
    norm_num at this ⊢
    linarith
  have hqE2 : q * (k * E2) ≤ 0.00001 * W2 := by
    have := mul_le_mul_of_nonneg_right e3 c1.le
    norm_num at this ⊢
    linarith
  have hq2 : 0 ≤ q * (k * E2) := by positivity
  have h1 : lo ≤ 1.001 * k * (E1 / W1) := by
    refine hlo.trans ?_
    have hden : 0.99999 * W1 ≤ W1 - q * (k * E1) := by norm_num at hqE1 ⊢; linarith
    have hp : 0 < 0.99999 * W1 := by positivity
    rw [div_le_iff₀ (lt_of_lt_of_le hp hden)]
    have h0 : 0 ≤ 1.001 * k * (E1 / W1) := by positivity
    have := mul_le_mul_of_nonneg_left hden h0
    have e : 1.001 * k * (E1 / W1) * (0.99999 * W1) = 1.001 * 0.99999 * (k * E1) := by field_simp
    have : 0 < k * E1 := by positivity
    norm_num at e ⊢
    linarith
  have h2 : 0.999 * k * (E2 / W2) ≤ hi := by
    refine le_trans ?_ hhi
    have hden : W2 + q * (k * E2) ≤ 1.00001 * W2 := by norm_num at hqE2 ⊢; linarith
    rw [le_div_iff₀ (by linarith)]
    have h0 : 0 ≤ 0.999 * k * (E2 / W2) := by positivity
    have := mul_le_mul_of_nonneg_left hden h0
    have e : 0.999 * k * (E2 / W2) * (1.00001 * W2) = 0.999 * 1.00001 * (k * E2) := by field_simp
    have : 0 < k * E2 := by positivity
    norm_num at e ⊢
    linarith
  have h3 : 1.6 * (E1 / W1) ≤ E2 / W2 := by
    rw [mul_div_assoc', div_le_div_iff₀ a3 c3]
    linarith
  have h4 := mul_le_mul_of_nonneg_left h3 hk.le
  have h5 : 0 ≤ k * (E1 / W1) := by positivity
  norm_num at h1 h2 h4 ⊢
  linarith

/-- The designs of the test have two multipliers at least. -/
theorem wt_gap {k x1 x3 : ℝ} (hk : 0 < k) (b3 : -1 ≤ x3) (b3' : x3 ≤ 1) (g1 : -0.0001 ≤ x3 + 2 * x1 + 1) (g2 : -0.0001 ≤ x3 - 2 * x1 + 1)
    (K KG : SqMat (wtPlate.m * wtPlate.n)) (h : calcKKGD shipped (.ok (lpStiffness k wtU ![x1, 0, x3, 0])) (.str wPINNED) wtPlate = .ok (K, KG)) :
    ∃ lo hi, PosMult K KG lo ∧ PosMult K KG hi ∧ 1.5 * lo ≤ hi := by
  have hbt := wt_between hk b3 b3' g1 g2
  obtain ⟨e1, e2, e3⟩ := wt_err hk
  obtain ⟨hsy, e00, e11, e01, e22, -, -⟩ := design_entries k wtU x1 x3
  have ha : 0 < wtPlate.a := by norm_num [panelPlate, wtPanel]
  have hb : 0 < wtPlate.b := by norm_num [panelPlate, wtPanel]
  obtain ⟨s, hs⟩ := (C40_accepted_iff (.str wPINNED) wtPlate.m wtPlate.n).mpr ⟨_, rfl⟩
  have hcond : 3 * (k * 140000) * curvRatio wtPlate / 0.27 * loadErr wtPlate (k * 5000) < 1 :=
    lt_of_le_of_lt (wt_cond hk).2.2 (by norm_num)
  obtain ⟨za, za', da⟩ := quart_ends ha.ne'
  obtain ⟨zb, zb', db⟩ := quart_ends hb.ne'
  obtain ⟨zc, zc', dc⟩ := quint_ends hb.ne'
  obtain ⟨i0, i1, i2⟩ := quart_ints ha.ne'
  obtain ⟨j0, j1, j2⟩ := quart_ints hb.ne'
  obtain ⟨l0, l1, l2⟩ := quint_ints hb.ne'
  have dm : 2 ≤ wtPlate.m := by norm_num [panelPlate, wtPanel]
  have dn : 2 ≤ wtPlate.n := by norm_num [panelPlate, wtPanel]
  have hm7 : wtPlate.m = 7 := rfl
  have hn7 : wtPlate.n = 7 := rfl
  obtain ⟨v, hr⟩ := prod_ritz ha.ne' hb.ne' hs (quart wtPlate.a) (quart wtPlate.b) dm dn (by omega) (by omega) za za' zb zb'
  obtain ⟨u, hru⟩ := prod_ritz ha.ne' hb.ne' hs (quart wtPlate.a) (quint wtPlate.b) dm dn (by omega) (by omega) za za' zc zc'
  obtain ⟨eE, eW⟩ := prod_energy _ hsy wtPlate.Nxx wtPlate.Nyy wtPlate.Nxy (quart wtPlate.a) (quart wtPlate.b) za za' zb zb'
  obtain ⟨uE, uW⟩ := prod_energy _ hsy wtPlate.Nxx wtPlate.Nyy wtPlate.Nxy (quart wtPlate.a) (quint wtPlate.b) za za' zc zc'
  rw [i0, i1, i2, j0, j1, j2, ← hr] at eE
  rw [i0, i1, j0, j1, ← hr] at eW
  rw [i0, i1, i2, l0, l1, l2, ← hru] at uE
  rw [i0, i1, l0, l1, ← hru] at uW
  rw [e00, e11, e01, e22] at eE uE
  rw [show wtPlate.Nxx = -1 from rfl, show wtPlate.Nyy = -907 / 3100 from rfl] at eW uW
  set A := wtU.U1 + wtU.U2 * x1 + wtU.U3 * x3 with hA
  set B := wtU.U1 - wtU.U2 * x1 + wtU.U3 * x3 with hB
  set H := wtU.U4 - wtU.U3 * x3 + 2 * (wtU.U5 - wtU.U3 * x3) with hH
  set a := wtPlate.a with hwa
  set b := wtPlate.b with hwb
  set E1 := A * (24 / 5 / a ^ 3 * (31 / 630 * b)) + 2 * H * (17 / 35 / a * (17 / 35 / b)) + B * (31 / 630 * a * (24 / 5 / b ^ 3)) with hE1
  set W1 := 17 / 35 / a * (31 / 630 * b) + 907 / 3100 * (31 / 630 * a * (17 / 35 / b)) with hW1
  set E2 := A * (24 / 5 / a ^ 3 * (5 / 462 * b)) + 2 * H * (17 / 35 / a * (3 / 7 / b)) + B * (31 / 630 * a * (120 / 7 / b ^ 3)) with hE2
  set W2 := 17 / 35 / a * (5 / 462 * b) + 907 / 3100 * (31 / 630 * a * (3 / 7 / b)) with hW2
  have fE : bendEnergy (lpStiffness k wtU ![x1, 0, x3, 0]) a b (ritz a b s.w v) = k * E1 := by rw [eE, hE1, hH]; ring
  have fW : loadWork (-1) (-907 / 3100) wtPlate.Nxy a b (ritz a b s.w v) = -W1 := by rw [eW, hW1]; ring
  have gE : bendEnergy (lpStiffness k wtU ![x1, 0, x3, 0]) a b (ritz a b s.w u) = k * E2 := by rw [uE, hE2, hH]; ring
  have gW : loadWork (-1) (-907 / 3100) wtPlate.Nxy a b (ritz a b s.w u) = -W2 := by rw [uW, hW2]; ring
  have ea : a = 1181.1 := rfl
  have eb : b = 746.74 := rfl
  have n1 : 0 < E1 ∧ E1 ≤ 25 * W1 ∧ 0 < W1 := by
    rw [hE1, hW1, hA, hB, hH, ea, eb]
    simp only [wtU]
    norm_num at g1 g2 ⊢
    refine ⟨?_, ?_⟩ <;> linarith
  have n2 : 0 < E2 ∧ E2 ≤ 250 * W2 ∧ 0 < W2 := by
    rw [hE2, hW2, hA, hB, hH, ea, eb]
    simp only [wtU]
    norm_num at g1 g2 ⊢
    refine ⟨?_, ?_⟩ <;> linarith
  have n3 : 1.6 * (E1 * W2) ≤ E2 * W1 := by
    rw [hE1, hW1, hE2, hW2, hA, hB, hH, ea, eb]
    simp only [wtU]
    norm_num at g1 g2 ⊢
    linarith
  clear_value E1 W1 E2 W2
  obtain ⟨-, lo, hlo, plo⟩ := C106_quotient _ _ _ _ _ hbt (below_of_up hbt.symm hbt.up) (.str wPINNED) wtPlate ha hb (by omega) (by omega) _ rfl
    ⟨by decide, by decide, by decide, by decide⟩ wt_compressed (by rw [e1]; norm_num) s hs K KG h hcond v _ _ (mul_pos hk n1.1) fE fW
  obtain ⟨⟨hi, hhi, phi⟩, -⟩ := C106_quotient _ _ _ _ _ hbt (below_of_up hbt.symm hbt.up) (.str wPINNED) wtPlate ha hb (by omega) (by omega) _ rfl
    ⟨by decide, by decide, by decide, by decide⟩ wt_compressed (by rw [e1]; norm_num) s hs K KG h hcond u _ _ (mul_pos hk n2.1) gE gW
  refine ⟨lo, hi, plo, phi, ?_⟩
  rw [e1] at hlo hhi
  exact gap_arith hk n1 n2 n3 e2 e3 hlo hhi

/-- **C106** the panel of the weight test made at most 0.04 thick: `Ncr_from_lp` returns the greatest multiplier, at least 1.5 times the
critical one. -/
theorem C106_test_thin (S : EigSolver) (hS : GoodSolver S) (T x1 x3 : ℝ) (hT : 0.001 ≤ T) (hT' : T ≤ 0.04) (b3 : -1 ≤ x3) (b3' : x3 ≤ 1)
    (g1 : -0.0001 ≤ x3 + 2 * x1 + 1) (g2 : -0.0001 ≤ x3 - 2 * x1 + 1) :
    ∃ D K KG x, panelD wtPanel T x1 x3 = .ok D ∧ calcKKGD shipped (.ok D) (.str wPINNED) wtPlate = .ok (K, KG) ∧
      ncrFromLp S wtPanel T x1 x3 (-1) (-907 / 3100) (59 / 775) = .ok (.fin x) ∧ IsGreatest {nu | PosMult K KG nu} x ∧
      ∃ lo, PosMult K KG lo ∧ 1.5 * lo ≤ x := by
  have hT0 : 0 < T := lt_of_lt_of_le (by norm_num) hT
  have hk0 : 0 < T ^ 3 / 12 := by positivity
  have hbt := wt_between hk0 b3 b3' g1 g2
  obtain ⟨K, KG, vals, vecs, e, hK, hpd, hsy, ho, hso, hrun, he, hn⟩ := panel_first S hS wtPanel wtPanel_ok rfl (by norm_num [wtPanel])
    (by norm_num [wtPanel]) (by norm_num [wtPanel]) (by norm_num [wtPanel]) (by norm_num [wtPanel]) T x1 x3 (-1) (-907 / 3100) (59 / 775)
    _ (panelD_eq wtPanel wtU wtU_eq _ _ _) _ _ hbt (by rw [(wt_err hk0).1]; norm_num)
  obtain ⟨lo, hi, hlo, hhi, hgap⟩ := wt_gap hk0 b3 b3' g1 g2 K KG hK
  obtain ⟨x, rfl, -⟩ := head_finite hrun hK ho hso he hlo
  have hgr := head_greatest hrun hK ho hso he hlo fun nu hnu => by
    have h1 := wt_top hk0 b3 b3' g1 g2 K KG hK nu hnu
    have hT3 : T ^ 3 ≤ (0.04 : ℝ) ^ 3 := pow_le_pow_left₀ hT0.le hT' 3
    norm_num at hT3
    linarith
  exact ⟨_, K, KG, x, panelD_eq wtPanel wtU wtU_eq _ _ _, hK, hn, hgr, lo, hlo, hgap.trans (hgr.2 hhi)⟩

/-- Non-vacuity: a quasi-isotropic panel 0.02 thick. -/
example (S : EigSolver) (hS : GoodSolver S) := C106_test_thin S hS 0.02 0 0 (by norm_num) (by norm_num) (by norm_num) (by norm_num) (by norm_num)
  (by norm_num)

end Composipy
