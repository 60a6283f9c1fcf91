import Verif.Model.ShapeFunctions
import Mathlib.Analysis.Calculus.Deriv.Polynomial
import Mathlib.MeasureTheory.Integral.IntervalIntegral.FundThmCalculus
import Mathlib.Topology.Algebra.Polynomial
import Mathlib.Tactic.FieldSimp
import Mathlib.Tactic.LinearCombination

/-!
# C45: properties of the generated shape functions
-/

namespace Composipy
open Polynomial
open scoped Nat

/-! ## Specification -/

/-- Legendre polynomial by Rodrigues' formula. -/
noncomputable def Spec.legendre (n : ℕ) : ℝ[X] :=
  C (1 / (2 ^ n * (n ! : ℝ))) * derivative^[n] ((X ^ 2 - 1) ^ n)

/-- Integral of a polynomial over `[-1, 1]`. -/
noncomputable def Spec.pint (p : ℝ[X]) : ℝ := ∫ x in (-1 : ℝ)..1, p.eval x

open Spec

/-! ## Rodrigues form -/

theorem scalar_identity (n j : ℕ) (hn : 2 ≤ n) (hj : 2 * j ≤ n + 2) :
    (1 / (2 ^ n * (n ! : ℚ))) * ((n.choose j : ℕ) * ((2 * (n - j)).descFactorial (n - 2) : ℕ)) =
      ((2 * (n + 3) - 2 * j - 7)‼ : ℕ) / (2 ^ j * (j ! : ℕ) * ((n + 3 - 2 * j - 1)! : ℕ)) := by
  have hjn : j ≤ n := by omega
  obtain ⟨k, rfl⟩ := Nat.exists_eq_add_of_le hjn
  have e1 : 2 * (j + k - j) = 2 * k := by omega
  have e2 : j + k + 3 - 2 * j - 1 = 2 * k - (j + k - 2) := by omega
  have hle : j + k - 2 ≤ 2 * k := by omega
  have hf := Nat.factorial_mul_descFactorial hle
  have hc := Nat.choose_mul_factorial_mul_factorial hjn
  rw [show j + k - j = k by omega] at hc
  have hd : (2 * k)! = 2 ^ k * k ! * (2 * (j + k + 3) - 2 * j - 7)‼ := by
    rcases k with _ | k
    · rw [show 2 * (j + 0 + 3) - 2 * j - 7 = 0 by omega]
      simp
    · have : 2 * (j + (k + 1) + 3) - 2 * j - 7 = 2 * k + 1 := by omega
      rw [this, show 2 * (k + 1) = (2 * k + 1) + 1 by ring, Nat.factorial_eq_mul_doubleFactorial,
        show 2 * k + 1 + 1 = 2 * (k + 1) by ring, Nat.doubleFactorial_two_mul]
  rw [e1, e2]
  have hf' : ((2 * k - (j + k - 2))! : ℚ) * ((2 * k).descFactorial (j + k - 2) : ℕ) = ((2 * k)! : ℕ) := by
    exact_mod_cast hf
  have hc' : ((j + k).choose j : ℚ) * (j ! : ℕ) * (k ! : ℕ) = ((j + k)! : ℕ) := by exact_mod_cast hc
  have hd' : ((2 * k)! : ℚ) = 2 ^ k * (k ! : ℕ) * ((2 * (j + k + 3) - 2 * j - 7)‼ : ℕ) := by exact_mod_cast hd
  have p1 : ((j + k)! : ℚ) ≠ 0 := by exact_mod_cast Nat.factorial_ne_zero _
  have p2 : (j ! : ℚ) ≠ 0 := by exact_mod_cast Nat.factorial_ne_zero _
  have p3 : (k ! : ℚ) ≠ 0 := by exact_mod_cast Nat.factorial_ne_zero _
  have p4 : ((2 * k - (j + k - 2))! : ℚ) ≠ 0 := by exact_mod_cast Nat.factorial_ne_zero _
  rw [← hc', div_mul_eq_mul_div, div_eq_div_iff (by rw [hc']; positivity) (by positivity), pow_add]
  linear_combination (2 ^ j * (j ! : ℚ) * ((j + k).choose j : ℕ)) * (hf'.trans hd')

theorem rodrigues (n : ℕ) (hn : 2 ≤ n) :
    orthPoly (n + 3) = C (1 / (2 ^ n * (n ! : ℚ))) * derivative^[n - 2] ((X ^ 2 - 1) ^ n) := by
  have hexp : ((X : ℚ[X]) ^ 2 - 1) ^ n =
      ∑ j ∈ Finset.range (n + 1), C ((-1) ^ j * (n.choose j : ℚ)) * X ^ (2 * (n - j)) := by
    rw [sub_eq_add_neg, add_comm, add_pow]
    apply Finset.sum_congr rfl
    intro j _
    simp only [map_mul, map_pow, map_neg, map_one, map_natCast, pow_mul]
    ring
  rw [hexp, iterate_derivative_sum]
  simp only [iterate_derivative_C_mul, iterate_derivative_X_pow_eq_C_mul]
  rw [Finset.mul_sum, orthPoly]
  have hterm : ∀ j ∈ Finset.range (n + 1), C (1 / (2 ^ n * (n ! : ℚ))) * (C ((-1) ^ j * (n.choose j : ℚ)) *
      (C (((2 * (n - j)).descFactorial (n - 2) : ℕ) : ℚ) * X ^ (2 * (n - j) - (n - 2)))) =
      if 2 * j + 1 ≤ n + 3 then monomial (n + 3 - 2 * j - 1) (orthCoef (n + 3) j) else (0 : ℚ[X]) := by
    intro j hj
    have hjn : j ≤ n := by simpa [Nat.lt_succ_iff] using hj
    by_cases h : 2 * j + 1 ≤ n + 3
    · rw [if_pos h, ← C_mul_X_pow_eq_monomial, ← mul_assoc, ← mul_assoc, ← C_mul, ← C_mul]
      congr 2
      · have := scalar_identity n j hn (by omega)
        rw [orthCoef, mul_div_assoc, ← this]
        ring
      · omega
    · rw [if_neg h, Nat.descFactorial_eq_zero_iff_lt.mpr (by omega)]
      simp
  rw [Finset.sum_congr rfl hterm]
  -- both sums have the same non-zero terms
  apply Finset.sum_subset_zero_on_sdiff
  · intro j hj
    simp only [Finset.mem_range] at *
    omega
  · intro j hj
    simp only [Finset.mem_sdiff, Finset.mem_range] at hj
    rw [if_neg (by omega)]
  · intro j _
    rfl

theorem bardell_ge (i : ℕ) (hi : 4 ≤ i) : bardell i = orthPoly (i + 1) := by
  obtain ⟨k, rfl⟩ := Nat.exists_eq_add_of_le hi
  rw [show 4 + k = k + 4 by ring]
  rfl

/-- Rodrigues form of the shape functions from index 4 on. -/
theorem shape_rodrigues (i : ℕ) (hi : 4 ≤ i) :
    shape i = C (1 / (2 ^ (i - 2) * ((i - 2)! : ℝ))) * derivative^[i - 4] ((X ^ 2 - 1) ^ (i - 2)) := by
  obtain ⟨k, rfl⟩ := Nat.exists_eq_add_of_le hi
  rw [shape, bardell_ge _ hi, show 4 + k + 1 = (k + 2) + 3 by ring, rodrigues (k + 2) (by omega)]
  rw [Polynomial.map_mul, Polynomial.map_C, ← iterate_derivative_map]
  simp only [Polynomial.map_pow, Polynomial.map_sub, Polynomial.map_X, Polynomial.map_one]
  rw [show 4 + k - 2 = k + 2 by omega, show 4 + k - 4 = k + 2 - 2 by omega]
  simp

/-! ## C45, boundary values, parity, second derivative -/

theorem eval_iterate_zero (n m : ℕ) (h : m < n) (x : ℝ) (hx : x ^ 2 = 1) :
    (derivative^[m] (((X : ℝ[X]) ^ 2 - 1) ^ n)).eval x = 0 := by
  obtain ⟨q, hq⟩ := pow_sub_dvd_iterate_derivative_pow ((X : ℝ[X]) ^ 2 - 1) n m
  rw [hq, eval_mul, eval_pow]
  simp [hx, Nat.sub_ne_zero_of_lt h]

/-- **C45** the functions from index 4 on vanish with their slope at both ends. -/
theorem C45_bubble (i : ℕ) (hi : 4 ≤ i) :
    (shape i).eval (-1) = 0 ∧ (shape i).eval 1 = 0 ∧ (derivative (shape i)).eval (-1) = 0 ∧
      (derivative (shape i)).eval 1 = 0 := by
  rw [shape_rodrigues i hi, derivative_C_mul, ← Function.iterate_succ_apply' derivative]
  simp only [eval_mul, eval_C]
  refine ⟨?_, ?_, ?_, ?_⟩ <;> rw [eval_iterate_zero _ _ (by omega) _ (by norm_num), mul_zero]

/-- **C45** the second derivative is a Legendre polynomial. -/
theorem C45_second_derivative (i : ℕ) (hi : 4 ≤ i) : derivative (derivative (shape i)) = legendre (i - 2) := by
  rw [shape_rodrigues i hi, derivative_C_mul, derivative_C_mul, ← Function.iterate_succ_apply' derivative,
    ← Function.iterate_succ_apply' derivative, legendre]
  congr 3
  omega

/-- **C45** parity: function number `i` is even or odd like `i`. -/
theorem C45_parity (i : ℕ) (hi : 4 ≤ i) (x : ℝ) : (shape i).eval (-x) = (-1) ^ i * (shape i).eval x := by
  rw [shape, bardell_ge i hi, orthPoly]
  simp only [Polynomial.map_sum, eval_finset_sum, Finset.mul_sum]
  apply Finset.sum_congr rfl
  intro n _
  by_cases h : 2 * n + 1 ≤ i + 1
  · simp only [h, if_true, Polynomial.map_monomial, eval_monomial]
    have he : i + 1 - 2 * n - 1 = i - 2 * n := by omega
    rw [he, neg_pow]
    have : ((-1 : ℝ)) ^ (i - 2 * n) = (-1) ^ i := by
      have hs : i = (i - 2 * n) + 2 * n := by omega
      conv_rhs => rw [hs, pow_add, pow_mul]
      simp
    rw [this]; ring
  · simp [h]

/-- **C45** end values and end slopes of the first four functions: each controls one end quantity. -/
theorem C45_low_values :
    ((shape 0).eval (-1) = 1 ∧ (shape 0).eval 1 = 0 ∧ (derivative (shape 0)).eval (-1) = 0 ∧ (derivative (shape 0)).eval 1 = 0) ∧
    ((shape 1).eval (-1) = 0 ∧ (shape 1).eval 1 = 0 ∧ (derivative (shape 1)).eval (-1) = 1/2 ∧ (derivative (shape 1)).eval 1 = 0) ∧
    ((shape 2).eval (-1) = 0 ∧ (shape 2).eval 1 = 1 ∧ (derivative (shape 2)).eval (-1) = 0 ∧ (derivative (shape 2)).eval 1 = 0) ∧
    ((shape 3).eval (-1) = 0 ∧ (shape 3).eval 1 = 0 ∧ (derivative (shape 3)).eval (-1) = 0 ∧ (derivative (shape 3)).eval 1 = 1/2) := by
  simp only [shape, bardell, Polynomial.map_add, Polynomial.map_sub, Polynomial.map_neg, Polynomial.map_mul, Polynomial.map_pow,
    Polynomial.map_C, Polynomial.map_X, derivative_add, derivative_sub, derivative_neg, derivative_C_mul, derivative_C,
    derivative_X_pow, derivative_X, eval_add, eval_sub, eval_neg, eval_mul, eval_pow, eval_C, eval_X, eval_one, eval_zero]
  norm_num

/-! ## Integrals -/

theorem pint_add (p q : ℝ[X]) : pint (p + q) = pint p + pint q := by
  simp only [pint, eval_add]
  exact intervalIntegral.integral_add (p.continuous.intervalIntegrable _ _) (q.continuous.intervalIntegrable _ _)

theorem pint_C_mul (c : ℝ) (p : ℝ[X]) : pint (C c * p) = c * pint p := by
  simp [pint, eval_mul]

theorem pint_neg (p : ℝ[X]) : pint (-p) = -pint p := by
  simp [pint, eval_neg]

theorem pint_sub (p q : ℝ[X]) : pint (p - q) = pint p - pint q := by
  rw [sub_eq_add_neg, pint_add, pint_neg, sub_eq_add_neg]

theorem pint_derivative (p : ℝ[X]) : pint (derivative p) = p.eval 1 - p.eval (-1) := by
  unfold pint
  exact intervalIntegral.integral_eq_sub_of_hasDerivAt (fun x _ => p.hasDerivAt x)
    ((derivative p).continuous.intervalIntegrable _ _)

theorem pint_by_parts (p q : ℝ[X]) : pint (p * derivative q) =
    (p * q).eval 1 - (p * q).eval (-1) - pint (derivative p * q) := by
  rw [← pint_derivative, derivative_mul, pint_add]
  ring

theorem pint_move (n k : ℕ) (hk : k ≤ n) (q : ℝ[X]) :
    pint (q * derivative^[k] ((X ^ 2 - 1) ^ n)) = (-1) ^ k * pint (derivative^[k] q * (X ^ 2 - 1) ^ n) := by
  induction k generalizing q with
  | zero => simp
  | succ k ih =>
    rw [Function.iterate_succ_apply' derivative, pint_by_parts, eval_mul, eval_mul,
      eval_iterate_zero n k (by omega) 1 (by norm_num), eval_iterate_zero n k (by omega) (-1) (by norm_num),
      ih (by omega), ← Function.iterate_succ_apply derivative]
    ring

theorem pint_base (n : ℕ) : (2 * (n : ℝ) + 3) * pint ((X ^ 2 - 1) ^ (n + 1)) =
    -(2 * (n : ℝ) + 2) * pint ((X ^ 2 - 1) ^ n) := by
  have h := pint_derivative (X * (X ^ 2 - 1) ^ (n + 1))
  have e : derivative ((X : ℝ[X]) * (X ^ 2 - 1) ^ (n + 1)) =
      C (2 * (n : ℝ) + 3) * (X ^ 2 - 1) ^ (n + 1) + C (2 * (n : ℝ) + 2) * (X ^ 2 - 1) ^ n := by
    rw [derivative_mul, derivative_X, derivative_pow, derivative_sub, derivative_X_pow, derivative_one]
    simp only [Nat.add_sub_cancel, map_add, map_mul, map_natCast, map_ofNat, Nat.cast_add, Nat.cast_one, map_one,
      Nat.cast_ofNat]
    ring
  rw [e, pint_add, pint_C_mul, pint_C_mul] at h
  simp at h
  linarith

theorem pint_closed (n : ℕ) : pint ((X ^ 2 - 1) ^ n) * ((2 * n + 1)! : ℝ) =
    (-1) ^ n * 2 ^ (2 * n + 1) * (n ! : ℝ) ^ 2 := by
  induction n with
  | zero => simp [pint]; norm_num
  | succ n ih =>
    have h := pint_base n
    have hf : ((2 * (n + 1) + 1)! : ℝ) = (2 * n + 3) * (2 * n + 2) * ((2 * n + 1)! : ℝ) := by
      rw [show 2 * (n + 1) + 1 = (2 * n + 1) + 1 + 1 by ring, Nat.factorial_succ, Nat.factorial_succ]
      push_cast
      ring
    have hg : ((n + 1)! : ℝ) = (n + 1) * (n ! : ℝ) := by
      rw [Nat.factorial_succ]; push_cast; ring
    rw [hf, hg]
    have : pint ((X ^ 2 - 1) ^ (n + 1)) * ((2 * (n : ℝ) + 3) * (2 * n + 2) * ((2 * n + 1)! : ℝ)) =
        (2 * n + 2) * ((2 * (n : ℝ) + 3) * pint ((X ^ 2 - 1) ^ (n + 1))) * ((2 * n + 1)! : ℝ) := by ring
    rw [this, h]
    calc _ = -(2 * (n : ℝ) + 2) ^ 2 * (pint ((X ^ 2 - 1) ^ n) * ((2 * n + 1)! : ℝ)) := by ring
      _ = _ := by rw [ih, pow_succ (-1 : ℝ)]; ring

/-! ## Orthogonality -/

theorem natDegree_base (n : ℕ) : (((X : ℝ[X]) ^ 2 - 1) ^ n).natDegree = 2 * n := by
  rw [natDegree_pow, show (X : ℝ[X]) ^ 2 - 1 = X ^ 2 - C 1 by simp, natDegree_X_pow_sub_C]
  ring

theorem monic_base (n : ℕ) : (((X : ℝ[X]) ^ 2 - 1) ^ n).Monic := by
  apply Monic.pow
  rw [show (X : ℝ[X]) ^ 2 - 1 = X ^ 2 - C 1 by simp]
  exact monic_X_pow_sub_C 1 (by norm_num)

theorem natDegree_legendre_le (n : ℕ) : (legendre n).natDegree ≤ n := by
  unfold legendre
  refine (natDegree_C_mul_le _ _).trans ?_
  refine (natDegree_iterate_derivative _ _).trans ?_
  rw [natDegree_base]; omega

theorem derivative_full (n : ℕ) : derivative^[2 * n] (((X : ℝ[X]) ^ 2 - 1) ^ n) = C ((2 * n)! : ℝ) := by
  have hd : (derivative^[2 * n] (((X : ℝ[X]) ^ 2 - 1) ^ n)).natDegree = 0 := by
    have := natDegree_iterate_derivative (((X : ℝ[X]) ^ 2 - 1) ^ n) (2 * n)
    rw [natDegree_base] at this
    omega
  rw [eq_C_of_natDegree_eq_zero hd, coeff_iterate_derivative]
  have hc : (((X : ℝ[X]) ^ 2 - 1) ^ n).coeff (0 + 2 * n) = 1 := by
    have := monic_base n
    rw [Monic, leadingCoeff, natDegree_base] at this
    rw [zero_add]; exact this
  rw [hc, zero_add, Nat.descFactorial_self]
  simp

theorem legendre_orth (m n : ℕ) (h : m < n) : pint (legendre m * legendre n) = 0 := by
  have : legendre m * legendre n = C (1 / (2 ^ n * (n ! : ℝ))) * (legendre m * derivative^[n] ((X ^ 2 - 1) ^ n)) := by
    conv_lhs => rw [legendre.eq_def n]
    ring
  rw [this, pint_C_mul, pint_move n n le_rfl,
    iterate_derivative_eq_zero (lt_of_le_of_lt (natDegree_legendre_le m) h)]
  simp [pint]

theorem legendre_norm (n : ℕ) : pint (legendre n * legendre n) = 2 / (2 * n + 1) := by
  have e : legendre n * legendre n = C (1 / (2 ^ n * (n ! : ℝ))) * (legendre n * derivative^[n] ((X ^ 2 - 1) ^ n)) := by
    conv_lhs => rw [legendre.eq_def n]
    conv_rhs => rw [legendre.eq_def n]
    ring
  have d : derivative^[n] (legendre n) = C (1 / (2 ^ n * (n ! : ℝ)) * ((2 * n)! : ℝ)) := by
    rw [legendre, iterate_derivative_C_mul, ← Function.iterate_add_apply, ← two_mul, derivative_full, C_mul]
  rw [e, pint_C_mul, pint_move n n le_rfl, d, pint_C_mul]
  have hc := pint_closed n
  have p1 : (n ! : ℝ) ≠ 0 := by exact_mod_cast Nat.factorial_ne_zero _
  have p2 : ((2 * n)! : ℝ) ≠ 0 := by exact_mod_cast Nat.factorial_ne_zero _
  have hf : ((2 * n + 1)! : ℝ) = (2 * n + 1) * ((2 * n)! : ℝ) := by
    rw [Nat.factorial_succ]; push_cast; ring
  have p3 : (2 * (n : ℝ) + 1) ≠ 0 := by positivity
  rw [hf] at hc
  have hs : ((-1 : ℝ)) ^ n * (-1) ^ n = 1 := by rw [← mul_pow]; simp
  have hI : pint ((X ^ 2 - 1) ^ n) = (-1) ^ n * 2 ^ (2 * n + 1) * (n ! : ℝ) ^ 2 / ((2 * n + 1) * ((2 * n)! : ℝ)) := by
    rw [eq_div_iff (by positivity)]; exact hc
  rw [hI]
  have h2 : (2 : ℝ) ^ (2 * n + 1) = 2 * (2 ^ n * 2 ^ n) := by rw [← pow_add]; ring
  rw [h2]
  field_simp
  rw [show ((-1 : ℝ) ^ n) ^ 2 = 1 by rw [← pow_mul, mul_comm, pow_mul]; simp]

/-- **C45** the second derivatives are orthogonal with norm `2/(2i-3)` (index `i = r-1`). -/
theorem C45_orthogonal (i k : ℕ) (hi : 4 ≤ i) (hk : 4 ≤ k) :
    pint (derivative (derivative (shape i)) * derivative (derivative (shape k))) =
      if i = k then 2 / (2 * (i : ℝ) - 3) else 0 := by
  rw [C45_second_derivative i hi, C45_second_derivative k hk]
  rcases lt_trichotomy i k with h | h | h
  · rw [if_neg h.ne, legendre_orth _ _ (by omega)]
  · subst h
    rw [if_pos rfl, legendre_norm]
    congr 1
    rw [Nat.cast_sub (by omega)]
    push_cast
    ring
  · rw [if_neg h.ne', mul_comm, legendre_orth _ _ (by omega)]

/-- Non-vacuity for C45: the first bubble is `(x^2-1)^2/8`, and not the zero function. -/
example : (shape 4).eval 0 = 1 / 8 := by
  rw [shape_rodrigues 4 le_rfl]
  simp [eval_mul]
  norm_num [Nat.factorial]

end Composipy
