import Verif.Props.Navier
import Verif.Lemmas.Approx

/-!
# C99 (second part): the multipliers of simply supported plates approach the Navier solution
-/

namespace Composipy
open Spec Matrix Polynomial MeasureTheory Real Verif
open scoped Nat

variable {a b : ℝ}

/-! ## The shapes kept by `PINNED` span all polynomials that vanish at both ends -/

theorem shape_top {i : ℕ} (hi : 4 ≤ i) : (shape i).natDegree ≤ i ∧ (shape i).coeff i ≠ 0 := by
  obtain ⟨k, rfl⟩ : ∃ k, i = k + 4 := ⟨i - 4, by omega⟩
  have e : shape (k + 4) = (orthPoly (k + 4 + 1)).map (Rat.castHom ℝ) := rfl
  constructor
  · rw [e]
    refine natDegree_map_le.trans (natDegree_sum_le_of_forall_le _ _ fun n _ => ?_)
    split
    · exact (natDegree_monomial_le _).trans (by omega)
    · simp
  · rw [e, coeff_map, orthPoly, finsetSum_coeff, Finset.sum_eq_single 0]
    · simp only [mul_zero, zero_add, Nat.sub_zero]
      rw [if_pos (by omega), coeff_monomial, if_pos (by omega)]
      have : orthCoef (k + 4 + 1) 0 ≠ 0 := by
        unfold orthCoef
        have h1 := Nat.doubleFactorial_pos (2 * (k + 4 + 1) - 2 * 0 - 7)
        have h2 := Nat.factorial_pos (k + 4 + 1 - 2 * 0 - 1)
        have h1' : (((2 * (k + 4 + 1) - 2 * 0 - 7)‼ : ℕ) : ℚ) ≠ 0 := by exact_mod_cast h1.ne'
        have h2' : (((k + 4 + 1 - 2 * 0 - 1)! : ℕ) : ℚ) ≠ 0 := by exact_mod_cast h2.ne'
        simp only [pow_zero, one_mul, Nat.factorial_zero, Nat.cast_one]
        exact div_ne_zero h1' h2'
      simpa using this
    · intro n _ hn
      split
      · rw [coeff_monomial, if_neg (by omega)]
      · simp
    · simp

theorem span_cubic (p : ℝ[X]) (hd : p.natDegree ≤ 3) (h0 : p.eval (-1) = 0) (h1 : p.eval 1 = 0) :
    p = C (4 * p.coeff 0 - 4 * p.coeff 1) * shape 1 + C (-4 * p.coeff 0 - 4 * p.coeff 1) * shape 3 := by
  have e : p = C (p.coeff 0) + C (p.coeff 1) * X + C (p.coeff 2) * X ^ 2 + C (p.coeff 3) * X ^ 3 := by
    conv_lhs => rw [as_sum_range_C_mul_X_pow' p (n := 4) (by omega)]
    simp [Finset.sum_range_succ]
  have v0 : p.coeff 0 - p.coeff 1 + p.coeff 2 - p.coeff 3 = 0 := by
    rw [e] at h0; simp at h0; linarith
  have v1 : p.coeff 0 + p.coeff 1 + p.coeff 2 + p.coeff 3 = 0 := by
    rw [e] at h1; simpa using h1
  have c2 : p.coeff 2 = -p.coeff 0 := by linarith
  have c3 : p.coeff 3 = -p.coeff 1 := by linarith
  rw [c2, c3] at e
  generalize p.coeff 0 = u at e
  generalize p.coeff 1 = v at e
  subst e
  refine Polynomial.funext fun x => ?_
  simp only [shape, bardell, Polynomial.map_add, Polynomial.map_sub, Polynomial.map_neg, Polynomial.map_mul, Polynomial.map_pow,
    Polynomial.map_C, Polynomial.map_X, eval_add, eval_sub, eval_neg, eval_mul, eval_pow, eval_C, eval_X]
  norm_num
  ring

/-- Coefficients of a polynomial that vanishes at both ends on the shapes `1, 3, 4, 5, ...`. -/
theorem span_shapes (d : ℕ) (hd : 3 ≤ d) : ∀ p : ℝ[X], p.natDegree ≤ d → p.eval (-1) = 0 → p.eval 1 = 0 →
    ∃ c : ℕ → ℝ, (∀ i, c i ≠ 0 → EndZero i ∧ i ≤ d) ∧ p = ∑ i ∈ Finset.range (d + 1), C (c i) * shape i := by
  induction d, hd using Nat.le_induction with
  | base =>
    intro p hp h0 h1
    refine ⟨fun i => if i = 1 then 4 * p.coeff 0 - 4 * p.coeff 1 else if i = 3 then -4 * p.coeff 0 - 4 * p.coeff 1 else 0, fun i hi => ?_, ?_⟩
    · have : i = 1 ∨ i = 3 := by
        by_contra hno
        push Not at hno
        simp [hno.1, hno.2] at hi
      unfold EndZero
      omega
    · conv_lhs => rw [span_cubic p hp h0 h1]
      simp [Finset.sum_range_succ]
  | succ d hd ih =>
    intro p hp h0 h1
    obtain ⟨hn, hc⟩ := shape_top (i := d + 1) (by omega)
    set t := p.coeff (d + 1) / (shape (d + 1)).coeff (d + 1) with ht
    have hz := shape_endZero (i := d + 1) ⟨by omega, by omega⟩
    obtain ⟨c, hcs, hsum⟩ := ih (p - C t * shape (d + 1)) (by
      rw [natDegree_le_iff_coeff_eq_zero]
      intro N hN
      rcases Nat.lt_or_ge (d + 1) N with h | h
      · rw [coeff_sub, coeff_C_mul, coeff_eq_zero_of_natDegree_lt (lt_of_le_of_lt hp h), coeff_eq_zero_of_natDegree_lt (lt_of_le_of_lt hn h)]
        ring
      · obtain rfl : N = d + 1 := by omega
        rw [coeff_sub, coeff_C_mul, ht, div_mul_cancel₀ _ hc, sub_self]) (by simp [h0, hz.1]) (by simp [h1, hz.2])
    refine ⟨fun i => if i = d + 1 then t else c i, fun i hi => ?_, ?_⟩
    · by_cases h : i = d + 1
      · subst h
        exact ⟨⟨by omega, by omega⟩, le_rfl⟩
      · simp only [h, if_false] at hi
        exact ⟨(hcs i hi).1, by have := (hcs i hi).2; omega⟩
    · rw [Finset.sum_range_succ]
      have : ∑ i ∈ Finset.range (d + 1), C (if i = d + 1 then t else c i) * shape i = ∑ i ∈ Finset.range (d + 1), C (c i) * shape i :=
        Finset.sum_congr rfl fun i hi => by
          have := Finset.mem_range.mp hi
          rw [if_neg (by omega)]
      rw [this, ← hsum]
      simp

/-- The first `m` numbers other than 0 and 2 contain those up to `m + 1`. -/
theorem first_contains {m : ℕ} {t0 t1 r0 r1 : Prop} (h0 : t0) (h1 : t1) (h2 : ¬ r0) (h3 : ¬ r1) {xs : List ℕ}
    (hx : IsFirst m (Kept t0 r0 t1 r1) xs) {i : ℕ} (hi : EndZero i) (hm : 1 ≤ m) (him : i ≤ m + 1) : i ∈ xs := by
  by_contra hno
  have hk : Kept t0 r0 t1 r1 i := ⟨fun h => hi.1 h.1, fun h => h2 h.2, fun h => hi.2 h.1, fun h => h3 h.2⟩
  have hlt : ∀ j ∈ xs, j < i := fun j hj => by
    by_contra hge
    rcases Nat.lt_or_ge i j with h | h
    · exact hno (hx.complete j hj i h hk)
    · obtain rfl : i = j := by omega
      exact hno hj
  have hnd : xs.Nodup := hx.sorted.imp fun h => Nat.ne_of_lt h
  have hsub : xs.toFinset ⊆ ((Finset.range i).erase 0).erase 2 := fun j hj => by
    rw [List.mem_toFinset] at hj
    have k := hx.sound j hj
    have j0 : j ≠ 0 := fun h => k.1 ⟨h, h0⟩
    have j2 : j ≠ 2 := fun h => k.2.2.1 ⟨h, h1⟩
    simp [j0, j2, hlt j hj]
  have hcard := Finset.card_le_card hsub
  rw [List.toFinset_card_of_nodup hnd, hx.len] at hcard
  have : i ≠ 0 := hi.1
  have h2' : i ≠ 2 := hi.2
  by_cases hi3 : 3 ≤ i
  · rw [Finset.card_erase_of_mem (by simp; omega), Finset.card_erase_of_mem (by simp; omega), Finset.card_range] at hcard
    omega
  · have : i = 1 := by omega
    subst this
    simp at hcard
    omega

theorem sum_getD {α : Type} (w : List α) (d : α) {N : ℕ} (hN : w.length = N) (F : α → ℝ) : ∑ r : Fin N, F (w.getD r d) = (w.map F).sum := by
  subst hN
  rw [← List.sum_ofFn]
  congr 1
  refine List.ext_getElem (by simp) fun i h1 h2 => ?_
  simp only [List.getElem_ofFn, List.getElem_map]
  rw [List.getD_eq_getElem]

theorem sum_product (xs ys : List ℕ) (f g : ℕ → ℝ) : ((xs.product ys).map fun q => f q.1 * g q.2).sum = (xs.map f).sum * (ys.map g).sum := by
  induction xs with
  | nil => simp [List.product]
  | cons x xs ih =>
    rw [show (x :: xs).product ys = ys.map (fun b => (x, b)) ++ xs.product ys from List.product_cons x xs ys, List.map_append, List.sum_append, ih, List.map_cons, List.sum_cons, List.map_map]
    rw [show ((fun q : ℕ × ℕ => f q.1 * g q.2) ∘ fun b => (x, b)) = fun b => f x * g b from rfl, List.sum_map_mul_left]
    ring

/-- Any product of polynomials that vanish at the ends is a Ritz deflection of a simply supported plate with enough terms. -/
theorem prod_ritz (ha : a ≠ 0) (hb : b ≠ 0) {m n : ℕ} {s : ShapeIdx} (hs : computeIdx (.str wPINNED) m n = .ok s) (P Q : ℝ[X])
    (hm : 2 ≤ m) (hn : 2 ≤ n) (hP : P.natDegree ≤ m + 1) (hQ : Q.natDegree ≤ n + 1) (p0 : P.eval 0 = 0) (p1 : P.eval a = 0)
    (q0 : Q.eval 0 = 0) (q1 : Q.eval b = 0) :
    ∃ v : Fin (m * n) → ℝ, ritz a b s.w v = fun x y => P.eval x * Q.eval y := by
  have loc : ∀ (l : ℝ) (hl : l ≠ 0) (d : ℕ) (_ : 3 ≤ d) (P : ℝ[X]), P.natDegree ≤ d → P.eval 0 = 0 → P.eval l = 0 →
      ∃ c : ℕ → ℝ, (∀ i, c i ≠ 0 → EndZero i ∧ i ≤ d) ∧ ∀ x, P.eval x = ∑ i ∈ Finset.range (d + 1), c i * (shape i).eval (2 / l * x - 1) := by
    intro l hl d hd P hP h0 h1
    obtain ⟨c, hc, hsum⟩ := span_shapes d hd (P.comp (C (l / 2) * (X + 1)))
      (by
        refine natDegree_comp_le.trans ?_
        have : (C (l / 2) * (X + 1) : ℝ[X]).natDegree ≤ 1 := by
          refine (natDegree_C_mul_le _ _).trans ?_
          rw [show (X + 1 : ℝ[X]) = X + C 1 by simp, natDegree_X_add_C]
        nlinarith) (by simp [eval_comp, h0])
      (by
        simp only [eval_comp, eval_mul, eval_C, eval_add, eval_X, eval_one]
        rw [show l / 2 * (1 + 1) = l by ring, h1])
    refine ⟨c, hc, fun x => ?_⟩
    have := congrArg (fun p => p.eval (2 / l * x - 1)) hsum
    simp only [eval_comp, eval_mul, eval_C, eval_add, eval_X, eval_one, eval_finsetSum] at this
    rw [← this]
    congr 1
    field_simp
    ring
  obtain ⟨c, hc, hcs⟩ := loc a ha (m + 1) (by omega) P hP p0 p1
  obtain ⟨d, hd, hds⟩ := loc b hb (n + 1) (by omega) Q hQ q0 q1
  obtain ⟨e, xs, ys, he, hw, h1, h2⟩ := w_lists hs
  obtain rfl := Except.ok.inj (show Except.ok _ = .ok e from he)
  have conv : ∀ {m : ℕ} {xs : List ℕ} {t0 t1 r0 r1 : Prop} (_ : 1 ≤ m) (_ : IsFirst m (Kept t0 r0 t1 r1) xs) (_ : t0) (_ : t1) (_ : ¬ r0) (_ : ¬ r1)
      (c : ℕ → ℝ) (_ : ∀ i, c i ≠ 0 → EndZero i ∧ i ≤ m + 1) (f : ℕ → ℝ),
      (xs.map fun i => c i * f i).sum = ∑ i ∈ Finset.range (m + 1 + 1), c i * f i := by
    intro m xs t0 t1 r0 r1 hm hx h0 h1 h2 h3 c hc f
    have hnd : xs.Nodup := hx.sorted.imp fun h => Nat.ne_of_lt h
    rw [← List.sum_toFinset _ hnd]
    refine Finset.sum_congr_of_eq_on_inter (fun i _ hi => ?_) (fun i _ hi => ?_) fun _ _ _ => rfl
    · by_contra hne
      have := (hc i (left_ne_zero_of_mul hne)).2
      simp at hi
      omega
    · by_contra hne
      obtain ⟨k1, k2⟩ := hc i (left_ne_zero_of_mul hne)
      exact hi (List.mem_toFinset.mpr (first_contains h0 h1 h2 h3 hx k1 hm k2))
  refine ⟨fun r => c (s.w.getD r (0, 0)).1 * d (s.w.getD r (0, 0)).2, ?_⟩
  funext x y
  have hF := sum_getD s.w (0, 0) (C40_sizes _ _ _ s hs).2.2.len
    (fun q => c q.1 * (shape q.1).eval (2 / a * x - 1) * (d q.2 * (shape q.2).eval (2 / b * y - 1)))
  rw [hcs, hds, ← conv (by omega) h1 (by decide) (by decide) (by decide) (by decide) c hc,
    ← conv (by omega) h2 (by decide) (by decide) (by decide) (by decide) d hd, ← sum_product, ← hw, ← hF, ritz]
  exact Finset.sum_congr rfl fun r _ => by ring

/-! ## Energy and work of a product -/

/-- Products of functions that vanish at the ends feel neither the coupling of bending and twisting nor the shear load. -/
theorem prod_energy (D : M3) (hD : D.IsSymm) (nx ny nt : ℝ) (P Q : ℝ[X]) (p0 : P.eval 0 = 0) (p1 : P.eval a = 0)
    (q0 : Q.eval 0 = 0) (q1 : Q.eval b = 0) :
    bendEnergy D a b (fun x y => P.eval x * Q.eval y)
      = D 0 0 * ((∫ x in (0 : ℝ)..a, (derivative (derivative P)).eval x * (derivative (derivative P)).eval x) * ∫ y in (0 : ℝ)..b, Q.eval y * Q.eval y)
        + 2 * (D 0 1 + 2 * D 2 2) * ((∫ x in (0 : ℝ)..a, (derivative P).eval x * (derivative P).eval x) * ∫ y in (0 : ℝ)..b, (derivative Q).eval y * (derivative Q).eval y)
        + D 1 1 * ((∫ x in (0 : ℝ)..a, P.eval x * P.eval x) * ∫ y in (0 : ℝ)..b, (derivative (derivative Q)).eval y * (derivative (derivative Q)).eval y) ∧
    loadWork nx ny nt a b (fun x y => P.eval x * Q.eval y)
      = nx * ((∫ x in (0 : ℝ)..a, (derivative P).eval x * (derivative P).eval x) * ∫ y in (0 : ℝ)..b, Q.eval y * Q.eval y)
        + ny * ((∫ x in (0 : ℝ)..a, P.eval x * P.eval x) * ∫ y in (0 : ℝ)..b, (derivative Q).eval y * (derivative Q).eval y) := by
  have e : (fun x y => P.eval x * Q.eval y) = sep (N := 1) (fun _ => 1) (fun _ => P) (fun _ => Q) := by
    funext x y; simp [sep]
  have h10 : D 1 0 = D 0 1 := hD.apply 0 1
  have h20 : D 2 0 = D 0 2 := hD.apply 0 2
  have h21 : D 2 1 = D 1 2 := hD.apply 1 2
  have q : ∀ P Q P' Q' : ℝ[X], DI a b (fun x y => P.eval x * Q.eval y * (P'.eval x * Q'.eval y))
      ((∫ x in (0 : ℝ)..a, P.eval x * P'.eval x) * ∫ y in (0 : ℝ)..b, Q.eval y * Q'.eval y) := fun P Q P' Q' => by
    have := DI.quad (a := a) (b := b) (N := 1) (fun _ => 1) (fun _ => P) (fun _ => Q) (fun _ => P') (fun _ => Q')
    simpa using this
  have zero : ∀ {l : ℝ} (R : ℝ[X]), R.eval 0 = 0 → R.eval l = 0 → (∫ x in (0 : ℝ)..l, R.eval x * (derivative R).eval x) = 0 ∧
      (∫ x in (0 : ℝ)..l, (derivative R).eval x * R.eval x) = 0 ∧
      (∫ x in (0 : ℝ)..l, (derivative (derivative R)).eval x * R.eval x) = -∫ x in (0 : ℝ)..l, (derivative R).eval x * (derivative R).eval x := by
    intro l R r0 r1
    have h := parts_zero (a := l) R R r0 r1
    have c : (∫ x in (0 : ℝ)..l, (derivative R).eval x * R.eval x) = ∫ x in (0 : ℝ)..l, R.eval x * (derivative R).eval x :=
      intervalIntegral.integral_congr fun x _ => mul_comm _ _
    refine ⟨by linarith, by linarith, parts_zero _ _ r0 r1⟩
  obtain ⟨-, zp2, zp3⟩ := zero P p0 p1
  obtain ⟨zq1, -, zq3⟩ := zero Q q0 q1
  have zq3' : (∫ y in (0 : ℝ)..b, Q.eval y * (derivative (derivative Q)).eval y) = -∫ x in (0 : ℝ)..b, (derivative Q).eval x * (derivative Q).eval x := by
    rw [← zq3]
    exact intervalIntegral.integral_congr fun x _ => mul_comm _ _
  rw [e]
  constructor
  · unfold bendEnergy
    have big := ((q (derivative (derivative P)) Q (derivative (derivative P)) Q).smul (D 0 0)).add
      (((q (derivative (derivative P)) Q P (derivative (derivative Q))).smul (2 * D 0 1)).add
      (((q P (derivative (derivative Q)) P (derivative (derivative Q))).smul (D 1 1)).add
      (((q (derivative P) (derivative Q) (derivative P) (derivative Q)).smul (4 * D 2 2)).add
      (((q (derivative (derivative P)) Q (derivative P) (derivative Q)).smul (4 * D 0 2)).add
      ((q (derivative P) (derivative Q) P (derivative (derivative Q))).smul (4 * D 1 2))))))
    rw [zp2, zp3, zq1, zq3'] at big
    refine Eq.trans (intervalIntegral.integral_congr fun x _ => intervalIntegral.integral_congr fun y _ => ?_) (big.val.trans ?_)
    · simp only [bendDensity, dX_sep, dY_sep]
      simp only [sep, Finset.univ_unique, Finset.sum_singleton, one_mul]
      simp [dotProduct, Matrix.mulVec, Fin.sum_univ_three, h10, h20, h21]
      ring
    · ring
  · unfold loadWork
    have big := ((q (derivative P) Q (derivative P) Q).smul nx).add
      (((q P (derivative Q) P (derivative Q)).smul ny).add ((q (derivative P) Q P (derivative Q)).smul (2 * nt)))
    rw [zp2, zq1] at big
    refine Eq.trans (intervalIntegral.integral_congr fun x _ => intervalIntegral.integral_congr fun y _ => ?_) (big.val.trans ?_)
    · simp only [dX_sep, dY_sep]
      simp only [sep, Finset.univ_unique, Finset.sum_singleton, one_mul]
      ring
    · ring

/-! ## The limit -/

theorem sine_ints (ha : 0 < a) {i : ℕ} (hi : 1 ≤ i) :
    (∫ x in (0 : ℝ)..a, sin (i * π / a * x) * sin (i * π / a * x)) = a / 2 ∧
    (∫ x in (0 : ℝ)..a, (i * π / a * cos (i * π / a * x)) * (i * π / a * cos (i * π / a * x))) = wave a i * (a / 2) ∧
    (∫ x in (0 : ℝ)..a, (-(i * π / a) ^ 2 * sin (i * π / a * x)) * (-(i * π / a) ^ 2 * sin (i * π / a * x))) = wave a i ^ 2 * (a / 2) := by
  set k : ℝ := i * π / a with hk
  have hi' : (0 : ℝ) < i := by exact_mod_cast hi
  have hk0 : 0 < k := by rw [hk]; positivity
  have hka : k * a = i * π := by rw [hk]; field_simp
  have s0 : (∫ x in (0 : ℝ)..a, sin (k * x) * sin (k * x)) = a / 2 := by
    have := intervalIntegral.integral_comp_mul_left (a := 0) (b := a) (fun x => sin x ^ 2) hk0.ne'
    simp only [pow_two] at this
    rw [this]
    have h2 := integral_sin_sq (a := k * 0) (b := k * a)
    simp only [pow_two] at h2
    rw [h2, hka, mul_zero, sin_nat_mul_pi, sin_zero, ← hka, smul_eq_mul]
    field_simp
    ring
  have c0 : (∫ x in (0 : ℝ)..a, cos (k * x) * cos (k * x)) = a / 2 := by
    have := intervalIntegral.integral_comp_mul_left (a := 0) (b := a) (fun x => cos x ^ 2) hk0.ne'
    simp only [pow_two] at this
    rw [this]
    have h2 := integral_cos_sq (a := k * 0) (b := k * a)
    simp only [pow_two] at h2
    rw [h2, hka, mul_zero, sin_nat_mul_pi, sin_zero, ← hka, smul_eq_mul]
    field_simp
    ring
  refine ⟨s0, ?_, ?_⟩
  · rw [show (fun x => k * cos (k * x) * (k * cos (k * x))) = fun x => k ^ 2 * (cos (k * x) * cos (k * x)) from funext fun x => by ring,
      intervalIntegral.integral_const_mul, c0]
    rfl
  · rw [show (fun x => -k ^ 2 * sin (k * x) * (-k ^ 2 * sin (k * x))) = fun x => (k ^ 2) ^ 2 * (sin (k * x) * sin (k * x))
      from funext fun x => by ring, intervalIntegral.integral_const_mul, s0]
    rfl

/-- Polynomials vanishing at the ends whose three integrals approach those of `i` half waves. -/
theorem waves_near (ha : 0 < a) {i : ℕ} (hi : 1 ≤ i) : ∃ P : ℕ → ℝ[X], (∀ n, (P n).eval 0 = 0 ∧ (P n).eval a = 0) ∧
    Filter.Tendsto (fun n => ∫ x in (0 : ℝ)..a, (P n).eval x * (P n).eval x) Filter.atTop (nhds (a / 2)) ∧
    Filter.Tendsto (fun n => ∫ x in (0 : ℝ)..a, (derivative (P n)).eval x * (derivative (P n)).eval x) Filter.atTop (nhds (wave a i * (a / 2))) ∧
    Filter.Tendsto (fun n => ∫ x in (0 : ℝ)..a, (derivative (derivative (P n))).eval x * (derivative (derivative (P n))).eval x) Filter.atTop
      (nhds (wave a i ^ 2 * (a / 2))) := by
  set k : ℝ := i * π / a with hk
  have hka : k * a = i * π := by rw [hk]; field_simp
  have d1 : ∀ x : ℝ, HasDerivAt (fun x => sin (k * x)) (k * cos (k * x)) x := fun x => by
    have := ((hasDerivAt_id x).const_mul k).sin
    simp only [id, mul_one] at this
    rwa [mul_comm] at this
  have d2 : ∀ x : ℝ, HasDerivAt (fun x => k * cos (k * x)) (-k ^ 2 * sin (k * x)) x := fun x => by
    have := (((hasDerivAt_id x).const_mul k).cos).const_mul k
    simp only [id, mul_one] at this
    refine this.congr_deriv ?_
    ring
  have hc0 : Continuous fun x : ℝ => sin (k * x) := by fun_prop
  have hc1 : Continuous fun x : ℝ => k * cos (k * x) := by fun_prop
  have hc2 : Continuous fun x : ℝ => -k ^ 2 * sin (k * x) := by fun_prop
  have hpos : ∀ n : ℕ, (0 : ℝ) < 1 / (n + 1) := fun n => by positivity
  have hone : ∀ n : ℕ, (1 : ℝ) / (n + 1) ≤ 1 := fun n => by
    rw [div_le_one (by positivity)]
    have : (0 : ℝ) ≤ n := Nat.cast_nonneg n
    linarith
  choose P z0 z1 hP using fun n : ℕ => exists_poly_near ha d1 d2 hc2 (by simp) (by rw [hka]; exact sin_nat_mul_pi i) (hpos n)
  obtain ⟨v0, v1, v2⟩ := sine_ints ha hi
  have lim : ∀ {f : ℕ → ℝ[X]} {g : ℝ → ℝ}, Continuous g → (∀ n, ∀ x ∈ Set.Icc 0 a, |(f n).eval x - g x| ≤ 1 / (n + 1)) →
      Filter.Tendsto (fun n => ∫ x in (0 : ℝ)..a, (f n).eval x * (f n).eval x) Filter.atTop (nhds (∫ x in (0 : ℝ)..a, g x * g x)) := by
    intro f g hg hf
    obtain ⟨M, hM⟩ := (isCompact_Icc (a := (0 : ℝ)) (b := a)).exists_bound_of_continuousOn hg.continuousOn
    rw [tendsto_iff_norm_sub_tendsto_zero]
    refine squeeze_zero (fun n => norm_nonneg _) (fun n => square_near ha (f n).continuous hg (hpos n).le (hone n) hM (hf n)) ?_
    have : Filter.Tendsto (fun n : ℕ => 1 / ((n : ℝ) + 1) * ((2 * M + 1) * a)) Filter.atTop (nhds (0 * ((2 * M + 1) * a))) :=
      tendsto_one_div_add_atTop_nhds_zero_nat.mul_const _
    rw [zero_mul] at this
    exact this.congr fun n => by ring
  refine ⟨P, fun n => ⟨z0 n, z1 n⟩, ?_, ?_, ?_⟩
  · rw [← v0]
    exact lim hc0 fun n x hx => (hP n x hx).1
  · rw [← v1]
    exact lim (f := fun n => derivative (P n)) hc1 fun n x hx => (hP n x hx).2.1
  · rw [← v2]
    exact lim (f := fun n => derivative (derivative (P n))) hc2 fun n x hx => (hP n x hx).2.2

/-- **C99** upper bound: with enough terms a simply supported plate (any coupling of bending and twisting, any shear load) has a
multiplier not above any Navier value, up to an arbitrarily small margin. -/
theorem C99_upper (D : M3) (hD : D.PosDef) (a b nx ny nt : ℝ) (ha : 0 < a) (hb : 0 < b) (i j : ℕ) (hi : 1 ≤ i) (hj : 1 ≤ j)
    (hload : 0 < -(nx * wave a i + ny * wave b j)) (e : ℝ) (he : 0 < e) :
    ∃ M : ℕ, ∀ m n, M ≤ m → M ≤ n → ∀ K KG : SqMat (m * n),
      calcKKGD exactReaders (.ok D) (.str wPINNED) ⟨a, b, nx, ny, nt, m, n⟩ = .ok (K, KG) →
      ∃ lam ≤ navier D a b nx ny i j + e, PosMult K KG lam := by
  have hsym : D.IsSymm := hD.isHermitian
  obtain ⟨P, zP, P0, P1, P2⟩ := waves_near ha hi
  obtain ⟨Q, zQ, Q0, Q1, Q2⟩ := waves_near hb hj
  have hE : Filter.Tendsto (fun k => bendEnergy D a b (fun x y => (P k).eval x * (Q k).eval y)) Filter.atTop
      (nhds (a * b / 4 * navierStiff D (wave a i) (wave b j))) := by
    have := ((P2.mul Q0).const_mul (D 0 0)).add (((P1.mul Q1).const_mul (2 * (D 0 1 + 2 * D 2 2)))) |>.add ((P0.mul Q2).const_mul (D 1 1))
    refine (this.congr fun k => ((prod_energy D hsym nx ny nt (P k) (Q k) (zP k).1 (zP k).2 (zQ k).1 (zQ k).2).1).symm).trans_eq ?_
    congr 1
    unfold navierStiff
    ring
  have hW : Filter.Tendsto (fun k => -loadWork nx ny nt a b (fun x y => (P k).eval x * (Q k).eval y)) Filter.atTop
      (nhds (a * b / 4 * -(nx * wave a i + ny * wave b j))) := by
    have := (((P1.mul Q0).const_mul nx).add ((P0.mul Q1).const_mul ny)).neg
    refine (this.congr fun k => (congrArg Neg.neg (prod_energy D hsym nx ny nt (P k) (Q k) (zP k).1 (zP k).2 (zQ k).1 (zQ k).2).2).symm).trans_eq ?_
    congr 1
    ring
  have hab : 0 < a * b / 4 := by positivity
  have hlim := hE.div hW (mul_pos hab hload).ne'
  rw [mul_div_mul_left _ _ hab.ne'] at hlim
  have ev1 := hlim.eventually_lt_const (show _ < navier D a b nx ny i j + e from lt_add_of_pos_right _ he)
  have ev2 := hW.eventually_const_lt (mul_pos hab hload)
  obtain ⟨k, hk1, hk2⟩ := (ev1.and ev2).exists
  refine ⟨max 2 (max (P k).natDegree (Q k).natDegree), fun m n hm hn K KG hK => ?_⟩
  simp only [max_le_iff] at hm hn
  obtain ⟨s, hs⟩ := (C40_accepted_iff (.str wPINNED) m n).mpr ⟨_, rfl⟩
  obtain ⟨K', KG', hK', hpos⟩ := C87_named D hD ⟨a, b, nx, ny, nt, m, n⟩ ha hb wPINNED (.inl rfl)
  obtain ⟨rfl, rfl⟩ := Prod.mk.inj (Except.ok.inj (hK.symm.trans hK'))
  obtain ⟨K', KG', hK'', hen⟩ := C49_energy D hsym (.str wPINNED) ⟨a, b, nx, ny, nt, m, n⟩ s hs ha.ne' hb.ne'
  obtain ⟨rfl, rfl⟩ := Prod.mk.inj (Except.ok.inj (hK.symm.trans hK''))
  have hsK := exact_symm_ok ha.ne' hb.ne' hK hs
  have hpd := posDef_of_pos hsK.1 hpos
  obtain ⟨v, hr⟩ := prod_ritz ha.ne' hb.ne' hs (P k) (Q k) hm.1 hn.1 (by omega) (by omega) (zP k).1 (zP k).2 (zQ k).1 (zQ k).2
  have hkE : v ⬝ᵥ K.mulVec v = _ := (hen v).1.trans (congrArg _ hr)
  have hkW : v ⬝ᵥ KG.mulVec v = _ := (hen v).2.trans (congrArg _ hr)
  change v ⬝ᵥ K.mulVec v = bendEnergy D a b _ at hkE
  change v ⬝ᵥ KG.mulVec v = loadWork nx ny nt a b _ at hkW
  have hv : v ≠ 0 := fun h => by
    subst h
    rw [← hkW] at hk2
    simp at hk2
  simp only [Pi.div_apply] at hk1
  rw [← hkE, ← hkW] at hk1
  rw [← hkW] at hk2
  obtain ⟨mu, h1, h2⟩ := posMult_le hpd hsK.2 hv (lam := v ⬝ᵥ K.mulVec v / -(v ⬝ᵥ KG.mulVec v)) (div_pos (hpos v hv) hk2) (by
    rw [div_neg, neg_mul, div_mul_cancel₀ _ (by linarith : v ⬝ᵥ KG.mulVec v < 0).ne]
    linarith)
  exact ⟨mu, h1.trans hk1.le, h2⟩

/-- **C99** the smallest multiplier of a simply supported plate without coupling of bending and twisting tends to the smallest Navier
multiplier as the number of terms grows, from above. -/
theorem C99_converges (D : M3) (hD : D.PosDef) (h16 : D 0 2 = 0) (h26 : D 1 2 = 0) (a b nx ny : ℝ) (ha : 0 < a) (hb : 0 < b) (t : ℝ)
    (ht : IsGLB (navierSet D a b nx ny) t) (e : ℝ) (he : 0 < e) :
    ∃ M : ℕ, ∀ m n, M ≤ m → M ≤ n → ∃ K KG : SqMat (m * n),
      calcKKGD exactReaders (.ok D) (.str wPINNED) ⟨a, b, nx, ny, 0, m, n⟩ = .ok (K, KG) ∧
      ∃ lam0, PosMult K KG lam0 ∧ (∀ lam, PosMult K KG lam → lam0 ≤ lam) ∧ t ≤ lam0 ∧ lam0 ≤ t + e := by
  obtain ⟨s, hs, hlt⟩ := (isGLB_lt_iff ht).mp (show t < t + e / 2 by linarith)
  obtain ⟨i, j, hi, hj, hload, rfl⟩ := hs
  obtain ⟨M, hM⟩ := C99_upper D hD a b nx ny 0 ha hb i j hi hj hload (e / 2) (by linarith)
  refine ⟨M, fun m n hm hn => ?_⟩
  obtain ⟨K, KG, hK, hpos⟩ := C87_named D hD ⟨a, b, nx, ny, 0, m, n⟩ ha hb wPINNED (.inl rfl)
  obtain ⟨sh, hsh⟩ := (C40_accepted_iff (.str wPINNED) m n).mpr ⟨_, rfl⟩
  have hsK := exact_symm_ok ha.ne' hb.ne' hK hsh
  obtain ⟨l, hle, hl⟩ := hM m n hm hn K KG hK
  obtain ⟨lam0, h0, hmin⟩ := exists_min_posMult (posDef_of_pos hsK.1 hpos) hsK.2 ⟨l, hl⟩
  refine ⟨K, KG, hK, lam0, h0, hmin, ?_, ?_⟩
  · have hb' := C99_held D D hD ⟨hD.posSemidef, h16, h26⟩ (by simpa using Matrix.PosSemidef.zero) (.str wPINNED) ⟨a, b, nx, ny, 0, m, n⟩ ha hb _ rfl
      ⟨by decide, by decide, by decide, by decide⟩ rfl K KG hK lam0 h0
    obtain ⟨t', ht', hle'⟩ := (C99_bound_iff D hD ⟨a, b, nx, ny, 0, m, n⟩ ha hb lam0 h0.1).mp hb'
    exact (ht.1 ht').trans hle'
  · have := hmin l hl
    linarith

/-- Non-vacuity of C99: a square isotropic plate compressed one way. The smallest Navier multiplier is `4 pi^2 d`, reached by one half
wave each way, and the multipliers of the model tend to it. -/
theorem C99_square (d : ℝ) (hd : 0 < d) (nu : ℝ) (hnu : -1 < nu) (hnu' : nu < 1) (e : ℝ) (he : 0 < e) :
    let D : M3 := !![d, nu * d, 0; nu * d, d, 0; 0, 0, (1 - nu) / 2 * d]
    IsLeast (navierSet D 1 1 (-1) 0) (4 * π ^ 2 * d) ∧
    ∃ M : ℕ, ∀ m n, M ≤ m → M ≤ n → ∃ K KG : SqMat (m * n),
      calcKKGD exactReaders (.ok D) (.str wPINNED) ⟨1, 1, -1, 0, 0, m, n⟩ = .ok (K, KG) ∧
      ∃ lam0, PosMult K KG lam0 ∧ (∀ lam, PosMult K KG lam → lam0 ≤ lam) ∧ 4 * π ^ 2 * d ≤ lam0 ∧ lam0 ≤ 4 * π ^ 2 * d + e := by
  intro D
  have hD := (C95_square d hd 2 2 le_rfl le_rfl nu hnu hnu').1
  have hl : IsLeast (navierSet D 1 1 (-1) 0) (4 * π ^ 2 * d) := by
    have val : ∀ u v : ℝ, navierStiff D u v = d * (u + v) ^ 2 := fun u v => by
      show d * u ^ 2 + 2 * (nu * d + 2 * ((1 - nu) / 2 * d)) * (u * v) + d * v ^ 2 = _
      ring
    have hpi := Real.pi_pos
    constructor
    · refine ⟨1, 1, le_rfl, le_rfl, ?_, ?_⟩
      · simp [wave]
        positivity
      · rw [navier, val]
        simp [wave]
        field_simp
        ring
    · rintro t ⟨i, j, hi, hj, -, rfl⟩
      have hu := wave_pos (a := 1) one_pos hi
      have hv : π ^ 2 ≤ wave 1 j := by
        have : (1 : ℝ) ≤ j := by exact_mod_cast hj
        unfold wave
        have h1 : π ≤ j * π / 1 := by nlinarith
        exact pow_le_pow_left₀ hpi.le h1 2
      rw [navier, val, le_div_iff₀ (by linarith)]
      generalize wave 1 i = u at hu
      generalize wave 1 j = v at hv
      have h2 : 4 * π ^ 2 * u ≤ (u + v) ^ 2 := by nlinarith [sq_nonneg (u - v)]
      nlinarith
  exact ⟨hl, C99_converges D hD rfl rfl 1 1 (-1) 0 one_pos one_pos _ hl.isGLB e he⟩

end Composipy
