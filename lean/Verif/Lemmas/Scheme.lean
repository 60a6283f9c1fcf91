import Verif.Lemmas.Approx
import Mathlib.Analysis.SpecialFunctions.Bernstein
import Mathlib.Topology.ContinuousMap.Compact

/-!
# Approximation of functions with two derivatives by polynomials with the same end values and end slopes

The polynomial depends linearly on finitely many values of the function and its derivatives, so the scheme can be applied to one variable
of a function of two.
-/

namespace Verif
open Polynomial Set Filter

variable {a b : ℝ}

/-! ## The cubics of Hermite -/

/-- The cubics with one end value or end slope equal to 1 and the others 0: value at 0, slope at 0, value at `a`, slope at `a`. -/
noncomputable def herm (a : ℝ) : Fin 4 → ℝ[X]
  | 0 => 1 - C (3 / a ^ 2) * X ^ 2 + C (2 / a ^ 3) * X ^ 3
  | 1 => X - C (2 / a) * X ^ 2 + C (1 / a ^ 2) * X ^ 3
  | 2 => C (3 / a ^ 2) * X ^ 2 - C (2 / a ^ 3) * X ^ 3
  | 3 => -(C (1 / a) * X ^ 2) + C (1 / a ^ 2) * X ^ 3

/-- Order of the derivative and place of the four end data. -/
def endOrd : Fin 4 → ℕ := ![0, 1, 0, 1]
@[inherit_doc endOrd] noncomputable def endAt (a : ℝ) : Fin 4 → ℝ := ![0, 0, a, a]

/-- One of the four end data of a polynomial. -/
noncomputable def endData (a : ℝ) (p : ℝ[X]) (i : Fin 4) : ℝ := (derivative^[endOrd i] p).eval (endAt a i)

theorem endData_eq (p : ℝ[X]) : endData a p = ![p.eval 0, (derivative p).eval 0, p.eval a, (derivative p).eval a] := by
  funext i
  fin_cases i <;> rfl

theorem endData_herm (ha : a ≠ 0) (i j : Fin 4) : endData a (herm a i) j = if i = j then 1 else 0 := by
  rw [endData_eq]
  fin_cases i <;> fin_cases j <;> simp [herm] <;> field_simp <;> ring

/-- The cubic with given end data. -/
noncomputable def hermOf (a : ℝ) (d : Fin 4 → ℝ) : ℝ[X] := ∑ i, C (d i) * herm a i

theorem endData_add (p q : ℝ[X]) (i : Fin 4) : endData a (p + q) i = endData a p i + endData a q i := by
  rw [endData_eq, endData_eq, endData_eq]
  fin_cases i <;> simp

theorem endData_sub (p q : ℝ[X]) (i : Fin 4) : endData a (p - q) i = endData a p i - endData a q i := by
  rw [endData_eq, endData_eq, endData_eq]
  fin_cases i <;> simp

theorem endData_C_mul (c : ℝ) (q : ℝ[X]) (i : Fin 4) : endData a (C c * q) i = c * endData a q i := by
  rw [endData_eq, endData_eq]
  fin_cases i <;> simp

theorem endData_sum {ι : Type} (s : Finset ι) (f : ι → ℝ[X]) (i : Fin 4) : endData a (∑ k ∈ s, f k) i = ∑ k ∈ s, endData a (f k) i := by
  classical
  induction s using Finset.induction_on with
  | empty => rw [endData_eq]; fin_cases i <;> simp
  | insert k s hk ih => rw [Finset.sum_insert hk, Finset.sum_insert hk, endData_add, ih]

theorem endData_hermOf (ha : a ≠ 0) (d : Fin 4 → ℝ) (i : Fin 4) : endData a (hermOf a d) i = d i := by
  rw [hermOf, endData_sum]
  simp [endData_C_mul, endData_herm ha]

/-- The curvature of the cubic depends on two differences only. -/
theorem hermOf_curv (ha : a ≠ 0) (d : Fin 4 → ℝ) (x : ℝ) : (derivative (derivative (hermOf a d))).eval x
    = (d 2 - d 0 - a * d 1) * (6 / a ^ 2 - 12 * x / a ^ 3) + (d 3 - d 1) * (6 * x / a ^ 2 - 2 / a) := by
  simp only [hermOf, Fin.sum_univ_four, herm]
  simp
  field_simp
  ring

/-! ## Remainders -/

/-- Removing the cubic with the same end data costs a factor only. -/
theorem remainder_small (ha : 0 < a) {e : ℝ} {f f' f'' : ℝ → ℝ} (d1 : ∀ x, HasDerivAt f (f' x) x) (d2 : ∀ x, HasDerivAt f' (f'' x) x)
    (hb : ∀ x ∈ Icc 0 a, |f'' x| ≤ e) : ∀ x ∈ Icc 0 a,
    |f x - (hermOf a ![f 0, f' 0, f a, f' a]).eval x| ≤ 11 * e * a * a ∧
    |f' x - (derivative (hermOf a ![f 0, f' 0, f a, f' a])).eval x| ≤ 11 * e * a ∧
    |f'' x - (derivative (derivative (hermOf a ![f 0, f' 0, f a, f' a]))).eval x| ≤ 11 * e := by
  set H := hermOf a ![f 0, f' 0, f a, f' a] with hH
  have z0 : (0 : ℝ) ∈ Icc 0 a := ⟨le_rfl, ha.le⟩
  have za : a ∈ Icc 0 a := ⟨ha.le, le_rfl⟩
  have he : 0 ≤ e := (abs_nonneg _).trans (hb 0 z0)
  have s1 : ∀ x ∈ Icc 0 a, |f' x - f' 0| ≤ e * a := fun x hx => by
    have := Convex.norm_image_sub_le_of_norm_hasDerivWithin_le (s := Icc 0 a) (fun x _ => (d2 x).hasDerivWithinAt) hb (convex_Icc 0 a) z0 hx
    rw [sub_zero, Real.norm_eq_abs, Real.norm_eq_abs, abs_of_nonneg hx.1] at this
    exact this.trans (mul_le_mul_of_nonneg_left hx.2 he)
  have s0 : |f a - f 0 - a * f' 0| ≤ e * a * a := by
    have := Convex.norm_image_sub_le_of_norm_hasDerivWithin_le (f := fun x => f x - f' 0 * x) (f' := fun x => f' x - f' 0) (s := Icc 0 a)
      (fun x _ => by simpa using ((d1 x).fun_sub ((hasDerivAt_id x).const_mul (f' 0))).hasDerivWithinAt) s1 (convex_Icc 0 a) z0 za
    rw [sub_zero, Real.norm_eq_abs, Real.norm_eq_abs, abs_of_pos ha] at this
    refine le_trans (le_of_eq ?_) this
    congr 1
    ring
  have hc : ∀ x ∈ Icc 0 a, |f'' x - (derivative (derivative H)).eval x| ≤ 11 * e := fun x hx => by
    rw [hH, hermOf_curv ha.ne']
    simp only [Matrix.cons_val]
    have b1 : |6 / a ^ 2 - 12 * x / a ^ 3| ≤ 6 / a ^ 2 := by
      have : 6 / a ^ 2 - 12 * x / a ^ 3 = 6 / a ^ 2 * (1 - 2 * (x / a)) := by field_simp; ring
      rw [this, abs_mul, abs_of_pos (by positivity : 0 < 6 / a ^ 2)]
      refine mul_le_of_le_one_right (by positivity) ?_
      have h0 : 0 ≤ x / a := div_nonneg hx.1 ha.le
      have h1 : x / a ≤ 1 := (div_le_one ha).mpr hx.2
      rw [abs_le]
      constructor <;> linarith
    have b2 : |6 * x / a ^ 2 - 2 / a| ≤ 4 / a := by
      have : 6 * x / a ^ 2 - 2 / a = 4 / a * (3 / 2 * (x / a) - 1 / 2) := by field_simp; ring
      rw [this, abs_mul, abs_of_pos (by positivity : 0 < 4 / a)]
      refine mul_le_of_le_one_right (by positivity) ?_
      have h0 : 0 ≤ x / a := div_nonneg hx.1 ha.le
      have h1 : x / a ≤ 1 := (div_le_one ha).mpr hx.2
      rw [abs_le]
      constructor <;> linarith
    have c1 : |(f a - f 0 - a * f' 0) * (6 / a ^ 2 - 12 * x / a ^ 3)| ≤ 6 * e := by
      rw [abs_mul]
      refine (mul_le_mul s0 b1 (abs_nonneg _) (by positivity)).trans (le_of_eq ?_)
      field_simp
    have c2 : |(f' a - f' 0) * (6 * x / a ^ 2 - 2 / a)| ≤ 4 * e := by
      rw [abs_mul]
      refine (mul_le_mul (s1 a za) b2 (abs_nonneg _) (by positivity)).trans (le_of_eq ?_)
      field_simp
    have := hb x hx
    rw [abs_le] at *
    constructor <;> linarith [c1.1, c1.2, c2.1, c2.2, this.1, this.2]
  have ed := endData_hermOf ha.ne' ![f 0, f' 0, f a, f' a]
  have e0 : H.eval 0 = f 0 := by simpa [endData_eq] using ed 0
  have e2 : H.eval a = f a := by simpa [endData_eq] using ed 2
  obtain ⟨k1, k0⟩ := small_of_second ha (h := fun x => f x - H.eval x) (h' := fun x => f' x - (derivative H).eval x)
    (h'' := fun x => f'' x - (derivative (derivative H)).eval x) (fun x => (d1 x).sub (H.hasDerivAt x))
    (fun x => (d2 x).sub ((derivative H).hasDerivAt x)) (by simp [e0]) (by simp [e2]) hc
  exact fun x hx => ⟨k0 x hx, k1 x hx, hc x hx⟩

/-! ## The scheme -/

/-- The numbers the scheme looks at: `N + 1` curvatures and the four end data. -/
abbrev Slot (N : ℕ) := Fin (N + 1) ⊕ Fin 4

/-- Order of the derivative. -/
def slotOrd {N : ℕ} : Slot N → ℕ
  | .inl _ => 2
  | .inr i => endOrd i

/-- Place. -/
noncomputable def slotAt (a : ℝ) {N : ℕ} : Slot N → ℝ
  | .inl k => a * (k / N)
  | .inr i => endAt a i

/-- A polynomial with the curvature of the Bernstein polynomial `k` of `N`. -/
noncomputable def bernU (a : ℝ) (N : ℕ) (k : Fin (N + 1)) : ℝ[X] :=
  (exists_antideriv (exists_antideriv ((bernsteinPolynomial ℝ N k).comp (C (1 / a) * X))).choose).choose

theorem bernU_curv (N : ℕ) (k : Fin (N + 1)) (x : ℝ) :
    (derivative (derivative (bernU a N k))).eval x = (bernsteinPolynomial ℝ N k).eval (x / a) := by
  rw [bernU, (exists_antideriv _).choose_spec, (exists_antideriv _).choose_spec]
  simp [eval_comp, div_eq_inv_mul]

/-- The polynomials of the scheme. -/
noncomputable def slotPoly (a : ℝ) {N : ℕ} : Slot N → ℝ[X]
  | .inl k => bernU a N k - hermOf a (endData a (bernU a N k))
  | .inr i => herm a i

theorem endData_inl (ha : a ≠ 0) {N : ℕ} (k : Fin (N + 1)) (i : Fin 4) : endData a (slotPoly a (.inl k : Slot N)) i = 0 := by
  simp [slotPoly, endData_sub, endData_hermOf ha]

theorem endData_inr (ha : a ≠ 0) {N : ℕ} (j i : Fin 4) : endData a (slotPoly a (.inr j : Slot N)) i = if j = i then 1 else 0 :=
  endData_herm ha j i

/-- Bernstein's theorem for functions with a parameter. -/
theorem bernstein_param (ha : 0 < a) {F : ℝ → ℝ → ℝ} (hF : Continuous (Function.uncurry F)) {e : ℝ} (he : 0 < e) :
    ∀ᶠ N : ℕ in atTop, ∀ x ∈ Icc 0 a, ∀ y ∈ Icc 0 b,
      |F x y - ∑ k : Fin (N + 1), F (a * (k / N)) y * (bernsteinPolynomial ℝ N k).eval (x / a)| ≤ e := by
  let g : C(unitInterval × Icc (0 : ℝ) b, ℝ) := ⟨fun q => F (a * q.1) q.2,
    hF.comp (f := fun q : unitInterval × Icc (0 : ℝ) b => (a * (q.1 : ℝ), (q.2 : ℝ))) (by fun_prop)⟩
  have h := Metric.tendstoUniformly_iff.mp (ContinuousMap.tendsto_iff_tendstoUniformly.mp (bernsteinApproximation_uniform g.curry)) e he
  filter_upwards [h] with N hN x hx y hy
  have hx1 : x / a ∈ unitInterval := ⟨div_nonneg hx.1 ha.le, (div_le_one ha).mpr hx.2⟩
  have h1 := hN ⟨x / a, hx1⟩
  rw [dist_comm] at h1
  have h2 := (ContinuousMap.dist_apply_le_dist (f := bernsteinApproximation N g.curry ⟨x / a, hx1⟩) (g := g.curry ⟨x / a, hx1⟩)
    ⟨y, hy⟩).trans_lt h1
  rw [dist_comm, Real.dist_eq] at h2
  refine le_trans (le_of_eq ?_) h2.le
  congr 1
  congr 1
  · show F x y = F (a * (x / a)) y
    rw [mul_div_cancel₀ _ ha.ne']
  · rw [bernsteinApproximation.apply, ContinuousMap.sum_apply]
    refine Finset.sum_congr rfl fun k _ => ?_
    rw [ContinuousMap.smul_apply, smul_eq_mul, mul_comm]
    rfl

/-- The scheme converges uniformly, together with two derivatives. -/
theorem scheme (ha : 0 < a) {F : ℕ → ℝ → ℝ → ℝ} (d1 : ∀ x y, HasDerivAt (fun t => F 0 t y) (F 1 x y) x)
    (d2 : ∀ x y, HasDerivAt (fun t => F 1 t y) (F 2 x y) x) (hF : Continuous (Function.uncurry (F 2))) {e : ℝ} (he : 0 < e) :
    ∀ᶠ N : ℕ in atTop, ∀ x ∈ Icc 0 a, ∀ y ∈ Icc 0 b, ∀ r ≤ 2,
      |F r x y - ∑ q : Slot N, F (slotOrd q) (slotAt a q) y * (derivative^[r] (slotPoly a q)).eval x| ≤ e := by
  set d := e / (11 * (1 + a + a * a)) with hd
  have hpos : 0 < 1 + a + a * a := by positivity
  have hd0 : 0 < d := by positivity
  have hde : 11 * d * (1 + a + a * a) = e := by rw [hd]; field_simp
  filter_upwards [bernstein_param (b := b) ha hF hd0] with N hN x hx y hy r hr
  set B : ℝ[X] := ∑ k : Fin (N + 1), C (F 2 (a * (k / N)) y) * bernU a N k with hB
  set dF : Fin 4 → ℝ := ![F 0 0 y, F 1 0 y, F 0 a y, F 1 a y] with hdF
  have eT : ∑ q : Slot N, C (F (slotOrd q) (slotAt a q) y) * slotPoly a q = B - hermOf a (endData a B) + hermOf a dF := by
    rw [Fintype.sum_sum_type]
    congr 1
    · simp only [slotPoly, slotOrd, slotAt, mul_sub, Finset.sum_sub_distrib, ← hB]
      congr 1
      simp only [hermOf, hB, endData_sum, endData_C_mul, map_sum, Finset.sum_mul, Finset.mul_sum]
      rw [Finset.sum_comm]
      exact Finset.sum_congr rfl fun i _ => Finset.sum_congr rfl fun k _ => by rw [C_mul, mul_assoc]
  have eS : ∑ q : Slot N, F (slotOrd q) (slotAt a q) y * (derivative^[r] (slotPoly a q)).eval x
      = (derivative^[r] (B - hermOf a (endData a B) + hermOf a dF)).eval x := by
    rw [← eT, iterate_derivative_sum, eval_finsetSum]
    exact Finset.sum_congr rfl fun q _ => by rw [iterate_derivative_C_mul, eval_mul, eval_C]
  have hcurv : ∀ x, (derivative (derivative B)).eval x = ∑ k : Fin (N + 1), F 2 (a * (k / N)) y * (bernsteinPolynomial ℝ N k).eval (x / a) := fun x => by
    simp only [hB, derivative_sum, derivative_C_mul, eval_finsetSum, eval_mul, eval_C, bernU_curv]
  have hrem := remainder_small ha (e := d) (f := fun x => F 0 x y - B.eval x) (f' := fun x => F 1 x y - (derivative B).eval x)
    (f'' := fun x => F 2 x y - (derivative (derivative B)).eval x) (fun x => (d1 x y).fun_sub (B.hasDerivAt x))
    (fun x => (d2 x y).fun_sub ((derivative B).hasDerivAt x)) (fun x hx => by rw [hcurv]; exact hN x hx y hy) x hx
  have eH : hermOf a ![F 0 0 y - B.eval 0, F 1 0 y - (derivative B).eval 0, F 0 a y - B.eval a, F 1 a y - (derivative B).eval a]
      = hermOf a dF - hermOf a (endData a B) := by
    rw [hermOf, hermOf, hermOf, ← Finset.sum_sub_distrib]
    refine Finset.sum_congr rfl fun i _ => ?_
    rw [← sub_mul, ← C_sub, endData_eq, hdF]
    fin_cases i <;> rfl
  rw [eH] at hrem
  obtain ⟨h0, h1, h2⟩ := hrem
  have m1 : 0 < 11 * d * a := by positivity
  have m2 : 0 < 11 * d * a * a := by positivity
  rw [eS]
  interval_cases r
  · refine le_trans (le_of_eq ?_) (h0.trans (by linarith))
    congr 1
    simp
    ring
  · refine le_trans (le_of_eq ?_) (h1.trans (by linarith))
    congr 1
    simp
    ring
  · refine le_trans (le_of_eq ?_) (h2.trans (by linarith))
    congr 1
    simp
    ring

end Verif
