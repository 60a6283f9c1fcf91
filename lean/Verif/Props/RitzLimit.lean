import Verif.Props.Spectrum
import Verif.Lemmas.Scheme

/-!
# C107: with more and more terms the smallest multiplier tends to the infimum over all smooth deflections that respect the supports
-/

namespace Composipy
open Spec Matrix Polynomial MeasureTheory Verif
open scoped Nat

variable {a b : ℝ}

/-! ## Specification -/

/-- `W i j` is the derivative of `W 0 0` of order `i` in `x` and `j` in `y`, continuous up to order 2 in each variable. -/
structure Spec.Smooth (W : ℕ → ℕ → ℝ → ℝ → ℝ) : Prop where
  dx : ∀ i < 2, ∀ j ≤ 2, ∀ x y, HasDerivAt (fun t => W i j t y) (W (i + 1) j x y) x
  dy : ∀ i ≤ 2, ∀ j < 2, ∀ x y, HasDerivAt (fun t => W i j x t) (W i (j + 1) x y) y
  cont : ∀ i ≤ 2, ∀ j ≤ 2, Continuous (Function.uncurry (W i j))

/-- Deflections with continuous derivatives up to order 2 in each variable that respect the supports: the flags are those the code looks at
for `w` (deflection and slope on each edge). -/
def Spec.Admissible (e : Edges) (a b : ℝ) (w : ℝ → ℝ → ℝ) : Prop :=
  ∃ W, Smooth W ∧ W 0 0 = w ∧ (∀ y ∈ Set.Icc 0 b, (e.x0.has TZ → W 0 0 0 y = 0) ∧ (e.x0.has RZ → W 1 0 0 y = 0) ∧
      (e.xa.has TZ → W 0 0 a y = 0) ∧ (e.xa.has RZ → W 1 0 a y = 0)) ∧
    ∀ x ∈ Set.Icc 0 a, (e.y0.has TX → W 0 0 x 0 = 0) ∧ (e.y0.has RX → W 0 1 x 0 = 0) ∧
      (e.yb.has TX → W 0 0 x b = 0) ∧ (e.yb.has RX → W 0 1 x b = 0)

/-- The quotients of energy and work of the admissible deflections on which the loads do negative work. -/
def Spec.quotients (D : M3) (e : Edges) (a b nx ny nt : ℝ) : Set ℝ :=
  {q | ∃ w, Admissible e a b w ∧ 0 < -loadWork nx ny nt a b w ∧ q = bendEnergy D a b w / -loadWork nx ny nt a b w}

/-! ## Energies in terms of the derivatives -/

theorem smooth_derivs {W : ℕ → ℕ → ℝ → ℝ → ℝ} (h : Smooth W) : dX (W 0 0) = W 1 0 ∧ dY (W 0 0) = W 0 1 ∧ dX (dX (W 0 0)) = W 2 0 ∧
    dY (dY (W 0 0)) = W 0 2 ∧ dY (dX (W 0 0)) = W 1 1 := by
  have x1 : dX (W 0 0) = W 1 0 := funext fun x => funext fun y => (h.dx 0 (by norm_num) 0 (by norm_num) x y).deriv
  have y1 : dY (W 0 0) = W 0 1 := funext fun x => funext fun y => (h.dy 0 (by norm_num) 0 (by norm_num) x y).deriv
  rw [x1, y1]
  exact ⟨rfl, rfl, funext fun x => funext fun y => (h.dx 1 (by norm_num) 0 (by norm_num) x y).deriv,
    funext fun x => funext fun y => (h.dy 0 (by norm_num) 1 (by norm_num) x y).deriv,
    funext fun x => funext fun y => (h.dy 1 (by norm_num) 0 (by norm_num) x y).deriv⟩

/-- Close integrands have close integrals. -/
theorem double_near (ha : 0 < a) (hb : 0 < b) {f g : ℝ → ℝ → ℝ} (hf : Continuous (Function.uncurry f)) (hg : Continuous (Function.uncurry g))
    {d : ℝ} (h : ∀ x ∈ Set.Icc 0 a, ∀ y ∈ Set.Icc 0 b, |f x y - g x y| ≤ d) :
    |(∫ x in (0 : ℝ)..a, ∫ y in (0 : ℝ)..b, f x y) - ∫ x in (0 : ℝ)..a, ∫ y in (0 : ℝ)..b, g x y| ≤ d * b * a := by
  have inner : ∀ k : ℝ → ℝ → ℝ, Continuous (Function.uncurry k) → ∀ x, IntervalIntegrable (k x) volume 0 b := fun k hk x =>
    (hk.comp (by fun_prop : Continuous fun y : ℝ => (x, y))).intervalIntegrable _ _
  have outer : ∀ k : ℝ → ℝ → ℝ, Continuous (Function.uncurry k) → IntervalIntegrable (fun x => ∫ y in (0 : ℝ)..b, k x y) volume 0 a := fun k hk =>
    (intervalIntegral.continuous_parametric_intervalIntegral_of_continuous' hk 0 b).intervalIntegrable _ _
  rw [← intervalIntegral.integral_sub (outer f hf) (outer g hg)]
  have := intervalIntegral.norm_integral_le_of_norm_le_const (a := 0) (b := a)
    (f := fun x => (∫ y in (0 : ℝ)..b, f x y) - ∫ y in (0 : ℝ)..b, g x y) (C := d * b) fun x hx => by
      rw [Set.uIoc_of_le ha.le] at hx
      rw [← intervalIntegral.integral_sub (inner f hf x) (inner g hg x)]
      have := intervalIntegral.norm_integral_le_of_norm_le_const (a := 0) (b := b) (f := fun y => f x y - g x y) (C := d) fun y hy => by
        rw [Set.uIoc_of_le hb.le] at hy
        exact h x (Set.Ioc_subset_Icc_self hx) y (Set.Ioc_subset_Icc_self hy)
      rwa [sub_zero, abs_of_pos hb] at this
  rwa [Real.norm_eq_abs, sub_zero, abs_of_pos ha] at this

theorem prod_near {u v u' v' M e : ℝ} (he : 0 ≤ e) (he1 : e ≤ 1) (hu : |u| ≤ M) (hv : |v| ≤ M) (h1 : |u' - u| ≤ e) (h2 : |v' - v| ≤ e) :
    |u' * v' - u * v| ≤ e * (2 * M + 1) := by
  have e1 : u' * v' - u * v = (u' - u) * v' + u * (v' - v) := by ring
  have hv' : |v'| ≤ M + 1 := by
    have : v' = (v' - v) + v := by ring
    rw [this]
    exact (abs_add_le _ _).trans (by linarith)
  rw [e1]
  refine (abs_add_le _ _).trans ?_
  rw [abs_mul, abs_mul]
  have a1 := mul_le_mul h1 hv' (abs_nonneg _) he
  have a2 := mul_le_mul hu h2 (abs_nonneg _) ((abs_nonneg _).trans hu)
  linarith

/-- Deflections close to a bounded `W` together with their derivatives have energy and work close to those of `W`. -/
theorem energies_close (ha : 0 < a) (hb : 0 < b) (D : M3) (nx ny nt : ℝ) {M : ℝ} (hM0 : 0 ≤ M) {d : ℝ} (hd : 0 < d) :
    ∃ e > (0 : ℝ), ∀ W Z, Smooth W → Smooth Z → (∀ i ≤ 2, ∀ j ≤ 2, ∀ x ∈ Set.Icc 0 a, ∀ y ∈ Set.Icc 0 b, |W i j x y| ≤ M) →
      (∀ i ≤ 2, ∀ j ≤ 2, ∀ x ∈ Set.Icc 0 a, ∀ y ∈ Set.Icc 0 b, |Z i j x y - W i j x y| ≤ e) →
      |bendEnergy D a b (Z 0 0) - bendEnergy D a b (W 0 0)| ≤ d ∧ |loadWork nx ny nt a b (Z 0 0) - loadWork nx ny nt a b (W 0 0)| ≤ d := by
  set A := |D 0 0| + |D 0 1| + |D 1 0| + |D 1 1| + 2 * |D 0 2| + 2 * |D 2 0| + 2 * |D 1 2| + 2 * |D 2 1| + 4 * |D 2 2| + |nx| + |ny| + 2 * |nt| + 1 with hA
  have hA0 : 0 < A := by positivity
  set e := min 1 (d / (A * (2 * M + 1) * b * a)) with he
  have hden : 0 < A * (2 * M + 1) * b * a := by positivity
  have he0 : 0 < e := lt_min one_pos (div_pos hd hden)
  have he1 : e ≤ 1 := min_le_left _ _
  have hed : e * (A * (2 * M + 1) * b * a) ≤ d := by
    have : e ≤ d / (A * (2 * M + 1) * b * a) := min_le_right _ _
    rwa [le_div_iff₀ hden] at this
  refine ⟨e, he0, fun W Z hW hZ hbd hnear => ?_⟩
  have h1 := hbd 1 (by norm_num) 0 (by norm_num)
  have h2 := hbd 0 (by norm_num) 1 (by norm_num)
  have h3 := hbd 2 (by norm_num) 0 (by norm_num)
  have h4 := hbd 0 (by norm_num) 2 (by norm_num)
  have h5 := hbd 1 (by norm_num) 1 (by norm_num)
  obtain ⟨wx, wy, wxx, wyy, wxy⟩ := smooth_derivs hW
  obtain ⟨zx, zy, zxx, zyy, zxy⟩ := smooth_derivs hZ
  set del := e * (2 * M + 1) with hdel
  have scale : ∀ (c t : ℝ), |t| ≤ del → |c * t| ≤ |c| * del := fun c t ht => by
    rw [abs_mul]; exact mul_le_mul_of_nonneg_left ht (abs_nonneg _)
  have hdel0 : 0 ≤ del := by positivity
  have total : ∀ t : ℝ, t ≤ A * del * b * a → t ≤ d := fun t ht => ht.trans (le_trans (le_of_eq (by rw [hdel]; ring)) hed)
  have c20 := hW.cont 2 (by norm_num) 0 (by norm_num)
  have c02 := hW.cont 0 (by norm_num) 2 (by norm_num)
  have c11 := hW.cont 1 (by norm_num) 1 (by norm_num)
  have c10 := hW.cont 1 (by norm_num) 0 (by norm_num)
  have c01 := hW.cont 0 (by norm_num) 1 (by norm_num)
  have z20 := hZ.cont 2 (by norm_num) 0 (by norm_num)
  have z02 := hZ.cont 0 (by norm_num) 2 (by norm_num)
  have z11 := hZ.cont 1 (by norm_num) 1 (by norm_num)
  have z10 := hZ.cont 1 (by norm_num) 0 (by norm_num)
  have z01 := hZ.cont 0 (by norm_num) 1 (by norm_num)
  simp only [Function.uncurry_def] at c20 c02 c11 c10 c01 z20 z02 z11 z10 z01
  have hexp : ∀ p q r : ℝ, ![p, q, 2 * r] ⬝ᵥ D.mulVec ![p, q, 2 * r] = D 0 0 * (p * p) + D 0 1 * (p * q) + D 1 0 * (p * q) + D 1 1 * (q * q)
      + 2 * (D 0 2 * (p * r)) + 2 * (D 2 0 * (p * r)) + 2 * (D 1 2 * (q * r)) + 2 * (D 2 1 * (q * r)) + 4 * (D 2 2 * (r * r)) := fun p q r => by
    simp [dotProduct, Matrix.mulVec, Fin.sum_univ_three]
    ring
  constructor
  · refine total _ ?_
    simp only [bendEnergy, bendDensity, wxx, wyy, wxy, zxx, zyy, zxy, hexp]
    refine double_near ha hb ?_ ?_ fun x hx y hy => ?_
    · simp only [Function.uncurry_def]; fun_prop
    · simp only [Function.uncurry_def]; fun_prop
    · have n1 := hnear 2 (by norm_num) 0 (by norm_num) x hx y hy
      have n2 := hnear 0 (by norm_num) 2 (by norm_num) x hx y hy
      have n3 := hnear 1 (by norm_num) 1 (by norm_num) x hx y hy
      have m1 := h3 x hx y hy
      have m2 := h4 x hx y hy
      have m3 := h5 x hx y hy
      have p11 := prod_near he0.le he1 m1 m1 n1 n1
      have p12 := prod_near he0.le he1 m1 m2 n1 n2
      have p22 := prod_near he0.le he1 m2 m2 n2 n2
      have p13 := prod_near he0.le he1 m1 m3 n1 n3
      have p23 := prod_near he0.le he1 m2 m3 n2 n3
      have p33 := prod_near he0.le he1 m3 m3 n3 n3
      have q1 := abs_le.mp (scale (D 0 0) _ p11)
      have q2 := abs_le.mp (scale (D 0 1) _ p12)
      have q3 := abs_le.mp (scale (D 1 0) _ p12)
      have q4 := abs_le.mp (scale (D 1 1) _ p22)
      have q5 := abs_le.mp (scale (D 0 2) _ p13)
      have q6 := abs_le.mp (scale (D 2 0) _ p13)
      have q7 := abs_le.mp (scale (D 1 2) _ p23)
      have q8 := abs_le.mp (scale (D 2 1) _ p23)
      have q9 := abs_le.mp (scale (D 2 2) _ p33)
      have hAd : A * del = |D 0 0| * del + |D 0 1| * del + |D 1 0| * del + |D 1 1| * del + 2 * (|D 0 2| * del) + 2 * (|D 2 0| * del)
          + 2 * (|D 1 2| * del) + 2 * (|D 2 1| * del) + 4 * (|D 2 2| * del) + (|nx| + |ny| + 2 * |nt| + 1) * del := by rw [hA]; ring
      have hrest : 0 ≤ (|nx| + |ny| + 2 * |nt| + 1) * del := by positivity
      rw [abs_le, hAd]
      constructor <;> linarith [q1.1, q1.2, q2.1, q2.2, q3.1, q3.2, q4.1, q4.2, q5.1, q5.2, q6.1, q6.2, q7.1, q7.2, q8.1, q8.2, q9.1, q9.2]
  · refine total _ ?_
    simp only [loadWork, wx, wy, zx, zy]
    refine double_near ha hb ?_ ?_ fun x hx y hy => ?_
    · simp only [Function.uncurry_def]; fun_prop
    · simp only [Function.uncurry_def]; fun_prop
    · have n1 := hnear 1 (by norm_num) 0 (by norm_num) x hx y hy
      have n2 := hnear 0 (by norm_num) 1 (by norm_num) x hx y hy
      have m1 := h1 x hx y hy
      have m2 := h2 x hx y hy
      have q1 := abs_le.mp (scale nx _ (prod_near he0.le he1 m1 m1 n1 n1))
      have q2 := abs_le.mp (scale ny _ (prod_near he0.le he1 m2 m2 n2 n2))
      have q3 := abs_le.mp (scale nt _ (prod_near he0.le he1 m1 m2 n1 n2))
      have hAd : A * del = |nx| * del + |ny| * del + 2 * (|nt| * del) + (|D 0 0| + |D 0 1| + |D 1 0| + |D 1 1| + 2 * |D 0 2| + 2 * |D 2 0| + 2 * |D 1 2|
          + 2 * |D 2 1| + 4 * |D 2 2| + 1) * del := by rw [hA]; ring
      have hrest : 0 ≤ (|D 0 0| + |D 0 1| + |D 1 0| + |D 1 1| + 2 * |D 0 2| + 2 * |D 2 0| + 2 * |D 1 2| + 2 * |D 2 1| + 4 * |D 2 2| + 1) * del := by
        positivity
      rw [abs_le, hAd]
      constructor <;> linarith [q1.1, q1.2, q2.1, q2.2, q3.1, q3.2]

/-- The derivatives of a smooth function are bounded on the plate. -/
theorem smooth_bounded {W : ℕ → ℕ → ℝ → ℝ → ℝ} (hW : Smooth W) :
    ∃ M, 0 ≤ M ∧ ∀ i ≤ 2, ∀ j ≤ 2, ∀ x ∈ Set.Icc 0 a, ∀ y ∈ Set.Icc 0 b, |W i j x y| ≤ M := by
  have hbd : ∀ i j : ℕ, ∃ M, 0 ≤ M ∧ (i ≤ 2 → j ≤ 2 → ∀ x ∈ Set.Icc 0 a, ∀ y ∈ Set.Icc 0 b, |W i j x y| ≤ M) := fun i j => by
    by_cases h : i ≤ 2 ∧ j ≤ 2
    · obtain ⟨M, hM⟩ := ((isCompact_Icc (a := (0 : ℝ)) (b := a)).prod (isCompact_Icc (a := (0 : ℝ)) (b := b))).exists_bound_of_continuousOn
        (hW.cont i h.1 j h.2).continuousOn
      exact ⟨max M 0, le_max_right _ _, fun _ _ x hx y hy => (hM (x, y) ⟨hx, hy⟩).trans (le_max_left _ _)⟩
    · exact ⟨0, le_rfl, fun hi hj => absurd ⟨hi, hj⟩ h⟩
  choose M h0 hM using hbd
  refine ⟨∑ i ∈ Finset.range 3, ∑ j ∈ Finset.range 3, M i j, Finset.sum_nonneg fun i _ => Finset.sum_nonneg fun j _ => h0 i j,
    fun i hi j hj x hx y hy => (hM i j hi hj x hx y hy).trans ?_⟩
  refine le_trans ?_ (Finset.single_le_sum (fun i _ => Finset.sum_nonneg fun j _ => h0 i j) (Finset.mem_range.mpr (by omega : i < 3)))
  exact Finset.single_le_sum (fun j _ => h0 i j) (Finset.mem_range.mpr (by omega : j < 3))

theorem energies_near (ha : 0 < a) (hb : 0 < b) (D : M3) (nx ny nt : ℝ) {W : ℕ → ℕ → ℝ → ℝ → ℝ} (hW : Smooth W) {d : ℝ} (hd : 0 < d) :
    ∃ e > (0 : ℝ), ∀ Z, Smooth Z → (∀ i ≤ 2, ∀ j ≤ 2, ∀ x ∈ Set.Icc 0 a, ∀ y ∈ Set.Icc 0 b, |Z i j x y - W i j x y| ≤ e) →
      |bendEnergy D a b (Z 0 0) - bendEnergy D a b (W 0 0)| ≤ d ∧ |loadWork nx ny nt a b (Z 0 0) - loadWork nx ny nt a b (W 0 0)| ≤ d := by
  obtain ⟨M, hM0, hM⟩ := smooth_bounded (a := a) (b := b) hW
  obtain ⟨e, he, h⟩ := energies_close ha hb D nx ny nt hM0 hd
  exact ⟨e, he, fun Z hZ hn => h W Z hW hZ hM hn⟩

/-! ## Approximation by sums of products of polynomials -/

/-- The scheme applied to both variables. -/
noncomputable def tensor (a b : ℝ) (W : ℕ → ℕ → ℝ → ℝ → ℝ) (N N' i j : ℕ) (x y : ℝ) : ℝ :=
  ∑ q : Slot N, ∑ l : Slot N', W (slotOrd q) (slotOrd l) (slotAt a q) (slotAt b l) *
    ((derivative^[i] (slotPoly a q)).eval x * (derivative^[j] (slotPoly b l)).eval y)

theorem slotOrd_le {N : ℕ} (q : Slot N) : slotOrd q ≤ 2 := by
  rcases q with k | i
  · exact le_rfl
  · fin_cases i <;> simp [slotOrd, endOrd]

theorem tensor_smooth (W : ℕ → ℕ → ℝ → ℝ → ℝ) (N N' : ℕ) : Smooth (tensor a b W N N') := by
  refine ⟨fun i _ j _ x y => ?_, fun i _ j _ x y => ?_, fun i _ j _ => ?_⟩
  · refine HasDerivAt.fun_sum fun q _ => HasDerivAt.fun_sum fun l _ => ((HasDerivAt.mul_const ?_ _).const_mul _)
    rw [Function.iterate_succ_apply']
    exact Polynomial.hasDerivAt _ _
  · refine HasDerivAt.fun_sum fun q _ => HasDerivAt.fun_sum fun l _ => ((HasDerivAt.const_mul _ ?_).const_mul _)
    rw [Function.iterate_succ_apply']
    exact Polynomial.hasDerivAt _ _
  · simp only [Function.uncurry_def, tensor]
    refine continuous_finsetSum _ fun q _ => continuous_finsetSum _ fun l _ => continuous_const.mul ?_
    exact ((derivative^[i] (slotPoly a q)).continuous.comp continuous_fst).mul ((derivative^[j] (slotPoly b l)).continuous.comp continuous_snd)

/-- Every smooth function is approximated, together with its derivatives. -/
theorem tensor_near (ha : 0 < a) (hb : 0 < b) {W : ℕ → ℕ → ℝ → ℝ → ℝ} (hW : Smooth W) {e : ℝ} (he : 0 < e) :
    ∃ N N', ∀ i ≤ 2, ∀ j ≤ 2, ∀ x ∈ Set.Icc 0 a, ∀ y ∈ Set.Icc 0 b, |tensor a b W N N' i j x y - W i j x y| ≤ e := by
  have step1 : ∀ j ≤ 2, ∀ᶠ N : ℕ in Filter.atTop, ∀ x ∈ Set.Icc 0 a, ∀ y ∈ Set.Icc 0 b, ∀ r ≤ 2,
      |W r j x y - ∑ q : Slot N, W (slotOrd q) j (slotAt a q) y * (derivative^[r] (slotPoly a q)).eval x| ≤ e / 2 := fun j hj =>
    scheme ha (F := fun i x y => W i j x y) (fun x y => hW.dx 0 (by norm_num) j hj x y) (fun x y => hW.dx 1 (by norm_num) j hj x y)
      (hW.cont 2 le_rfl j hj) (half_pos he)
  obtain ⟨N, hN⟩ := ((step1 0 (by norm_num)).and ((step1 1 (by norm_num)).and (step1 2 le_rfl))).exists
  have near1 : ∀ j ≤ 2, ∀ x ∈ Set.Icc 0 a, ∀ y ∈ Set.Icc 0 b, ∀ r ≤ 2,
      |W r j x y - ∑ q : Slot N, W (slotOrd q) j (slotAt a q) y * (derivative^[r] (slotPoly a q)).eval x| ≤ e / 2 := fun j hj => by
    interval_cases j
    exacts [hN.1, hN.2.1, hN.2.2]
  set V : ℕ → ℕ → ℝ → ℝ → ℝ := fun i j x y => ∑ q : Slot N, W (slotOrd q) j (slotAt a q) y * (derivative^[i] (slotPoly a q)).eval x with hV
  have vdy : ∀ i, ∀ j < 2, ∀ x y, HasDerivAt (fun t => V i j x t) (V i (j + 1) x y) y := fun i j hj x y =>
    HasDerivAt.fun_sum fun q _ => (hW.dy _ (slotOrd_le q) j hj _ y).mul_const _
  have vcont : ∀ i, Continuous (Function.uncurry fun y x => V i 2 x y) := fun i => by
    simp only [Function.uncurry_def, hV]
    refine continuous_finsetSum _ fun q _ => ?_
    have h1 : Continuous fun p : ℝ × ℝ => W (slotOrd q) 2 (slotAt a q) p.1 :=
      (hW.cont _ (slotOrd_le q) 2 le_rfl).comp (f := fun p : ℝ × ℝ => (slotAt a q, p.1)) (by fun_prop)
    exact h1.mul ((derivative^[i] (slotPoly a q)).continuous.comp continuous_snd)
  have step2 : ∀ i, ∀ᶠ N' : ℕ in Filter.atTop, ∀ y ∈ Set.Icc 0 b, ∀ x ∈ Set.Icc 0 a, ∀ r ≤ 2,
      |V i r x y - ∑ l : Slot N', V i (slotOrd l) x (slotAt b l) * (derivative^[r] (slotPoly b l)).eval y| ≤ e / 2 := fun i =>
    scheme hb (F := fun j y x => V i j x y) (fun y x => vdy i 0 (by norm_num) x y) (fun y x => vdy i 1 (by norm_num) x y) (vcont i) (half_pos he)
  obtain ⟨N', hN'⟩ := ((step2 0).and ((step2 1).and (step2 2))).exists
  have near2 : ∀ i ≤ 2, ∀ y ∈ Set.Icc 0 b, ∀ x ∈ Set.Icc 0 a, ∀ r ≤ 2,
      |V i r x y - ∑ l : Slot N', V i (slotOrd l) x (slotAt b l) * (derivative^[r] (slotPoly b l)).eval y| ≤ e / 2 := fun i hi => by
    interval_cases i
    exacts [hN'.1, hN'.2.1, hN'.2.2]
  refine ⟨N, N', fun i hi j hj x hx y hy => ?_⟩
  have e1 := near1 j hj x hx y hy i hi
  have e2 := near2 i hi y hy x hx j hj
  have e3 : tensor a b W N N' i j x y = ∑ l : Slot N', V i (slotOrd l) x (slotAt b l) * (derivative^[j] (slotPoly b l)).eval y := by
    simp only [tensor, hV, Finset.sum_mul]
    rw [Finset.sum_comm]
    exact Finset.sum_congr rfl fun l _ => Finset.sum_congr rfl fun q _ => by ring
  rw [e3, abs_sub_comm]
  have : |W i j x y - V i j x y| ≤ e / 2 := e1
  rw [abs_le] at *
  constructor <;> linarith [e2.1, e2.2, this.1, this.2]

/-! ## Which polynomials are Ritz deflections -/

/-- Coefficients of a polynomial on all shapes: the first four are its end data. -/
theorem span_all (d : ℕ) (hd : 3 ≤ d) (p : ℝ[X]) (hp : p.natDegree ≤ d) : ∃ c : ℕ → ℝ, (∀ i, c i ≠ 0 → i ≤ d) ∧
    p = ∑ i ∈ Finset.range (d + 1), C (c i) * shape i ∧ c 0 = p.eval (-1) ∧ c 1 = 2 * (derivative p).eval (-1) ∧ c 2 = p.eval 1 ∧
    c 3 = 2 * (derivative p).eval 1 := by
  obtain ⟨⟨a0, a1, a2, a3⟩, ⟨b0, b1, b2, b3⟩, ⟨c0, c1, c2, c3⟩, d0, d1, d2, d3⟩ := C45_low_values
  have low : ∀ i < 4, (shape i).natDegree ≤ 3 := fun i hi => by
    rw [natDegree_le_iff_coeff_eq_zero]
    intro k hk
    have := coeff_eq_zero_of_degree_lt (lt_of_lt_of_le (shape_degree (i := i) (n := 0) (by omega)) (by exact_mod_cast (by omega : 0 + 3 + 1 ≤ k)))
    exact this
  set q := p - C (p.eval (-1)) * shape 0 - C (p.eval 1) * shape 2 with hq
  have hqd : q.natDegree ≤ d := by
    refine (natDegree_sub_le _ _).trans (max_le ((natDegree_sub_le _ _).trans (max_le hp ?_)) ?_)
    · exact (natDegree_C_mul_le _ _).trans ((low 0 (by norm_num)).trans hd)
    · exact (natDegree_C_mul_le _ _).trans ((low 2 (by norm_num)).trans hd)
  obtain ⟨c, hc, hsum⟩ := span_shapes d hd q hqd (by simp [hq, a0, c0]) (by simp [hq, a1, c1])
  have hz0 : c 0 = 0 := by
    by_contra h
    exact (hc 0 h).1.1 rfl
  have hz2 : c 2 = 0 := by
    by_contra h
    exact (hc 2 h).1.2 rfl
  have slope : ∀ t : ℝ, (∀ i, 4 ≤ i → (derivative (shape i)).eval t = 0) → (derivative q).eval t
      = c 1 * (derivative (shape 1)).eval t + c 3 * (derivative (shape 3)).eval t := fun t ht => by
    rw [hsum, derivative_sum, eval_finsetSum]
    rw [← Finset.sum_subset (s₁ := {1, 3}) (fun i hi => by simp at hi ⊢; omega) fun i _ hi => ?_]
    · simp
    · simp only [Finset.mem_insert, Finset.mem_singleton, not_or] at hi
      rw [derivative_C_mul, eval_mul, eval_C]
      rcases Nat.lt_or_ge i 4 with h | h
      · have : i = 0 ∨ i = 2 := by omega
        rcases this with rfl | rfl
        · rw [hz0, zero_mul]
        · rw [hz2, zero_mul]
      · rw [ht i h, mul_zero]
  have s0 := slope (-1) fun i hi => (C45_bubble i hi).2.2.1
  have s1 := slope 1 fun i hi => (C45_bubble i hi).2.2.2
  rw [b2, d2] at s0
  rw [b3, d3] at s1
  have q0 : (derivative q).eval (-1) = (derivative p).eval (-1) := by simp [hq, a2, c2]
  have q1 : (derivative q).eval 1 = (derivative p).eval 1 := by simp [hq, a3, c3]
  refine ⟨fun i => if i = 0 then p.eval (-1) else if i = 2 then p.eval 1 else c i, fun i hi => ?_, ?_, rfl, ?_, rfl, ?_⟩
  · by_cases h0 : i = 0
    · omega
    by_cases h2 : i = 2
    · omega
    simp only [h0, h2, if_false] at hi
    exact (hc i hi).2
  · have e1 : ∑ i ∈ Finset.range (d + 1), C (if i = 0 then p.eval (-1) else if i = 2 then p.eval 1 else c i) * shape i
        = (∑ i ∈ Finset.range (d + 1), C (c i) * shape i) + ∑ i ∈ Finset.range (d + 1), (if i = 0 then C (p.eval (-1)) * shape 0 else 0)
          + ∑ i ∈ Finset.range (d + 1), (if i = 2 then C (p.eval 1) * shape 2 else 0) := by
      rw [← Finset.sum_add_distrib, ← Finset.sum_add_distrib]
      refine Finset.sum_congr rfl fun i _ => ?_
      by_cases h0 : i = 0
      · subst h0; simp [hz0]
      by_cases h2 : i = 2
      · subst h2; simp [hz2]
      simp [h0, h2]
    rw [e1, ← hsum, Finset.sum_ite_eq', Finset.sum_ite_eq', if_pos (Finset.mem_range.mpr (by omega)), if_pos (Finset.mem_range.mpr (by omega)), hq]
    ring
  · show c 1 = _
    rw [← q0, s0]; ring
  · show c 3 = _
    rw [← q1, s1]; ring

/-- The first `m` kept numbers contain every kept number below `m`. -/
theorem first_below {m : ℕ} {k : ℕ → Prop} {xs : List ℕ} (hx : IsFirst m k xs) {i : ℕ} (hi : k i) (him : i < m) : i ∈ xs := by
  by_contra hno
  have hlt : ∀ j ∈ xs, j < i := fun j hj => by
    by_contra hge
    rcases Nat.lt_or_ge i j with h | h
    · exact hno (hx.complete j hj i h hi)
    · obtain rfl : i = j := by omega
      exact hno hj
  have hnd : xs.Nodup := hx.sorted.imp fun h => Nat.ne_of_lt h
  have hcard := Finset.card_le_card (fun j hj => Finset.mem_range.mpr (hlt j (List.mem_toFinset.mp hj)) : xs.toFinset ⊆ Finset.range i)
  rw [List.toFinset_card_of_nodup hnd, hx.len, Finset.card_range] at hcard
  omega

/-- The end data that the supports ask to vanish do vanish. -/
def EndsOk (t0 r0 t1 r1 : Prop) (d : Fin 4 → ℝ) : Prop := (t0 → d 0 = 0) ∧ (r0 → d 1 = 0) ∧ (t1 → d 2 = 0) ∧ (r1 → d 3 = 0)

/-- A polynomial that respects the supports is a combination of the shapes the code keeps. -/
theorem span_kept {l : ℝ} (hl : l ≠ 0) {m : ℕ} {t0 r0 t1 r1 : Prop} {xs : List ℕ} (hx : IsFirst m (Kept t0 r0 t1 r1) xs) (P : ℝ[X]) (hm : 4 ≤ m)
    (hP : P.natDegree < m) (hend : EndsOk t0 r0 t1 r1 (endData l P)) :
    ∃ c : ℕ → ℝ, ∀ x, P.eval x = (xs.map fun i => c i * (shape i).eval (2 / l * x - 1)).sum := by
  obtain ⟨m, rfl⟩ : ∃ k, m = k + 1 := ⟨m - 1, by omega⟩
  set p := P.comp (C (l / 2) * (X + 1)) with hp
  have hdeg : p.natDegree ≤ m := by
    refine natDegree_comp_le.trans ?_
    have : (C (l / 2) * (X + 1) : ℝ[X]).natDegree ≤ 1 := by
      refine (natDegree_C_mul_le _ _).trans ?_
      rw [show (X + 1 : ℝ[X]) = X + C 1 by simp, natDegree_X_add_C]
    nlinarith
  obtain ⟨c, hc, hsum, c0, c1, c2, c3⟩ := span_all m (by omega) p hdeg
  have e0 : p.eval (-1) = endData l P 0 := by simp [hp, eval_comp, endData_eq]
  have e2 : p.eval 1 = endData l P 2 := by
    rw [endData_eq, hp, eval_comp]
    simp only [eval_mul, eval_C, eval_add, eval_X, eval_one]
    rw [show l / 2 * (1 + 1) = l by ring]
    rfl
  have e1 : (derivative p).eval (-1) = l / 2 * endData l P 1 := by simp [hp, derivative_comp, eval_comp, endData_eq]
  have e3 : (derivative p).eval 1 = l / 2 * endData l P 3 := by
    rw [endData_eq, hp, derivative_comp]
    simp only [eval_mul, eval_C, eval_add, eval_X, eval_one, eval_comp, derivative_C_mul, derivative_add, derivative_X, derivative_one, add_zero]
    rw [show l / 2 * (1 + 1) = l by ring]
    simp [mul_comm]
  have hk : ∀ i, c i ≠ 0 → Kept t0 r0 t1 r1 i := fun i hi => by
    refine ⟨?_, ?_, ?_, ?_⟩ <;> rintro ⟨rfl, h⟩ <;> refine hi ?_
    · rw [c0, e0, hend.1 h]
    · rw [c1, e1, hend.2.1 h]; ring
    · rw [c2, e2, hend.2.2.1 h]
    · rw [c3, e3, hend.2.2.2 h]; ring
  refine ⟨c, fun x => ?_⟩
  have hnd : xs.Nodup := hx.sorted.imp fun h => Nat.ne_of_lt h
  have h1 : P.eval x = p.eval (2 / l * x - 1) := by
    rw [hp, eval_comp]
    simp only [eval_mul, eval_C, eval_add, eval_X, eval_one]
    congr 1
    field_simp
    ring
  rw [h1]
  conv_lhs => rw [hsum]
  rw [eval_finsetSum, ← List.sum_toFinset _ hnd]
  simp only [eval_mul, eval_C]
  refine Finset.sum_congr_of_eq_on_inter (fun i _ hi => ?_) (fun i _ hi => ?_) fun _ _ _ => rfl
  · by_contra hne
    have hi0 := left_ne_zero_of_mul hne
    exact hi (List.mem_toFinset.mpr (first_below hx (hk i hi0) (by have := hc i hi0; omega)))
  · by_contra hne
    have := hc i (left_ne_zero_of_mul hne)
    simp at hi
    omega

/-- Any product of polynomials that respect the supports is a Ritz deflection of a plate with enough terms. -/
theorem prod_ritz_any (ha : a ≠ 0) (hb : b ≠ 0) {cs : Constraints} {m n : ℕ} {s : ShapeIdx} (hs : computeIdx cs m n = .ok s) {e : Edges}
    (he : chooseEdges cs = .ok e) (P Q : ℝ[X]) (hm : 4 ≤ m) (hn : 4 ≤ n) (hP : P.natDegree < m) (hQ : Q.natDegree < n)
    (hx : EndsOk (e.x0.has TZ) (e.x0.has RZ) (e.xa.has TZ) (e.xa.has RZ) (endData a P))
    (hy : EndsOk (e.y0.has TX) (e.y0.has RX) (e.yb.has TX) (e.yb.has RX) (endData b Q)) :
    ∃ v : Fin (m * n) → ℝ, ∀ x y, ritz a b s.w v x y = P.eval x * Q.eval y := by
  obtain ⟨e', xs, ys, he', hw, h1, h2⟩ := w_lists hs
  obtain rfl : e = e' := Except.ok.inj (he.symm.trans he')
  obtain ⟨c, hc⟩ := span_kept ha h1 P hm hP hx
  obtain ⟨d, hd⟩ := span_kept hb h2 Q hn hQ hy
  refine ⟨fun r => c (s.w.getD r (0, 0)).1 * d (s.w.getD r (0, 0)).2, fun x y => ?_⟩
  have hF := sum_getD s.w (0, 0) (C40_sizes _ _ _ s hs).2.2.len
    (fun q => c q.1 * (shape q.1).eval (2 / a * x - 1) * (d q.2 * (shape q.2).eval (2 / b * y - 1)))
  rw [hc, hd, ← sum_product, ← hw, ← hF, ritz]
  exact Finset.sum_congr rfl fun r _ => by ring

/-! ## Approximations respect the supports -/

theorem deriv_zero_on {l : ℝ} (hl : 0 < l) {f f' : ℝ → ℝ} (hd : ∀ x, HasDerivAt f (f' x) x) (h : ∀ x ∈ Set.Icc 0 l, f x = 0) :
    ∀ x ∈ Set.Icc 0 l, f' x = 0 := fun x hx => by
  have h1 : HasDerivWithinAt f (f' x) (Set.Icc 0 l) x := (hd x).hasDerivWithinAt
  have h2 : HasDerivWithinAt f 0 (Set.Icc 0 l) x := (hasDerivWithinAt_const x (Set.Icc 0 l) (0 : ℝ)).congr h (h x hx)
  exact (uniqueDiffOn_Icc hl x hx).eq_deriv _ h1 h2

/-- A function that vanishes along an edge has all its derivatives along the edge zero. -/
theorem along_zero {l : ℝ} (hl : 0 < l) {G : ℕ → ℝ → ℝ} (hd : ∀ j < 2, ∀ x, HasDerivAt (G j) (G (j + 1) x) x)
    (h : ∀ x ∈ Set.Icc 0 l, G 0 x = 0) : ∀ j ≤ 2, ∀ x ∈ Set.Icc 0 l, G j x = 0 := fun j hj => by
  have h1 := deriv_zero_on hl (hd 0 (by norm_num)) h
  have h2 := deriv_zero_on hl (hd 1 (by norm_num)) h1
  interval_cases j
  exacts [h, h1, h2]

theorem slotAt_mem {l : ℝ} (hl : 0 < l) {N : ℕ} (q : Slot N) : slotAt l q ∈ Set.Icc 0 l := by
  rcases q with k | i
  · have hk : (k : ℝ) ≤ N := by exact_mod_cast Nat.le_of_lt_succ k.2
    have h1 : (k : ℝ) / N ≤ 1 := div_le_one_of_le₀ hk (Nat.cast_nonneg _)
    have h0 : (0 : ℝ) ≤ (k : ℝ) / N := by positivity
    show 0 ≤ l * ((k : ℝ) / N) ∧ l * ((k : ℝ) / N) ≤ l
    constructor <;> nlinarith
  · fin_cases i <;> simp [slotAt, endAt, hl.le]

/-- A term of the approximation respects the supports unless its coefficient is one of the data that the supports make zero. -/
theorem slot_ok {l : ℝ} (hl : l ≠ 0) {t0 r0 t1 r1 : Prop} {N : ℕ} (q : Slot N) (g : ℕ → ℝ → ℝ) (h0 : t0 → g 0 0 = 0) (h1 : r0 → g 1 0 = 0)
    (h2 : t1 → g 0 l = 0) (h3 : r1 → g 1 l = 0) (hg : g (slotOrd q) (slotAt l q) ≠ 0) : EndsOk t0 r0 t1 r1 (endData l (slotPoly l q)) := by
  rcases q with k | i
  · exact ⟨fun _ => endData_inl hl k 0, fun _ => endData_inl hl k 1, fun _ => endData_inl hl k 2, fun _ => endData_inl hl k 3⟩
  · unfold EndsOk
    simp only [endData_inr hl]
    fin_cases i
    · exact ⟨fun h => absurd (h0 h) hg, fun _ => rfl, fun _ => rfl, fun _ => rfl⟩
    · exact ⟨fun _ => rfl, fun h => absurd (h1 h) hg, fun _ => rfl, fun _ => rfl⟩
    · exact ⟨fun _ => rfl, fun _ => rfl, fun h => absurd (h2 h) hg, fun _ => rfl⟩
    · exact ⟨fun _ => rfl, fun _ => rfl, fun _ => rfl, fun h => absurd (h3 h) hg⟩

/-- The approximations of an admissible deflection are Ritz deflections once there are enough terms. -/
theorem tensor_ritz (ha : 0 < a) (hb : 0 < b) {e : Edges} {W : ℕ → ℕ → ℝ → ℝ → ℝ} (hW : Smooth W)
    (hx : ∀ y ∈ Set.Icc 0 b, (e.x0.has TZ → W 0 0 0 y = 0) ∧ (e.x0.has RZ → W 1 0 0 y = 0) ∧
      (e.xa.has TZ → W 0 0 a y = 0) ∧ (e.xa.has RZ → W 1 0 a y = 0))
    (hy : ∀ x ∈ Set.Icc 0 a, (e.y0.has TX → W 0 0 x 0 = 0) ∧ (e.y0.has RX → W 0 1 x 0 = 0) ∧
      (e.yb.has TX → W 0 0 x b = 0) ∧ (e.yb.has RX → W 0 1 x b = 0)) (N N' : ℕ) :
    ∃ M : ℕ, ∀ (cs : Constraints), chooseEdges cs = .ok e → ∀ m n, M ≤ m → M ≤ n → ∀ s, computeIdx cs m n = .ok s →
      ∃ v : Fin (m * n) → ℝ, ritz a b s.w v = tensor a b W N N' 0 0 := by
  refine ⟨4 + ∑ q : Slot N, ((slotPoly a q).natDegree + 1) + ∑ l : Slot N', ((slotPoly b l).natDegree + 1), fun cs he m n hm hn s hs => ?_⟩
  have dP : ∀ q : Slot N, (slotPoly a q).natDegree + 1 ≤ ∑ q : Slot N, ((slotPoly a q).natDegree + 1) := fun q =>
    Finset.single_le_sum (f := fun q : Slot N => (slotPoly a q).natDegree + 1) (fun _ _ => Nat.zero_le _) (Finset.mem_univ q)
  have dQ : ∀ q : Slot N', (slotPoly b q).natDegree + 1 ≤ ∑ q : Slot N', ((slotPoly b q).natDegree + 1) := fun q =>
    Finset.single_le_sum (f := fun q : Slot N' => (slotPoly b q).natDegree + 1) (fun _ _ => Nat.zero_le _) (Finset.mem_univ q)
  have one : ∀ (q : Slot N) (l : Slot N'), ∃ v : Fin (m * n) → ℝ, ∀ x y, ritz a b s.w v x y
      = W (slotOrd q) (slotOrd l) (slotAt a q) (slotAt b l) * ((slotPoly a q).eval x * (slotPoly b l).eval y) := fun q l => by
    by_cases hz : W (slotOrd q) (slotOrd l) (slotAt a q) (slotAt b l) = 0
    · exact ⟨0, fun x y => by simp [ritz, hz]⟩
    have hP := dP q
    have hQ := dQ l
    have okx : EndsOk (e.x0.has TZ) (e.x0.has RZ) (e.xa.has TZ) (e.xa.has RZ) (endData a (slotPoly a q)) := by
      have al : ∀ i ≤ 2, ∀ x, (∀ y ∈ Set.Icc 0 b, W i 0 x y = 0) → W i (slotOrd l) x (slotAt b l) = 0 := fun i hi x h0 =>
        along_zero hb (G := fun j y => W i j x y) (fun j hj y => hW.dy i hi j hj x y) h0 _ (slotOrd_le l) _ (slotAt_mem hb l)
      exact slot_ok ha.ne' q (fun i x => W i (slotOrd l) x (slotAt b l)) (fun h => al 0 (by norm_num) 0 fun y hy' => (hx y hy').1 h)
        (fun h => al 1 (by norm_num) 0 fun y hy' => (hx y hy').2.1 h) (fun h => al 0 (by norm_num) a fun y hy' => (hx y hy').2.2.1 h)
        (fun h => al 1 (by norm_num) a fun y hy' => (hx y hy').2.2.2 h) hz
    have oky : EndsOk (e.y0.has TX) (e.y0.has RX) (e.yb.has TX) (e.yb.has RX) (endData b (slotPoly b l)) := by
      have al : ∀ j ≤ 2, ∀ y, (∀ x ∈ Set.Icc 0 a, W 0 j x y = 0) → W (slotOrd q) j (slotAt a q) y = 0 := fun j hj y h0 =>
        along_zero ha (G := fun i x => W i j x y) (fun i hi x => hW.dx i hi j hj x y) h0 _ (slotOrd_le q) _ (slotAt_mem ha q)
      exact slot_ok hb.ne' l (fun j y => W (slotOrd q) j (slotAt a q) y) (fun h => al 0 (by norm_num) 0 fun y hy' => (hy y hy').1 h)
        (fun h => al 1 (by norm_num) 0 fun y hy' => (hy y hy').2.1 h) (fun h => al 0 (by norm_num) b fun y hy' => (hy y hy').2.2.1 h)
        (fun h => al 1 (by norm_num) b fun y hy' => (hy y hy').2.2.2 h) hz
    obtain ⟨v, hv⟩ := prod_ritz_any ha.ne' hb.ne' hs he (slotPoly a q) (slotPoly b l) (by omega) (by omega) (by omega) (by omega) okx oky
    refine ⟨W (slotOrd q) (slotOrd l) (slotAt a q) (slotAt b l) • v, fun x y => ?_⟩
    rw [← hv, ritz, ritz, Finset.mul_sum]
    exact Finset.sum_congr rfl fun r _ => by simp [mul_assoc]
  choose v hv using one
  refine ⟨∑ q, ∑ l, v q l, funext fun x => funext fun y => ?_⟩
  have e1 : ritz a b s.w (∑ q, ∑ l, v q l) x y = ∑ q, ∑ l, ritz a b s.w (v q l) x y := by
    simp only [ritz, Finset.sum_apply, Finset.sum_mul]
    rw [Finset.sum_comm]
    exact Finset.sum_congr rfl fun q _ => Finset.sum_comm
  rw [e1]
  simp only [hv]
  rfl

/-! ## Ritz deflections are admissible -/

theorem phys_ends {l : ℝ} (hl : l ≠ 0) (p : ℝ[X]) : endData l (phys l p)
    = ![p.eval (-1), 2 / l * (derivative p).eval (-1), p.eval 1, 2 / l * (derivative p).eval 1] := by
  have e1 : 2 / l * l - 1 = 1 := by field_simp; norm_num
  rw [endData_eq, derivative_phys]
  simp [phys_eval, e1]

theorem kept_ends {l : ℝ} (hl : l ≠ 0) {t0 r0 t1 r1 : Prop} {i : ℕ} (hi : Kept t0 r0 t1 r1 i) : EndsOk t0 r0 t1 r1 (endData l (phys l (shape i))) := by
  obtain ⟨⟨a0, a1, a2, a3⟩, ⟨b0, b1, b2, b3⟩, ⟨c0, c1, c2, c3⟩, d0, d1, d2, d3⟩ := C45_low_values
  obtain ⟨k0, k1, k2, k3⟩ := hi
  rw [phys_ends hl]
  rcases Nat.lt_or_ge i 4 with h | h
  · interval_cases i
    · exact ⟨fun h => absurd ⟨rfl, h⟩ k0, fun _ => by simp [a2], fun _ => by simp [a1], fun _ => by simp [a3]⟩
    · exact ⟨fun _ => by simp [b0], fun h => absurd ⟨rfl, h⟩ k1, fun _ => by simp [b1], fun _ => by simp [b3]⟩
    · exact ⟨fun _ => by simp [c0], fun _ => by simp [c2], fun h => absurd ⟨rfl, h⟩ k2, fun _ => by simp [c3]⟩
    · exact ⟨fun _ => by simp [d0], fun _ => by simp [d2], fun _ => by simp [d1], fun h => absurd ⟨rfl, h⟩ k3⟩
  · obtain ⟨z0, z1, z2, z3⟩ := C45_bubble i h
    exact ⟨fun _ => by simp [z0], fun _ => by simp [z2], fun _ => by simp [z1], fun _ => by simp [z3]⟩

theorem ritz_admissible (ha : a ≠ 0) (hb : b ≠ 0) {cs : Constraints} {m n : ℕ} {s : ShapeIdx} (hs : computeIdx cs m n = .ok s) {e : Edges}
    (he : chooseEdges cs = .ok e) (v : Fin (m * n) → ℝ) : Admissible e a b (ritz a b s.w v) := by
  obtain ⟨e', xs, ys, he', hw, h1, h2⟩ := w_lists hs
  obtain rfl : e = e' := Except.ok.inj (he.symm.trans he')
  have hmem : ∀ r : Fin (m * n), Kept (e.x0.has TZ) (e.x0.has RZ) (e.xa.has TZ) (e.xa.has RZ) (s.w.getD r (0, 0)).1 ∧
      Kept (e.y0.has TX) (e.y0.has RX) (e.yb.has TX) (e.yb.has RX) (s.w.getD r (0, 0)).2 := fun r => by
    have hlen := (C40_sizes _ _ _ s hs).2.2.len
    have hr : s.w.getD r (0, 0) ∈ s.w := by
      rw [List.getD_eq_getElem _ _ (by rw [hlen]; exact r.2)]
      exact List.getElem_mem _
    have hr : s.w.getD r (0, 0) ∈ xs.product ys := hw ▸ hr
    obtain ⟨m1, m2⟩ := List.mem_product.mp (show ((s.w.getD r (0, 0)).1, (s.w.getD r (0, 0)).2) ∈ xs ×ˢ ys from hr)
    exact ⟨h1.sound _ m1, h2.sound _ m2⟩
  set P := fun r : Fin (m * n) => phys a (shape (s.w.getD r (0, 0)).1) with hP
  set Q := fun r : Fin (m * n) => phys b (shape (s.w.getD r (0, 0)).2) with hQ
  have okx : ∀ r, EndsOk (e.x0.has TZ) (e.x0.has RZ) (e.xa.has TZ) (e.xa.has RZ) (endData a (P r)) := fun r => kept_ends ha (hmem r).1
  have oky : ∀ r, EndsOk (e.y0.has TX) (e.y0.has RX) (e.yb.has TX) (e.yb.has RX) (endData b (Q r)) := fun r => kept_ends hb (hmem r).2
  simp only [endData_eq, EndsOk] at okx oky
  refine ⟨fun i j x y => ∑ r, v r * ((derivative^[i] (P r)).eval x * (derivative^[j] (Q r)).eval y), ⟨fun i _ j _ x y => ?_, fun i _ j _ x y => ?_,
    fun i _ j _ => ?_⟩, ?_, fun y _ => ⟨fun h => ?_, fun h => ?_, fun h => ?_, fun h => ?_⟩, fun x _ => ⟨fun h => ?_, fun h => ?_, fun h => ?_, fun h => ?_⟩⟩
  · refine HasDerivAt.fun_sum fun q _ => ((HasDerivAt.mul_const ?_ _).const_mul _)
    rw [Function.iterate_succ_apply']
    exact Polynomial.hasDerivAt _ _
  · refine HasDerivAt.fun_sum fun q _ => ((HasDerivAt.const_mul _ ?_).const_mul _)
    rw [Function.iterate_succ_apply']
    exact Polynomial.hasDerivAt _ _
  · simp only [Function.uncurry_def]
    refine continuous_finsetSum _ fun q _ => continuous_const.mul ?_
    exact ((derivative^[i] (P q)).continuous.comp continuous_fst).mul ((derivative^[j] (Q q)).continuous.comp continuous_snd)
  · rw [ritz_sep]; rfl
  all_goals refine Finset.sum_eq_zero fun r _ => ?_
  · have := (okx r).1 h
    simp at this ⊢
    simp [this]
  · have := (okx r).2.1 h
    simp at this ⊢
    simp [this]
  · have := (okx r).2.2.1 h
    simp at this ⊢
    simp [this]
  · have := (okx r).2.2.2 h
    simp at this ⊢
    simp [this]
  · have := (oky r).1 h
    simp at this ⊢
    simp [this]
  · have := (oky r).2.1 h
    simp at this ⊢
    simp [this]
  · have := (oky r).2.2.1 h
    simp at this ⊢
    simp [this]
  · have := (oky r).2.2.2 h
    simp at this ⊢
    simp [this]

/-! ## The limit -/

/-- Every multiplier is the quotient of an admissible deflection, whatever the numbers of terms. -/
theorem C107_lower (D : M3) (hD : D.PosDef) (cs : Constraints) (p : PlateNum) (ha : 0 < p.a) (hb : 0 < p.b) (e : Edges) (he : chooseEdges cs = .ok e)
    (hheld : Held (e.x0.has TZ) (e.x0.has RZ) (e.xa.has TZ) (e.xa.has RZ) ∨ Held (e.y0.has TX) (e.y0.has RX) (e.yb.has TX) (e.yb.has RX))
    (K KG : SqMat (p.m * p.n)) (hK : calcKKGD exactReaders (.ok D) cs p = .ok (K, KG)) (lam : ℝ) (hl : PosMult K KG lam) :
    lam ∈ quotients D e p.a p.b p.Nxx p.Nyy p.Nxy := by
  have hsym : D.IsSymm := hD.isHermitian
  obtain ⟨s, hs⟩ := (C40_accepted_iff cs p.m p.n).mpr ⟨e, he⟩
  obtain ⟨K', KG', hK', hen⟩ := C49_energy D hsym cs p s hs ha.ne' hb.ne'
  obtain ⟨rfl, rfl⟩ := Prod.mk.inj (Except.ok.inj (hK.symm.trans hK'))
  obtain ⟨hl0, v, hv⟩ := hl
  have hE := C87_supported D hD cs p ha hb s hs e he hheld v hv.1
  have hb' := buckles_energy hv
  rw [(hen v).1, (hen v).2] at hb'
  have hneg : 0 < -loadWork p.Nxx p.Nyy p.Nxy p.a p.b (ritz p.a p.b s.w v) := by
    by_contra h
    have := mul_nonneg hl0.le (not_lt.mp h |> neg_nonpos.mp)
    linarith
  refine ⟨_, ritz_admissible ha.ne' hb.ne' hs he v, hneg, ?_⟩
  rw [eq_div_iff hneg.ne']
  linarith

/-- With enough terms some multiplier is at most any given quotient plus `d`. -/
theorem C107_upper (D : M3) (hD : D.PosDef) (cs : Constraints) (a b nx ny nt : ℝ) (ha : 0 < a) (hb : 0 < b) (e : Edges) (he : chooseEdges cs = .ok e)
    (hheld : Held (e.x0.has TZ) (e.x0.has RZ) (e.xa.has TZ) (e.xa.has RZ) ∨ Held (e.y0.has TX) (e.y0.has RX) (e.yb.has TX) (e.yb.has RX))
    (q : ℝ) (hq : q ∈ quotients D e a b nx ny nt) (d : ℝ) (hd : 0 < d) :
    ∃ M : ℕ, ∀ m n, M ≤ m → M ≤ n → ∀ K KG : SqMat (m * n), calcKKGD exactReaders (.ok D) cs ⟨a, b, nx, ny, nt, m, n⟩ = .ok (K, KG) →
      ∃ lam ≤ q + d, PosMult K KG lam := by
  have hsym : D.IsSymm := hD.isHermitian
  obtain ⟨w, ⟨W, hW, rfl, hx, hy⟩, hneg, rfl⟩ := hq
  set E := bendEnergy D a b (W 0 0) with hE
  set L := -loadWork nx ny nt a b (W 0 0) with hL
  clear_value E
  obtain ⟨r, hr0, hr⟩ : ∃ r > (0 : ℝ), ∀ E' L', |E' - E| ≤ r → |L' - L| ≤ r → 0 < L' ∧ E' / L' ≤ E / L + d := by
    have c : ContinuousAt (fun p : ℝ × ℝ => p.1 / p.2) (E, L) := continuousAt_fst.div continuousAt_snd hneg.ne'
    have ev := (c.eventually (eventually_le_nhds (lt_add_of_pos_right (E / L) hd))).and (continuousAt_snd.eventually (lt_mem_nhds (a := 0) (b := L) hneg))
    obtain ⟨r, hr, hball⟩ := Metric.eventually_nhds_iff.mp ev
    refine ⟨r / 2, half_pos hr, fun E' L' h1 h2 => ?_⟩
    have := hball (y := (E', L')) (by
      rw [Prod.dist_eq, max_lt_iff, Real.dist_eq, Real.dist_eq]
      constructor <;> simp only <;> linarith)
    exact ⟨this.2, this.1⟩
  obtain ⟨g, hg, hnear⟩ := energies_near ha hb D nx ny nt hW hr0
  obtain ⟨N, N', hN⟩ := tensor_near ha hb hW hg
  obtain ⟨M, hM⟩ := tensor_ritz ha hb hW hx hy N N'
  obtain ⟨n1, n2⟩ := hnear _ (tensor_smooth W N N') hN
  refine ⟨M, fun m n hm hn K KG hK => ?_⟩
  obtain ⟨s, hs⟩ := (C40_accepted_iff cs m n).mpr ⟨e, he⟩
  obtain ⟨K', KG', hK', hen⟩ := C49_energy D hsym cs ⟨a, b, nx, ny, nt, m, n⟩ s hs ha.ne' hb.ne'
  obtain ⟨rfl, rfl⟩ := Prod.mk.inj (Except.ok.inj (hK.symm.trans hK'))
  have hpos : ∀ c, c ≠ 0 → 0 < c ⬝ᵥ K.mulVec c := fun c hc => by
    rw [(hen c).1]
    exact C87_supported D hD cs ⟨a, b, nx, ny, nt, m, n⟩ ha hb s hs e he hheld c hc
  have hsK := exact_symm_ok ha.ne' hb.ne' hK hs
  have hpd := posDef_of_pos hsK.1 hpos
  obtain ⟨v, hv⟩ := hM cs he m n hm hn s hs
  have hkE : v ⬝ᵥ K.mulVec v = bendEnergy D a b (tensor a b W N N' 0 0) := (hen v).1.trans (congrArg _ hv)
  have hkW : v ⬝ᵥ KG.mulVec v = loadWork nx ny nt a b (tensor a b W N N' 0 0) := (hen v).2.trans (congrArg _ hv)
  rw [← hkE, ← hE] at n1
  rw [← hkW] at n2
  obtain ⟨k1, k2⟩ := hr _ (-(v ⬝ᵥ KG.mulVec v)) n1 (by rw [hL, neg_sub_neg, abs_sub_comm]; exact n2)
  have hv0 : v ≠ 0 := fun h => by
    subst h
    simp at k1
  obtain ⟨mu, h1, h2⟩ := posMult_le hpd hsK.2 hv0 (lam := v ⬝ᵥ K.mulVec v / -(v ⬝ᵥ KG.mulVec v)) (div_pos (hpos v hv0) k1) (by
    rw [div_neg, neg_mul, div_mul_cancel₀ _ (by linarith : v ⬝ᵥ KG.mulVec v < 0).ne]
    linarith)
  exact ⟨mu, h1.trans k2, h2⟩

/-- The quotients have an infimum as soon as the loads do negative work on some admissible deflection. -/
theorem C107_infimum (D : M3) (hD : D.PosDef) (e : Edges) (a b nx ny nt : ℝ) (ha : 0 < a) (hb : 0 < b) (hne : (quotients D e a b nx ny nt).Nonempty) :
    ∃ t, 0 ≤ t ∧ IsGLB (quotients D e a b nx ny nt) t := by
  have h0 : ∀ q ∈ quotients D e a b nx ny nt, 0 ≤ q := by
    rintro q ⟨w, -, hw, rfl⟩
    refine div_nonneg (intervalIntegral.integral_nonneg ha.le fun x _ => intervalIntegral.integral_nonneg hb.le fun y _ => ?_) hw.le
    have := hD.posSemidef.dotProduct_mulVec_nonneg ![dX (dX w) x y, dY (dY w) x y, 2 * dY (dX w) x y]
    simpa [bendDensity] using this
  refine ⟨sInf (quotients D e a b nx ny nt), le_csInf hne h0, isGLB_csInf hne ⟨0, h0⟩⟩

/-- **C107** the smallest multiplier tends from above to the infimum of the quotients of all admissible deflections as the numbers of terms
grow. -/
theorem C107_converges (D : M3) (hD : D.PosDef) (cs : Constraints) (a b nx ny nt : ℝ) (ha : 0 < a) (hb : 0 < b) (e : Edges) (he : chooseEdges cs = .ok e)
    (hheld : Held (e.x0.has TZ) (e.x0.has RZ) (e.xa.has TZ) (e.xa.has RZ) ∨ Held (e.y0.has TX) (e.y0.has RX) (e.yb.has TX) (e.yb.has RX))
    (t : ℝ) (ht : IsGLB (quotients D e a b nx ny nt) t) (d : ℝ) (hd : 0 < d) :
    ∃ M : ℕ, ∀ m n, M ≤ m → M ≤ n → ∃ K KG : SqMat (m * n), calcKKGD exactReaders (.ok D) cs ⟨a, b, nx, ny, nt, m, n⟩ = .ok (K, KG) ∧
      ∃ lam0, PosMult K KG lam0 ∧ (∀ lam, PosMult K KG lam → lam0 ≤ lam) ∧ t ≤ lam0 ∧ lam0 ≤ t + d := by
  have hsym : D.IsSymm := hD.isHermitian
  obtain ⟨q, hq, hlt⟩ := (isGLB_lt_iff ht).mp (show t < t + d / 2 by linarith)
  obtain ⟨M, hM⟩ := C107_upper D hD cs a b nx ny nt ha hb e he hheld q hq (d / 2) (by linarith)
  refine ⟨M, fun m n hm hn => ?_⟩
  obtain ⟨s, hs⟩ := (C40_accepted_iff cs m n).mpr ⟨e, he⟩
  obtain ⟨K, KG, hK, hen⟩ := C49_energy D hsym cs ⟨a, b, nx, ny, nt, m, n⟩ s hs ha.ne' hb.ne'
  have hsK := exact_symm_ok ha.ne' hb.ne' hK hs
  have hpd := posDef_of_pos hsK.1 fun c hc => by
    rw [(hen c).1]
    exact C87_supported D hD cs ⟨a, b, nx, ny, nt, m, n⟩ ha hb s hs e he hheld c hc
  obtain ⟨l, hle, hl⟩ := hM m n hm hn K KG hK
  obtain ⟨lam0, h0, hmin⟩ := exists_min_posMult hpd hsK.2 ⟨l, hl⟩
  refine ⟨K, KG, hK, lam0, h0, hmin, ?_, ?_⟩
  · exact ht.1 (C107_lower D hD cs ⟨a, b, nx, ny, nt, m, n⟩ ha hb e he hheld K KG hK lam0 h0)
  · have := hmin l hl
    linarith

/-- No number of terms gives a multiplier if and only if the loads do negative work on no admissible deflection. -/
theorem C107_none (D : M3) (hD : D.PosDef) (cs : Constraints) (a b nx ny nt : ℝ) (ha : 0 < a) (hb : 0 < b) (e : Edges) (he : chooseEdges cs = .ok e)
    (hheld : Held (e.x0.has TZ) (e.x0.has RZ) (e.xa.has TZ) (e.xa.has RZ) ∨ Held (e.y0.has TX) (e.y0.has RX) (e.yb.has TX) (e.yb.has RX)) :
    (∀ m n (K KG : SqMat (m * n)), calcKKGD exactReaders (.ok D) cs ⟨a, b, nx, ny, nt, m, n⟩ = .ok (K, KG) → ∀ lam, ¬ PosMult K KG lam) ↔
    ∀ w, Admissible e a b w → 0 ≤ loadWork nx ny nt a b w := by
  constructor
  · intro h w hw
    by_contra hneg
    obtain ⟨M, hM⟩ := C107_upper D hD cs a b nx ny nt ha hb e he hheld _ ⟨w, hw, by linarith, rfl⟩ 1 one_pos
    obtain ⟨s, hs⟩ := (C40_accepted_iff cs M M).mpr ⟨e, he⟩
    obtain ⟨K, KG, hK, -⟩ := C49_energy D (show D.IsSymm from hD.isHermitian) cs ⟨a, b, nx, ny, nt, M, M⟩ s hs ha.ne' hb.ne'
    obtain ⟨lam, -, hl⟩ := hM M M le_rfl le_rfl K KG hK
    exact h M M K KG hK lam hl
  · intro h m n K KG hK lam hl
    obtain ⟨w, hw, hneg, -⟩ := C107_lower D hD cs ⟨a, b, nx, ny, nt, m, n⟩ ha hb e he hheld K KG hK lam hl
    have := h w hw
    simp only at hneg
    linarith

/-- For simply supported plates without coupling of bending and twisting and without shear load the infimum over all admissible deflections is
the smallest Navier multiplier. -/
theorem C107_navier (D : M3) (hD : D.PosDef) (h16 : D 0 2 = 0) (h26 : D 1 2 = 0) (a b nx ny : ℝ) (ha : 0 < a) (hb : 0 < b) (e : Edges)
    (he : chooseEdges (.str wPINNED) = .ok e) (t : ℝ) (ht : IsGLB (navierSet D a b nx ny) t) : IsGLB (quotients D e a b nx ny 0) t := by
  have hheld : Held (e.x0.has TZ) (e.x0.has RZ) (e.xa.has TZ) (e.xa.has RZ) ∨ Held (e.y0.has TX) (e.y0.has RX) (e.yb.has TX) (e.yb.has RX) := by
    obtain rfl := Except.ok.inj (show Except.ok _ = .ok e from he)
    exact .inl (by unfold Held; decide)
  have hne : (quotients D e a b nx ny 0).Nonempty := by
    obtain ⟨M, hM⟩ := C99_converges D hD h16 h26 a b nx ny ha hb t ht 1 one_pos
    obtain ⟨K, KG, hK, lam0, h0, -⟩ := hM M M le_rfl le_rfl
    exact ⟨lam0, C107_lower D hD _ ⟨a, b, nx, ny, 0, M, M⟩ ha hb e he hheld K KG hK lam0 h0⟩
  obtain ⟨t', -, ht'⟩ := C107_infimum D hD e a b nx ny 0 ha hb hne
  suffices h : t = t' by rw [h]; exact ht'
  have close : ∀ d > 0, |t - t'| ≤ d := fun d hd => by
    obtain ⟨M, hM⟩ := C99_converges D hD h16 h26 a b nx ny ha hb t ht d hd
    obtain ⟨M', hM'⟩ := C107_converges D hD _ a b nx ny 0 ha hb e he hheld t' ht' d hd
    obtain ⟨K, KG, hK, l, h1, h2, h3, h4⟩ := hM (max M M') (max M M') (le_max_left _ _) (le_max_left _ _)
    obtain ⟨K', KG', hK', l', h1', h2', h3', h4'⟩ := hM' (max M M') (max M M') (le_max_right _ _) (le_max_right _ _)
    obtain ⟨rfl, rfl⟩ := Prod.mk.inj (Except.ok.inj (hK.symm.trans hK'))
    have := h2 l' h1'
    have := h2' l h1
    rw [abs_le]
    constructor <;> linarith
  by_contra hne'
  have hp : 0 < |t - t'| := abs_pos.mpr (sub_ne_zero.mpr hne')
  have := close _ (half_pos hp)
  linarith

/-- Non-vacuity of C107: for the square isotropic plate compressed one way the infimum over all smooth deflections that vanish on the edges is
`4 pi^2 d`. -/
theorem C107_square (d : ℝ) (hd : 0 < d) (nu : ℝ) (hnu : -1 < nu) (hnu' : nu < 1) (e : Edges) (he : chooseEdges (.str wPINNED) = .ok e) :
    IsGLB (quotients !![d, nu * d, 0; nu * d, d, 0; 0, 0, (1 - nu) / 2 * d] e 1 1 (-1) 0 0) (4 * Real.pi ^ 2 * d) :=
  C107_navier _ (C95_square d hd 2 2 le_rfl le_rfl nu hnu hnu').1 rfl rfl 1 1 (-1) 0 one_pos one_pos e he _
    (C99_square d hd nu hnu hnu' 1 one_pos).1.isGLB

/-- Multipliers of clamped plates computed with the shipped tables are quotients of admissible deflections too. -/
theorem C107_clamped (D : M3) (hD : D.PosDef) (p : PlateNum) (ha : 0 < p.a) (hb : 0 < p.b) (hm : 1 ≤ p.m) (hn : 1 ≤ p.n) (hm' : p.m ≤ 26)
    (hn' : p.n ≤ 26) (e : Edges) (he : chooseEdges (.str wCLAMPED) = .ok e) (K KG : SqMat (p.m * p.n))
    (hK : calcKKGD shipped (.ok D) (.str wCLAMPED) p = .ok (K, KG)) (lam : ℝ) (hl : PosMult K KG lam) :
    lam ∈ quotients D e p.a p.b p.Nxx p.Nyy p.Nxy := by
  have hsym : D.IsSymm := hD.isHermitian
  obtain ⟨s, K', KG', hs, hK', hen⟩ := C49_energy_clamped D hsym p ha.ne' hb.ne' hm' hn'
  obtain ⟨rfl, rfl⟩ := Prod.mk.inj (Except.ok.inj (hK.symm.trans hK'))
  have hpd := clamped_posDef hD ha hb hm hn hm' hn' hK
  obtain ⟨hl0, v, hv⟩ := hl
  have hE := hpd.dotProduct_mulVec_pos hv.1
  rw [star_trivial, (hen v).1] at hE
  have hb' := buckles_energy hv
  rw [(hen v).1, (hen v).2] at hb'
  have hneg : 0 < -loadWork p.Nxx p.Nyy p.Nxy p.a p.b (ritz p.a p.b s.w v) := by
    by_contra h
    have := mul_nonneg hl0.le (not_lt.mp h |> neg_nonpos.mp)
    linarith
  refine ⟨_, ritz_admissible ha.ne' hb.ne' hs he v, hneg, ?_⟩
  rw [eq_div_iff hneg.ne']
  linarith

end Composipy
