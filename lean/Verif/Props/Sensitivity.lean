import Verif.Props.RoundedEnergy

/-!
# C125: how the stiffness matrices depend on the data
-/

namespace Composipy
open Spec Matrix

namespace Spec

/-- `x'` is `x` up to the relative tolerance `e`. -/
def RelTol (e x x' : ℝ) : Prop := |x' - x| ≤ e * |x|

/-- The same kind of material with every elastic constant and the thickness up to the relative tolerance `e`. -/
def NearMat (e : ℝ) : Mat → Mat → Prop
  | .ortho m, .ortho m' => RelTol e m.e1 m'.e1 ∧ RelTol e m.e2 m'.e2 ∧ RelTol e m.v12 m'.v12 ∧ RelTol e m.g12 m'.g12 ∧ RelTol e m.thickness m'.thickness
  | .iso m, .iso m' => RelTol e m.e m'.e ∧ RelTol e m.v m'.v ∧ RelTol e m.g m'.g ∧ RelTol e m.thickness m'.thickness
  | _, _ => False

/-- A ply with the data up to `e` and the angle up to `al` radians. -/
def NearPly (e al : ℝ) (p p' : ℝ × Mat) : Prop := |p'.1 - p.1| * Real.pi / 180 ≤ al ∧ NearMat e p.2 p'.2

/-- Relative change of the denominator `1 - v12 v21`. -/
noncomputable def dataErr (e r : ℝ) : ℝ := ((1 + e) ^ 3 * (1 / (1 - e)) - 1) * (r / (1 - r))

/-- Growth of the entries of `Q_0`. -/
noncomputable def dataGrowth (e r : ℝ) : ℝ := (1 + e) ^ 2 * (1 / (1 - dataErr e r))

/-- Change of the entries of the rotated stiffness, in units of the sum of the sizes of the entries of `Q_0`. -/
noncomputable def turnErr (e al r : ℝ) : ℝ := dataGrowth e r - 1 + 2 * al * (dataGrowth e r + 1)

end Spec

theorem Spec.RelTol.within {e x x' : ℝ} (h : RelTol e x x') : Within (1 + e) x' x |x| := ⟨le_rfl, by simpa [RelTol] using h⟩

theorem within_quotient {g g' y x X d' d e : ℝ} (hg : 1 ≤ g) (h : Within g y x X) (he : 0 ≤ e) (he1 : e < 1) (hd : RelTol e d d') (hg' : g * (1 / (1 - e)) = g') :
    Within g' (y / d') (x / d) (X / |d|) := by
  rw [← hg']
  rcases lt_trichotomy d 0 with h0 | h0 | h0
  · have hd2 : |(-d') - (-d)| ≤ e * (-d) := by
      rw [show -d' - -d = -(d' - d) by ring, abs_neg]
      rwa [RelTol, abs_of_neg h0] at hd
    have h1 : Within g (-y) (-x) X := ⟨by rw [abs_neg]; exact h.1, by rw [show -y - -x = -(y - x) by ring, abs_neg]; exact h.2⟩
    have := h1.div hg (by linarith : 0 < -d) he he1 hd2
    rwa [neg_div_neg_eq, neg_div_neg_eq, ← abs_of_neg h0] at this
  · subst h0
    have : d' = 0 := by simpa [RelTol] using hd
    subst this
    simp [Within]
  · rw [abs_of_pos h0]
    rw [RelTol, abs_of_pos h0] at hd
    exact h.div hg h0 he he1 hd

section Q0
variable {e r : ℝ}

theorem dataFactor_ge (he : 0 ≤ e) (he1 : e < 1) : (1 + e) ^ 2 ≤ (1 + e) ^ 3 * (1 / (1 - e)) ∧ 1 ≤ (1 + e) ^ 2 := by
  have h1 : 1 ≤ (1 + e) ^ 2 := one_le_pow₀ (by linarith)
  refine ⟨?_, h1⟩
  have h2 : 1 ≤ 1 / (1 - e) := by rw [le_div_iff₀ (by linarith)]; linarith
  calc (1 + e) ^ 2 ≤ (1 + e) ^ 3 := pow_le_pow_right₀ (by linarith) (by norm_num)
    _ ≤ _ := le_mul_of_one_le_right (by positivity) h2

theorem dataErr_nonneg (he : 0 ≤ e) (he1 : e < 1) (hr0 : 0 ≤ r) (hr : r < 1) : 0 ≤ dataErr e r := by
  have h := dataFactor_ge he he1
  exact mul_nonneg (by linarith [h.1, h.2]) (div_nonneg hr0 (by linarith))

theorem dataGrowth_ge (he : 0 ≤ e) (he1 : e < 1) (hr0 : 0 ≤ r) (hr : r < 1) (hd : dataErr e r < 1) : (1 + e) ^ 2 ≤ dataGrowth e r ∧ 1 ≤ dataGrowth e r ∧ 1 + e ≤ dataGrowth e r := by
  have h0 := dataErr_nonneg he he1 hr0 hr
  have h2 : 1 ≤ 1 / (1 - dataErr e r) := by rw [le_div_iff₀ (by linarith)]; linarith
  have h3 : (1 + e) ^ 2 ≤ dataGrowth e r := le_mul_of_one_le_right (by positivity) h2
  have h4 : 1 + e ≤ (1 + e) ^ 2 := by nlinarith
  exact ⟨h3, by linarith, by linarith⟩

theorem dataDen {x' x : ℝ} (hr : r < 1) (hx : x ≤ r) {g : ℝ} (hg : 1 ≤ g) (hg' : g ≤ (1 + e) ^ 3 * (1 / (1 - e))) (h : Within g x' x x) :
    |(1 - x') - (1 - x)| ≤ dataErr e r * (1 - x) := by
  have hx0 : 0 ≤ x := (abs_nonneg _).trans h.1
  rw [show 1 - x' - (1 - x) = -(x' - x) by ring, abs_neg]
  refine h.2.trans ?_
  have h1 : (g - 1) * x ≤ ((1 + e) ^ 3 * (1 / (1 - e)) - 1) * x := mul_le_mul_of_nonneg_right (by linarith) hx0
  refine h1.trans ?_
  rw [dataErr, mul_assoc]
  refine mul_le_mul_of_nonneg_left ?_ (by linarith)
  rw [div_mul_eq_mul_div, le_div_iff₀ (by linarith)]
  nlinarith

theorem dataEntry (he : 0 ≤ e) (he1 : e < 1) (hr0 : 0 ≤ r) (hr : r < 1) (hd : dataErr e r < 1) {n : ℕ} (hn : n ≤ 2) {y x X d' d : ℝ} (h : Within ((1 + e) ^ n) y x X)
    (hd0 : 0 < d) (hdd : |d' - d| ≤ dataErr e r * d) : Within (dataGrowth e r) (y / d') (x / d) (X / d) := by
  have h1 : 1 ≤ (1 + e) ^ n := one_le_pow₀ (by linarith)
  have h0 := dataErr_nonneg he he1 hr0 hr
  have h2 : 1 ≤ 1 / (1 - dataErr e r) := by rw [le_div_iff₀ (by linarith)]; linarith
  refine (h.div h1 hd0 h0 hd hdd).mono (one_le_mul_of_one_le_of_one_le h1 h2) ?_ le_rfl
  exact mul_le_mul_of_nonneg_right (pow_le_pow_right₀ (by linarith) hn) (by linarith)

/-- **C125** `Q_0`: every entry changes by at most the relative amount `dataGrowth e r - 1`. -/
theorem C125_Q0 (he : 0 ≤ e) (he1 : e < 1) (hr : r < 1) (hd : dataErr e r < 1) (m m' : Mat) (hm : NearMat e m m') (hp0 : 0 ≤ poissonProduct m) (hp : poissonProduct m ≤ r) :
    ∃ Q Q', m.Q0 = .ok Q ∧ m'.Q0 = .ok Q' ∧ ∀ i j, |Q' i j - Q i j| ≤ (dataGrowth e r - 1) * |Q i j| := by
  have hr0 : 0 ≤ r := hp0.trans hp
  obtain ⟨g2, g1, g0⟩ := dataGrowth_ge he he1 hr0 hr hd
  obtain ⟨f1, f2⟩ := dataFactor_ge he he1
  have ee : ∀ a b : ℝ, 0 < b → |a / b| = |a| / b := fun a b hb => by rw [abs_div, abs_of_pos hb]
  have sg : ∀ x x' : ℝ, RelTol e x x' → |x' - x| ≤ (dataGrowth e r - 1) * |x| := fun x x' h =>
    h.trans (mul_le_mul_of_nonneg_right (by linarith) (abs_nonneg _))
  have q1 : ∀ {x x' : ℝ}, RelTol e x x' → Within ((1 + e) ^ 1) x' x |x| := fun h => by rw [pow_one]; exact h.within
  have he' : 1 ≤ 1 + e := by linarith
  have q2 : ∀ {x x' y y' : ℝ}, RelTol e x x' → RelTol e y y' → Within ((1 + e) ^ 2) (x' * y') (x * y) (|x| * |y|) := fun h k => by
    rw [pow_two]; exact h.within.mul he' k.within
  cases m with
  | ortho m =>
    cases m' with
    | iso m' => exact hm.elim
    | ortho m' =>
    obtain ⟨k1, k2, k3, k4, -⟩ := hm
    simp only [poissonProduct] at hp0 hp
    set x := m.v12 ^ 2 * (m.e2 / m.e1) with hx
    have hv : m.v12 * m.v21 = x := by rw [OrthoMat.v21, hx]; ring
    have hd0 : 0 < 1 - m.v12 * m.v21 := by rw [hv]; linarith
    have h1 : Within ((1 + e) ^ 3 * (1 / (1 - e))) (m'.v12 * m'.v21) (m.v12 * m.v21) (m.v12 * m.v21) := by
      have a1 := within_quotient he' k2.within he he1 k1 rfl
      have hq : 1 ≤ 1 / (1 - e) := by rw [le_div_iff₀ (by linarith)]; linarith
      have a2 := k3.within.mul he' a1
      have a3 := k3.within.mul he' a2
      rw [show (1 + e) * ((1 + e) * ((1 + e) * (1 / (1 - e)))) = (1 + e) ^ 3 * (1 / (1 - e)) by ring] at a3
      have e1 : |m.v12| * (|m.v12| * (|m.e2| / |m.e1|)) = m.v12 * m.v21 := by
        rw [hv, ← abs_div, ← abs_mul, ← abs_mul, show m.v12 * (m.v12 * (m.e2 / m.e1)) = x by rw [hx]; ring]
        exact abs_of_nonneg hp0
      rw [e1] at a3
      exact a3
    have hdd := dataDen hr (by rw [hv]; exact hp) (by linarith) le_rfl h1
    have hd' := den_ne hd0 hd hdd
    refine ⟨_, _, by simp only [Mat.Q0, OrthoMat.Q0, pyDiv, if_neg hd0.ne', ok_bind, pure_eq_ok]; rfl,
      by simp only [Mat.Q0, OrthoMat.Q0, pyDiv, if_neg hd', ok_bind, pure_eq_ok]; rfl, ?_⟩
    have j1 := dataEntry he he1 hr0 hr hd (by norm_num) (q1 k1) hd0 hdd
    have j2 := dataEntry he he1 hr0 hr hd le_rfl (q2 k3 k2) hd0 hdd
    have j3 := dataEntry he he1 hr0 hr hd (by norm_num) (q1 k2) hd0 hdd
    intro i j
    fin_cases i <;> fin_cases j <;> simp [ee _ _ hd0, abs_mul]
    · exact j1.2
    · exact j2.2
    · exact j2.2
    · exact j3.2
    · exact sg _ _ k4
  | iso m =>
    cases m' with
    | ortho m' => exact hm.elim
    | iso m' =>
    obtain ⟨k1, k2, k3, -⟩ := hm
    simp only [poissonProduct] at hp0 hp
    have hv : m.v * m.v = m.v ^ 2 := by ring
    have hd0 : 0 < 1 - m.v * m.v := by rw [hv]; linarith
    have h1 : Within ((1 + e) ^ 2) (m'.v * m'.v) (m.v * m.v) (m.v * m.v) := by
      have := q2 k2 k2
      rwa [abs_mul_abs_self] at this
    have hdd := dataDen hr (by rw [hv]; exact hp) f2 f1 h1
    have hd' := den_ne hd0 hd hdd
    refine ⟨_, _, by simp only [Mat.Q0, IsoMat.Q0, pyDiv, if_neg hd0.ne', ok_bind, pure_eq_ok]; rfl,
      by simp only [Mat.Q0, IsoMat.Q0, pyDiv, if_neg hd', ok_bind, pure_eq_ok]; rfl, ?_⟩
    have j1 := dataEntry he he1 hr0 hr hd (by norm_num) (q1 k1) hd0 hdd
    have j2 := dataEntry he he1 hr0 hr hd le_rfl (q2 k2 k1) hd0 hdd
    intro i j
    fin_cases i <;> fin_cases j <;> simp [ee _ _ hd0, abs_mul]
    · exact j1.2
    · exact j2.2
    · exact j2.2
    · exact j1.2
    · exact sg _ _ k3

end Q0

/-- The products of the Poisson ratios of near materials. -/
theorem poisson_near {e : ℝ} (he : 0 ≤ e) (he1 : e < 1) {m m' : Mat} (hm : NearMat e m m') (hp0 : 0 ≤ poissonProduct m) :
    |poissonProduct m' - poissonProduct m| ≤ ((1 + e) ^ 3 * (1 / (1 - e)) - 1) * poissonProduct m := by
  have he' : 1 ≤ 1 + e := by linarith
  obtain ⟨f1, f2⟩ := dataFactor_ge he he1
  cases m with
  | ortho m =>
    cases m' with
    | iso m' => exact hm.elim
    | ortho m' =>
    obtain ⟨k1, k2, k3, -⟩ := hm
    simp only [poissonProduct] at hp0 ⊢
    have a1 := within_quotient he' k2.within he he1 k1 rfl
    have a3 := (k3.within.mul he' (k3.within.mul he' a1)).2
    rw [show (1 + e) * ((1 + e) * ((1 + e) * (1 / (1 - e)))) = (1 + e) ^ 3 * (1 / (1 - e)) by ring, ← abs_div, ← abs_mul, ← abs_mul,
      show m.v12 * (m.v12 * (m.e2 / m.e1)) = m.v12 ^ 2 * (m.e2 / m.e1) by ring, show m'.v12 * (m'.v12 * (m'.e2 / m'.e1)) = m'.v12 ^ 2 * (m'.e2 / m'.e1) by ring,
      abs_of_nonneg hp0] at a3
    exact a3
  | iso m =>
    cases m' with
    | ortho m' => exact hm.elim
    | iso m' =>
    obtain ⟨-, k2, -⟩ := hm
    simp only [poissonProduct] at hp0 ⊢
    have a := (k2.within.mul he' k2.within).2
    rw [← pow_two, ← pow_two, ← pow_two, ← pow_two, sq_abs] at a
    exact a.trans (mul_le_mul_of_nonneg_right (by linarith) hp0)

/-! ## Rotation -/

theorem Teng_le (t : ℝ) (i j : Fin 3) : |Teng t i j| ≤ 1 := by
  have h1 : |2 * cosd t * sind t| ≤ 1 := by
    rw [show 2 * cosd t * sind t = Real.sin (2 * (t * Real.pi / 180)) by rw [Real.sin_two_mul, cosd, sind]; ring]
    exact Real.abs_sin_le_one _
  have h2 : |cosd t ^ 2 - sind t ^ 2| ≤ 1 := by
    rw [show cosd t ^ 2 - sind t ^ 2 = Real.cos (2 * (t * Real.pi / 180)) by rw [Real.cos_two_mul', cosd, sind]]
    exact Real.abs_cos_le_one _
  have h3 : |cosd t| ≤ 1 := Real.abs_cos_le_one _
  have h4 : |sind t| ≤ 1 := Real.abs_sin_le_one _
  have h5 : |cosd t * sind t| ≤ 1 := by rw [abs_mul]; nlinarith [abs_nonneg (cosd t), abs_nonneg (sind t)]
  have h6 : |cosd t ^ 2| ≤ 1 := by rw [abs_pow]; exact pow_le_one₀ (abs_nonneg _) h3
  have h7 : |sind t ^ 2| ≤ 1 := by rw [abs_pow]; exact pow_le_one₀ (abs_nonneg _) h4
  have h8 : |-cosd t * sind t| ≤ 1 := by rw [neg_mul, abs_neg]; exact h5
  have h9 : |-2 * cosd t * sind t| ≤ 1 := by rw [neg_mul, neg_mul, abs_neg]; exact h1
  fin_cases i <;> fin_cases j <;> first | exact h6 | exact h7 | exact h5 | exact h8 | exact h9 | exact h1 | exact h2

theorem Teng_sub_le (t t' : ℝ) (i j : Fin 3) : |Teng t' i j - Teng t i j| ≤ 2 * (|t' - t| * Real.pi / 180) := by
  have hd : |t' * Real.pi / 180 - t * Real.pi / 180| = |t' - t| * Real.pi / 180 := by
    rw [show t' * Real.pi / 180 - t * Real.pi / 180 = (t' - t) * Real.pi / 180 by ring, abs_div, abs_mul, abs_of_pos Real.pi_pos, abs_of_pos (by norm_num : (0:ℝ) < 180)]
  have hd2 : |2 * (t' * Real.pi / 180) - 2 * (t * Real.pi / 180)| = 2 * (|t' - t| * Real.pi / 180) := by
    rw [← mul_sub, abs_mul, hd, abs_of_pos (by norm_num : (0:ℝ) < 2)]
  set D := |t' - t| * Real.pi / 180 with hD
  have hD0 : 0 ≤ D := by rw [← hd]; exact abs_nonneg _
  have hs2 : |2 * cosd t' * sind t' - 2 * cosd t * sind t| ≤ 2 * D := by
    have := Real.abs_sin_sub_sin_le (2 * (t' * Real.pi / 180)) (2 * (t * Real.pi / 180))
    rw [Real.sin_two_mul, Real.sin_two_mul, hd2] at this
    rwa [show 2 * cosd t' * sind t' - 2 * cosd t * sind t = 2 * Real.sin (t' * Real.pi / 180) * Real.cos (t' * Real.pi / 180) - 2 * Real.sin (t * Real.pi / 180) * Real.cos (t * Real.pi / 180) by
      rw [cosd, sind, cosd, sind]; ring]
  have hc2 : |(cosd t' ^ 2 - sind t' ^ 2) - (cosd t ^ 2 - sind t ^ 2)| ≤ 2 * D := by
    have := Real.abs_cos_sub_cos_le (2 * (t' * Real.pi / 180)) (2 * (t * Real.pi / 180))
    rwa [Real.cos_two_mul', Real.cos_two_mul', hd2] at this
  have h1 := abs_le.mp hs2
  have h2 := abs_le.mp hc2
  have hone := Real.sin_sq_add_cos_sq (t * Real.pi / 180)
  have hone' := Real.sin_sq_add_cos_sq (t' * Real.pi / 180)
  change sind t ^ 2 + cosd t ^ 2 = 1 at hone
  change sind t' ^ 2 + cosd t' ^ 2 = 1 at hone'
  have k1 : |cosd t' ^ 2 - cosd t ^ 2| ≤ 2 * D := abs_le.mpr ⟨by linarith, by linarith⟩
  have k2 : |sind t' ^ 2 - sind t ^ 2| ≤ 2 * D := abs_le.mpr ⟨by linarith, by linarith⟩
  have k3 : |cosd t' * sind t' - cosd t * sind t| ≤ 2 * D := abs_le.mpr ⟨by linarith, by linarith⟩
  have k4 : |-cosd t' * sind t' - -cosd t * sind t| ≤ 2 * D := abs_le.mpr ⟨by linarith, by linarith⟩
  have k5 : |-2 * cosd t' * sind t' - -2 * cosd t * sind t| ≤ 2 * D := abs_le.mpr ⟨by linarith, by linarith⟩
  fin_cases i <;> fin_cases j <;> first | exact k1 | exact k2 | exact k3 | exact k4 | exact k5 | exact hs2 | exact hc2

theorem sandwich_le (R Q T : M3) (a b : ℝ) (hR : ∀ i j, |R i j| ≤ a) (hT : ∀ i j, |T i j| ≤ b) (i j : Fin 3) : |(R * Q * T) i j| ≤ a * b * entrySum Q := by
  have ha : 0 ≤ a := (abs_nonneg _).trans (hR 0 0)
  have e : (R * Q * T) i j = ∑ l, ∑ k, R i k * Q k l * T l j := by
    simp only [Matrix.mul_apply, Finset.sum_mul]
  rw [e]
  calc |∑ l, ∑ k, R i k * Q k l * T l j| ≤ ∑ l, ∑ k, |R i k * Q k l * T l j| :=
        (Finset.abs_sum_le_sum_abs _ _).trans (Finset.sum_le_sum fun l _ => Finset.abs_sum_le_sum_abs _ _)
    _ ≤ ∑ l, ∑ k, a * b * |Q k l| := Finset.sum_le_sum fun l _ => Finset.sum_le_sum fun k _ => by
        rw [abs_mul, abs_mul]
        calc |R i k| * |Q k l| * |T l j| ≤ a * |Q k l| * b :=
              mul_le_mul (mul_le_mul_of_nonneg_right (hR i k) (abs_nonneg _)) (hT l j) (abs_nonneg _) (mul_nonneg ha (abs_nonneg _))
          _ = _ := by ring
    _ = a * b * entrySum Q := by
        rw [entrySum, Finset.sum_comm, Finset.mul_sum]
        exact Finset.sum_congr rfl fun k _ => by rw [Finset.mul_sum]

theorem entrySum_nonneg (Q : M3) : 0 ≤ entrySum Q := Finset.sum_nonneg fun _ _ => Finset.sum_nonneg fun _ _ => abs_nonneg _

theorem entrySum_rel {Q Q' : M3} {g : ℝ} (h : ∀ i j, |Q' i j - Q i j| ≤ (g - 1) * |Q i j|) : entrySum (Q' - Q) ≤ (g - 1) * entrySum Q ∧ entrySum Q' ≤ g * entrySum Q := by
  constructor
  · simp only [entrySum, Finset.mul_sum]
    exact Finset.sum_le_sum fun i _ => Finset.sum_le_sum fun j _ => h i j
  · simp only [entrySum, Finset.mul_sum]
    refine Finset.sum_le_sum fun i _ => Finset.sum_le_sum fun j _ => ?_
    have := abs_le.mp (h i j)
    rw [abs_le]
    have := neg_abs_le (Q i j)
    have := le_abs_self (Q i j)
    constructor <;> linarith

/-- **C125** rotated stiffness of one ply. -/
theorem C125_ply {e al r : ℝ} (he : 0 ≤ e) (he1 : e < 1) (hr : r < 1) (hd : dataErr e r < 1) (p p' : ℝ × Mat) (hp : NearPly e al p p')
    (hp0 : 0 ≤ poissonProduct p.2) (hpr : poissonProduct p.2 ≤ r) :
    ∃ Q0 Q Q', p.2.Q0 = .ok Q0 ∧ plyQ p = .ok Q ∧ plyQ p' = .ok Q' ∧ ∀ i j, |Q i j| ≤ entrySum Q0 ∧ |Q' i j - Q i j| ≤ turnErr e al r * entrySum Q0 := by
  obtain ⟨Q0, Q0', h1, h2, h3⟩ := C125_Q0 he he1 hr hd p.2 p'.2 hp.2 hp0 hpr
  obtain ⟨-, g1, -⟩ := dataGrowth_ge he he1 (hp0.trans hpr) hr hd
  refine ⟨Q0, _, _, h1, by rw [plyQ_eq, h1]; rfl, by rw [plyQ_eq, h2]; rfl, fun i j => ?_⟩
  obtain ⟨s1, s2⟩ := entrySum_rel h3
  have hT : ∀ t (i j : Fin 3), |(Teng t)ᵀ i j| ≤ 1 := fun t i j => Teng_le t j i
  have hTd : ∀ i j : Fin 3, |(Teng p'.1 - Teng p.1) i j| ≤ 2 * al := fun i j => (Teng_sub_le p.1 p'.1 i j).trans (by linarith [hp.1])
  have hTd' : ∀ i j : Fin 3, |((Teng p'.1)ᵀ - (Teng p.1)ᵀ) i j| ≤ 2 * al := fun i j => hTd j i
  have hal : 0 ≤ 2 * al := (abs_nonneg _).trans (hTd 0 0)
  constructor
  · simpa [rotQ] using sandwich_le (Teng p.1)ᵀ Q0 (Teng p.1) 1 1 (hT _) (Teng_le _) i j
  · have e1 : rotQ p'.1 Q0' - rotQ p.1 Q0 = ((Teng p'.1)ᵀ - (Teng p.1)ᵀ) * Q0' * Teng p'.1 + (Teng p.1)ᵀ * (Q0' - Q0) * Teng p'.1 + (Teng p.1)ᵀ * Q0 * (Teng p'.1 - Teng p.1) := by
      simp only [rotQ, Matrix.sub_mul, Matrix.mul_sub]; abel
    change |(rotQ p'.1 Q0' - rotQ p.1 Q0) i j| ≤ _
    rw [e1, Matrix.add_apply, Matrix.add_apply]
    have b1 := sandwich_le _ Q0' _ _ _ hTd' (Teng_le p'.1) i j
    have b2 := sandwich_le _ (Q0' - Q0) _ _ _ (hT p.1) (Teng_le p'.1) i j
    have b3 := sandwich_le _ Q0 _ _ _ (hT p.1) hTd i j
    have b4 : 2 * al * 1 * entrySum Q0' ≤ 2 * al * (dataGrowth e r * entrySum Q0) := by rw [mul_one]; exact mul_le_mul_of_nonneg_left s2 hal
    refine (abs_add_le _ _).trans ?_
    have b5 := abs_add_le ((((Teng p'.1)ᵀ - (Teng p.1)ᵀ) * Q0' * Teng p'.1 : M3) i j) (((Teng p.1)ᵀ * (Q0' - Q0) * Teng p'.1 : M3) i j)
    unfold turnErr
    linarith

/-! ## The sums over the layers -/

theorem mom_change (w : ℝ → ℝ → ℝ) {e h b c q X : ℝ} (he : 0 ≤ e) (hb0 : 0 ≤ b)
    (hw1 : ∀ x y, |x| ≤ (1 + e) * h / 2 → |y| ≤ (1 + e) * h / 2 → x ≤ y → |w x y| ≤ b * (y - x))
    (hw2 : ∀ x y x' y', |x| ≤ (1 + e) * h / 2 → |y| ≤ (1 + e) * h / 2 → |x'| ≤ (1 + e) * h / 2 → |y'| ≤ (1 + e) * h / 2 → |x' - x| ≤ e * h / 2 → |y' - y| ≤ e * h / 2 →
      x ≤ y → |y' - x' - (y - x)| ≤ e * (y - x) → |w x' y' - w x y| ≤ c * (y - x))
    {L L' : List (ℝ × ℝ)} (hL : List.Forall₂ (fun p p' : ℝ × ℝ => 0 ≤ p.1 ∧ 0 ≤ p'.1 ∧ |p'.1 - p.1| ≤ e * p.1 ∧ |p.2| ≤ X ∧ |p'.2 - p.2| ≤ q) L L')
    (P P' z z' : ℝ) (hP : 0 ≤ P) (hP' : 0 ≤ P') (hPP : |P' - P| ≤ e * P) (hz : 2 * z = P - (L.map Prod.fst).sum) (hz' : 2 * z' = P' - (L'.map Prod.fst).sum)
    (hh : P + (L.map Prod.fst).sum = h) :
    |mom w z' L' - mom w z L| ≤ q * b * (L'.map Prod.fst).sum + c * X * (L.map Prod.fst).sum ∧ |(L'.map Prod.fst).sum - (L.map Prod.fst).sum| ≤ e * (L.map Prod.fst).sum ∧
      0 ≤ (L.map Prod.fst).sum ∧ 0 ≤ (L'.map Prod.fst).sum := by
  induction hL generalizing P P' z z' with
  | nil => simp [mom]
  | @cons p p' L L' hp hL ih =>
    obtain ⟨t, Q⟩ := p
    obtain ⟨t', Q'⟩ := p'
    obtain ⟨t0, t0', ht, hQ, hq⟩ := hp
    simp only [List.map_cons, List.sum_cons] at hz hz' hh ⊢
    simp only at t0 t0' ht hQ hq
    have hP1 := abs_le.mp hPP
    have ht1 := abs_le.mp ht
    have hPt : |P' + t' - (P + t)| ≤ e * (P + t) := abs_le.mpr ⟨by linarith, by linarith⟩
    obtain ⟨i1, i2, i3, i4⟩ := ih (P + t) (P' + t') (z + t) (z' + t') (by linarith) (by linarith) hPt (by linarith) (by linarith) (by linarith)
    set R := (L.map Prod.fst).sum
    set R' := (L'.map Prod.fst).sum
    have hR := abs_le.mp i2
    have hR1 : |t' + R' - (t + R)| ≤ e * (t + R) := abs_le.mpr ⟨by linarith, by linarith⟩
    refine ⟨?_, hR1, by linarith, by linarith⟩
    have hPt1 := abs_le.mp hPt
    have hR2 := abs_le.mp hR1
    have heh : 0 ≤ e * h := mul_nonneg he (by linarith)
    have z1 : |z| ≤ (1 + e) * h / 2 := abs_le.mpr ⟨by linarith, by linarith⟩
    have z2 : |z + t| ≤ (1 + e) * h / 2 := abs_le.mpr ⟨by linarith, by linarith⟩
    have eh : e * h = e * P + e * t + e * R := by rw [← hh]; ring
    have z3 : |z'| ≤ (1 + e) * h / 2 := abs_le.mpr ⟨by linarith, by linarith⟩
    have z4 : |z' + t'| ≤ (1 + e) * h / 2 := abs_le.mpr ⟨by linarith, by linarith⟩
    have z5 : |z' - z| ≤ e * h / 2 := abs_le.mpr ⟨by linarith, by linarith⟩
    have z6 : |z' + t' - (z + t)| ≤ e * h / 2 := abs_le.mpr ⟨by linarith, by linarith⟩
    have w1 := hw1 z' (z' + t') z3 z4 (by linarith)
    have w2 := hw2 z (z + t) z' (z' + t') z1 z2 z3 z4 z5 z6 (by linarith) (by simpa using ht)
    have e1 : mom w z' ((t', Q') :: L') - mom w z ((t, Q) :: L) = w z' (z' + t') * (Q' - Q) + (w z' (z' + t') - w z (z + t)) * Q + (mom w (z' + t') L' - mom w (z + t) L) := by
      simp only [mom, smul_eq_mul]; ring
    rw [e1]
    have n1 : |w z' (z' + t') * (Q' - Q)| ≤ (b * t') * q := by
      rw [abs_mul]
      exact mul_le_mul (by simpa using w1) hq (abs_nonneg _) (mul_nonneg hb0 t0')
    have n2 : |(w z' (z' + t') - w z (z + t)) * Q| ≤ c * t * X := by
      rw [abs_mul]
      rw [add_sub_cancel_left] at w2
      exact mul_le_mul w2 hQ (abs_nonneg _) ((abs_nonneg _).trans w2)
    refine (abs_add_le _ _).trans ?_
    have n3 := abs_add_le (w z' (z' + t') * (Q' - Q)) ((w z' (z' + t') - w z (z + t)) * Q)
    linarith

/-- What the weights need: sizes and changes, with positions up to `(1 + e) h / 2`. -/
def WeightOk (w : ℝ → ℝ → ℝ) (e h : ℝ) (k : ℕ) : Prop :=
  (∀ x y, |x| ≤ (1 + e) * h / 2 → |y| ≤ (1 + e) * h / 2 → x ≤ y → |w x y| ≤ ((1 + e) * h / 2) ^ k * (y - x)) ∧
  (∀ x y x' y', |x| ≤ (1 + e) * h / 2 → |y| ≤ (1 + e) * h / 2 → |x'| ≤ (1 + e) * h / 2 → |y'| ≤ (1 + e) * h / 2 → |x' - x| ≤ e * h / 2 → |y' - y| ≤ e * h / 2 →
    x ≤ y → |y' - x' - (y - x)| ≤ e * (y - x) → |w x' y' - w x y| ≤ ((k : ℝ) + 1) * e * ((1 + e) * h / 2) ^ k * (y - x))

theorem wA_ok (e h : ℝ) : WeightOk wA e h 0 := by
  constructor
  · intro x y _ _ hxy
    rw [wA, abs_of_nonneg (by linarith)]; simp
  · intro x y x' y' _ _ _ _ _ _ _ h3
    simpa [wA] using h3

theorem wB_ok {e h : ℝ} (he : 0 ≤ e) : WeightOk wB e h 1 := by
  unfold WeightOk
  set r := (1 + e) * h / 2 with hr
  have half : ∀ x y : ℝ, |x| ≤ r → |y| ≤ r → |(x + y) / 2| ≤ r := fun x y hx hy => by
    have := abs_le.mp hx
    have := abs_le.mp hy
    rw [abs_le]; constructor <;> linarith
  constructor
  · intro x y hx hy hxy
    rw [wB, show (1 / 2 : ℝ) * (y ^ 2 - x ^ 2) = (x + y) / 2 * (y - x) by ring, abs_mul, abs_of_nonneg (by linarith : 0 ≤ y - x), pow_one]
    exact mul_le_mul_of_nonneg_right (half x y hx hy) (by linarith)
  · intro x y x' y' hx hy hx' hy' h1 h2 hxy h3
    have hr0 : 0 ≤ r := (abs_nonneg _).trans hx
    have hh : 0 ≤ h := by
      by_contra hc
      have : (1 + e) * h < 0 := mul_neg_of_pos_of_neg (by linarith) (not_le.mp hc)
      linarith
    have hrh : e * h / 2 ≤ e * r := by
      rw [hr]
      nlinarith [mul_nonneg (mul_nonneg he he) hh]
    have e1 : wB x' y' - wB x y = (x' + y') / 2 * (y' - x' - (y - x)) + ((x' - x) + (y' - y)) / 2 * (y - x) := by rw [wB, wB]; ring
    rw [e1]
    refine (abs_add_le _ _).trans ?_
    rw [abs_mul, abs_mul, abs_of_nonneg (by linarith : 0 ≤ y - x)]
    have n1 := mul_le_mul (half x' y' hx' hy') h3 (abs_nonneg _) hr0
    have n2 : |((x' - x) + (y' - y)) / 2| ≤ e * r := by
      have := abs_le.mp h1
      have := abs_le.mp h2
      rw [abs_le]; constructor <;> linarith
    have n3 := mul_le_mul_of_nonneg_right n2 (by linarith : 0 ≤ y - x)
    push_cast
    linarith

theorem wD_ok {e h : ℝ} (he : 0 ≤ e) : WeightOk wD e h 2 := by
  unfold WeightOk
  set r := (1 + e) * h / 2 with hr
  have third : ∀ x y : ℝ, |x| ≤ r → |y| ≤ r → |(x ^ 2 + x * y + y ^ 2) / 3| ≤ r ^ 2 := fun x y hx hy => by
    have hr : 0 ≤ r := (abs_nonneg _).trans hx
    have a1 : x ^ 2 ≤ r ^ 2 := sq_le_sq.mpr (by rwa [abs_of_nonneg hr])
    have a2 : y ^ 2 ≤ r ^ 2 := sq_le_sq.mpr (by rwa [abs_of_nonneg hr])
    rw [abs_le]
    constructor <;> nlinarith [sq_nonneg (x + y), sq_nonneg (x - y)]
  constructor
  · intro x y hx hy hxy
    rw [wD, show (1 / 3 : ℝ) * (y ^ 3 - x ^ 3) = (x ^ 2 + x * y + y ^ 2) / 3 * (y - x) by ring, abs_mul, abs_of_nonneg (by linarith : 0 ≤ y - x)]
    exact mul_le_mul_of_nonneg_right (third x y hx hy) (by linarith)
  · intro x y x' y' hx hy hx' hy' h1 h2 hxy h3
    have hr0 : 0 ≤ r := (abs_nonneg _).trans hx
    have hh : 0 ≤ h := by
      by_contra hc
      have : (1 + e) * h < 0 := mul_neg_of_pos_of_neg (by linarith) (not_le.mp hc)
      linarith
    have hrh : e * h / 2 ≤ e * r := by
      rw [hr]
      nlinarith [mul_nonneg (mul_nonneg he he) hh]
    have e1 : wD x' y' - wD x y = (x' ^ 2 + x' * y' + y' ^ 2) / 3 * (y' - x' - (y - x)) +
        ((x' + x + y') * (x' - x) + (y' + y + x) * (y' - y)) / 3 * (y - x) := by rw [wD, wD]; ring
    rw [e1]
    refine (abs_add_le _ _).trans ?_
    rw [abs_mul, abs_mul, abs_of_nonneg (by linarith : 0 ≤ y - x)]
    have n1 := mul_le_mul (third x' y' hx' hy') h3 (abs_nonneg _) (sq_nonneg r)
    have three : ∀ x y z : ℝ, |x| ≤ r → |y| ≤ r → |z| ≤ r → |x + y + z| ≤ 3 * r := fun x y z hx hy hz => by
      have := abs_le.mp hx
      have := abs_le.mp hy
      have := abs_le.mp hz
      rw [abs_le]; constructor <;> linarith
    have n2 : |((x' + x + y') * (x' - x) + (y' + y + x) * (y' - y)) / 3| ≤ 2 * (e * r ^ 2) := by
      rw [abs_div, abs_of_pos (by norm_num : (0:ℝ) < 3), div_le_iff₀ (by norm_num)]
      refine (abs_add_le _ _).trans ?_
      rw [abs_mul, abs_mul]
      have m1 := mul_le_mul (three x' x y' hx' hx hy') (h1.trans hrh) (abs_nonneg _) (by linarith)
      have m2 := mul_le_mul (three y' y x hy' hy hx) (h2.trans hrh) (abs_nonneg _) (by linarith)
      linarith
    have n3 := mul_le_mul_of_nonneg_right n2 (by linarith : 0 ≤ y - x)
    push_cast
    linarith

/-- Bound of the change of the stiffness matrix of order `k` (0 for `A`, 1 for `B`, 2 for `D`) of a stack of height `h`. -/
noncomputable def Spec.dataChange (e al r S h : ℝ) (k : ℕ) : ℝ := ((1 + e) * turnErr e al r + (k + 1) * e) * S * h * ((1 + e) * h / 2) ^ k

theorem Spec.NearMat.thickness {e : ℝ} {m m' : Mat} (h : NearMat e m m') : RelTol e m.thickness m'.thickness := by
  cases m <;> cases m'
  · exact h.2.2.2.2
  · exact h.elim
  · exact h.elim
  · exact h.2.2.2

theorem stack_change {e al r S : ℝ} (he : 0 ≤ e) (he1 : e < 1) (hr : r < 1) (hd : dataErr e r < 1) (l l' : Lam) (hl : List.Forall₂ (NearPly e al) l.layup l'.layup)
    (ht : NonnegThick l.layup) (hp : ∀ p ∈ l.layup, 0 ≤ poissonProduct p.2 ∧ poissonProduct p.2 ≤ r) (hS : ∀ p ∈ l.layup, ∀ Q, p.2.Q0 = .ok Q → entrySum Q ≤ S)
    (w : ℝ → ℝ → ℝ) (k : ℕ)
    (hw : WeightOk w e (height l.layup) k) :
    ∃ M M', l.loopMatrix w = .ok M ∧ l'.loopMatrix w = .ok M' ∧ ∀ i j, |M' i j - M i j| ≤ dataChange e al r S (height l.layup) k := by
  have hall : ∀ q ∈ l.layup.zip l'.layup, ∃ Q Q', plyQ q.1 = .ok Q ∧ plyQ q.2 = .ok Q' ∧ ∀ i j, |Q i j| ≤ S ∧ |Q' i j - Q i j| ≤ turnErr e al r * S := by
    intro q hq
    have hn := (List.forall₂_iff_zip.mp hl).2 hq
    have hm := (List.of_mem_zip hq).1
    obtain ⟨Q0, Q, Q', q1, q2, q3, q4⟩ := C125_ply he he1 hr hd q.1 q.2 hn (hp _ hm).1 (hp _ hm).2
    have hs := hS _ hm Q0 q1
    obtain ⟨-, g1, -⟩ := dataGrowth_ge he he1 ((hp _ hm).1.trans (hp _ hm).2) hr hd
    have hal : 0 ≤ al := le_trans (by positivity) hn.1
    have ht0 : 0 ≤ turnErr e al r := by unfold turnErr; nlinarith
    exact ⟨Q, Q', q2, q3, fun i j => ⟨(q4 i j).1.trans hs, (q4 i j).2.trans (mul_le_mul_of_nonneg_left hs ht0)⟩⟩
  have hlen := hl.length_eq
  have hok : AllOk l.layup := fun p hp => by
    obtain ⟨n, hn, rfl⟩ := List.mem_iff_getElem.mp hp
    obtain ⟨Q, Q', h1, -⟩ := hall (l.layup[n], l'.layup[n]'(by omega)) (List.mem_iff_getElem.mpr ⟨n, by simp; omega, by simp⟩)
    exact ⟨Q, h1⟩
  have hok' : AllOk l'.layup := fun p hp => by
    obtain ⟨n, hn, rfl⟩ := List.mem_iff_getElem.mp hp
    obtain ⟨Q, Q', -, h1, -⟩ := hall (l.layup[n]'(by omega), l'.layup[n]) (List.mem_iff_getElem.mpr ⟨n, by simp; omega, by simp⟩)
    exact ⟨Q', h1⟩
  refine ⟨_, _, l.loopMatrix_ok w hok, l'.loopMatrix_ok w hok', fun i j => ?_⟩
  rw [mom_entry, mom_entry, List.map_map, List.map_map]
  have hfs : ∀ L : List (ℝ × Mat), ((L.map ((fun p : ℝ × M3 => (p.1, p.2 i j)) ∘ layer)).map Prod.fst).sum = height L := fun L => by
    rw [List.map_map]; rfl
  have hrel : ∀ a b, (a, b) ∈ l.layup.zip l'.layup → 0 ≤ a.2.thickness ∧ 0 ≤ b.2.thickness ∧ |b.2.thickness - a.2.thickness| ≤ e * a.2.thickness ∧
      |plyQ! a i j| ≤ S ∧ |plyQ! b i j - plyQ! a i j| ≤ turnErr e al r * S := by
    intro a b hab
    have hn := (List.forall₂_iff_zip.mp hl).2 hab
    have t0 := ht a (List.of_mem_zip hab).1
    have h1 := hn.2.thickness
    rw [RelTol, abs_of_nonneg t0] at h1
    obtain ⟨Q, Q', h2, h3, h4⟩ := hall _ hab
    simp only at h2 h3
    refine ⟨t0, ?_, h1, ?_⟩
    · have := abs_le.mp h1
      nlinarith
    · simp only [plyQ!, h2, h3]
      exact h4 i j
  have hF : List.Forall₂ (fun p p' : ℝ × ℝ => 0 ≤ p.1 ∧ 0 ≤ p'.1 ∧ |p'.1 - p.1| ≤ e * p.1 ∧ |p.2| ≤ S ∧ |p'.2 - p.2| ≤ turnErr e al r * S)
      (l.layup.map ((fun p : ℝ × M3 => (p.1, p.2 i j)) ∘ layer)) (l'.layup.map ((fun p : ℝ × M3 => (p.1, p.2 i j)) ∘ layer)) := by
    rw [List.forall₂_map_left_iff, List.forall₂_map_right_iff]
    exact List.forall₂_iff_zip.mpr ⟨hlen, fun {a b} hab => hrel a b hab⟩
  have hh0 := height_nonneg ht
  have hr0 : 0 ≤ (1 + e) * height l.layup / 2 := by positivity
  have key := mom_change w he (pow_nonneg hr0 k) hw.1 hw.2 hF 0 0 (bottom l.layup) (bottom l'.layup) le_rfl le_rfl (by simp)
    (by rw [hfs, bottom, totalThickness_eq, height]; ring) (by rw [hfs, bottom, totalThickness_eq, height]; ring) (by rw [hfs]; ring)
  rw [hfs, hfs] at key
  refine key.1.trans ?_
  have h2 := abs_le.mp key.2.1
  have hq0 : 0 ≤ turnErr e al r * S ∨ l.layup = [] := by
    cases hL : l.layup with
    | nil => exact Or.inr rfl
    | cons p L =>
      left
      rw [hL] at hF
      cases hL' : l'.layup with
      | nil => rw [hL, hL'] at hl; cases hl
      | cons p' L' =>
        have := (hrel p p' (by rw [hL, hL']; simp)).2.2.2.2
        exact (abs_nonneg _).trans this
  rcases hq0 with hq0 | hnil
  · have n1 : turnErr e al r * S * ((1 + e) * height l.layup / 2) ^ k * height l'.layup ≤ turnErr e al r * S * ((1 + e) * height l.layup / 2) ^ k * ((1 + e) * height l.layup) :=
      mul_le_mul_of_nonneg_left (by linarith) (mul_nonneg hq0 (pow_nonneg hr0 k))
    unfold dataChange
    linarith
  · have hnil' : l'.layup = [] := by
      rw [hnil] at hlen
      exact List.eq_nil_of_length_eq_zero hlen.symm
    simp [hnil, hnil', dataChange, height]

/-- **C125** the stiffness matrices of two stacks whose data agree up to tolerances. -/
theorem C125_stack {e al r S : ℝ} (he : 0 ≤ e) (he1 : e < 1) (hr : r < 1) (hd : dataErr e r < 1) (l l' : Lam) (hs : IsStack l) (hs' : IsStack l')
    (hl : List.Forall₂ (NearPly e al) l.layup l'.layup) (ht : NonnegThick l.layup) (hp : ∀ p ∈ l.layup, 0 ≤ poissonProduct p.2 ∧ poissonProduct p.2 ≤ r)
    (hS : ∀ p ∈ l.layup, ∀ Q, p.2.Q0 = .ok Q → entrySum Q ≤ S) :
    ∃ A A' B B' D D', l.A = .ok A ∧ l'.A = .ok A' ∧ l.B = .ok B ∧ l'.B = .ok B' ∧ l.D = .ok D ∧ l'.D = .ok D' ∧ ∀ i j,
      |A' i j - A i j| ≤ dataChange e al r S (height l.layup) 0 ∧
      |B' i j - B i j| ≤ dataChange e al r S (height l.layup) 1 ∧
      |D' i j - D i j| ≤ dataChange e al r S (height l.layup) 2 := by
  obtain ⟨A, A', a1, a2, a3⟩ := stack_change he he1 hr hd l l' hl ht hp hS wA 0 (wA_ok e _)
  obtain ⟨B, B', b1, b2, b3⟩ := stack_change he he1 hr hd l l' hl ht hp hS wB 1 (wB_ok he)
  obtain ⟨D, D', d1, d2, d3⟩ := stack_change he he1 hr hd l l' hl ht hp hS wD 2 (wD_ok he)
  exact ⟨A, A', B, B', D, D', by rw [hs.A_eq, a1], by rw [hs'.A_eq, a2], b1, b2, by rw [hs.D_eq, d1], by rw [hs'.D_eq, d2], fun i j => ⟨a3 i j, b3 i j, d3 i j⟩⟩

/-- **C125** small tolerances: the changes are of the order of the tolerances. -/
theorem C125_small {e al r S h : ℝ} (he : 0 ≤ e) (he1 : e ≤ 1 / 100) (hal : 0 ≤ al) (hr0 : 0 ≤ r) (hr : r ≤ 1 / 2) (hS : 0 ≤ S) (hh : 0 ≤ h) (k : ℕ) :
    dataErr e r < 1 ∧ dataChange e al r S h k ≤ ((k + 8) * e + 5 * al) * S * h * (51 / 100 * h) ^ k := by
  have h1 : (1 + e) ^ 3 * (1 / (1 - e)) - 1 ≤ 41 / 10 * e := by
    rw [mul_one_div, sub_le_iff_le_add, div_le_iff₀ (by linarith)]
    nlinarith [mul_nonneg he (sub_nonneg.mpr he1), mul_nonneg (mul_nonneg he he) (sub_nonneg.mpr he1)]
  have h2 : r / (1 - r) ≤ 1 := by rw [div_le_one (by linarith)]; linarith
  have h2' : 0 ≤ r / (1 - r) := div_nonneg hr0 (by linarith)
  have h3 : dataErr e r ≤ 41 / 10 * e := by
    unfold dataErr
    nlinarith [mul_le_mul_of_nonneg_right h1 h2', mul_nonneg he (sub_nonneg.mpr h2)]
  have h4 : dataErr e r < 1 := by linarith
  have h5 : dataGrowth e r - 1 ≤ 64 / 10 * e := by
    unfold dataGrowth
    rw [mul_one_div, sub_le_iff_le_add, div_le_iff₀ (by linarith)]
    nlinarith [mul_nonneg he (sub_nonneg.mpr he1), mul_le_mul_of_nonneg_left h3 he]
  have h6 : turnErr e al r ≤ 64 / 10 * e + 42 / 10 * al := by
    unfold turnErr
    nlinarith [mul_le_mul_of_nonneg_left h5 hal, mul_le_mul_of_nonneg_left he1 hal]
  have h7 : (1 + e) * turnErr e al r + (k + 1) * e ≤ (k + 8) * e + 5 * al := by
    have := mul_le_mul_of_nonneg_left h6 (show 0 ≤ 1 + e by linarith)
    nlinarith [mul_le_mul_of_nonneg_left he1 hal, mul_le_mul_of_nonneg_left he1 he]
  have h0 : 0 ≤ (k + 8) * e + 5 * al := by positivity
  refine ⟨h4, ?_⟩
  unfold dataChange
  have h8 : ((1 + e) * h / 2) ^ k ≤ (51 / 100 * h) ^ k := pow_le_pow_left₀ (by positivity) (by nlinarith) k
  have h9 : 0 ≤ ((1 + e) * h / 2) ^ k := by positivity
  exact mul_le_mul (mul_le_mul_of_nonneg_right (mul_le_mul_of_nonneg_right h7 hS) hh) h8 h9 (by positivity)

/-! ## Buckling multipliers -/

/-- **C125** stiffness known up to `d`: every multiplier of a plate with supported edges is known up to the fraction `eta`. -/
theorem C125_plate (D D' : M3) (mu M d eta : ℝ) (hD : Between D mu M) (hd : ∀ i j, |D' i j - D i j| ≤ d) (cs : Constraints) (p : PlateNum) (ha : 0 < p.a) (hb : 0 < p.b)
    (hm : 1 ≤ p.m) (hn : 1 ≤ p.n) (e : Edges) (he : chooseEdges cs = .ok e) (hh : EdgesHeld e) (hcond : bendErr p mu M < 1) (heta : stiffErr p mu M d ≤ eta) (heta0 : 0 ≤ eta)
    (heta1 : eta < 1) (K KG : SqMat (p.m * p.n)) (h : calcKKGD shipped (.ok D) cs p = .ok (K, KG)) :
    ∃ K', calcKKGD shipped (.ok D') cs p = .ok (K', KG) ∧ K.PosDef ∧ K'.PosDef ∧ ∀ k, 1 ≤ k →
      ((∃ lam, IsKth K KG k lam) ↔ ∃ lam', IsKth K' KG k lam') ∧
      ∀ lam lam', IsKth K KG k lam → IsKth K' KG k lam' → (1 - eta) * lam ≤ lam' ∧ lam' ≤ (1 + eta) * lam := by
  obtain ⟨K', h', hE⟩ := C121_stiffness D D' mu M d hD hd cs p ha hb hm hn e he hh hcond K KG h
  have hpd := C100_posDef D mu M hD cs p ha hb hm hn e he hh hcond K KG h
  have hG := (C48_symmetric _ _ p hm hn K KG h).2
  have hsK' := (C48_symmetric _ _ p hm hn K' KG h').1
  have hK0 : ∀ c : Fin (p.m * p.n) → ℝ, 0 ≤ c ⬝ᵥ K.mulVec c := fun c => by
    have := hpd.posSemidef.dotProduct_mulVec_nonneg c
    rwa [star_trivial] at this
  have hE' : ∀ c : Fin (p.m * p.n) → ℝ, |c ⬝ᵥ K'.mulVec c - c ⬝ᵥ K.mulVec c| ≤ eta * (c ⬝ᵥ K.mulVec c) := fun c => (hE c).trans (mul_le_mul_of_nonneg_right heta (hK0 c))
  have low : ∀ c, (1 - eta) * (c ⬝ᵥ K.mulVec c) ≤ c ⬝ᵥ K'.mulVec c := fun c => by linarith [(abs_le.mp (hE' c)).1]
  have up : ∀ c, c ⬝ᵥ K'.mulVec c ≤ (1 + eta) * (c ⬝ᵥ K.mulVec c) := fun c => by linarith [(abs_le.mp (hE' c)).2]
  have hpd' : K'.PosDef := posDef_of_pos hsK' fun c hc => by
    have h1 := hpd.dotProduct_mulVec_pos hc
    rw [star_trivial] at h1
    have := low c
    nlinarith
  refine ⟨K', h', hpd, hpd', fun k hk => ?_⟩
  have pu : ∀ lam, IsKth K KG k lam → ∃ lam', IsKth K' KG k lam' ∧ lam' ≤ (1 + eta) * lam := fun lam hl => by
    obtain ⟨lam', h1, h2⟩ := perturb_up (delta := 0) hpd hG hpd' hG up heta0 (fun c => by simp) hk hl (by simp)
    exact ⟨lam', h1, by simpa using h2⟩
  have pd : ∀ lam', IsKth K' KG k lam' → ∃ lam, IsKth K KG k lam ∧ (1 - eta) * lam ≤ lam' := fun lam' hl => by
    obtain ⟨lam, h1, h2⟩ := perturb_down (delta := 0) hpd hG hpd' hG low (fun c => by simp) hk hl (by simpa using heta1)
    exact ⟨lam, h1, by rw [mul_comm]; simpa using h2⟩
  refine ⟨⟨fun ⟨lam, hl⟩ => (pu lam hl).imp fun _ h => h.1, fun ⟨lam', hl⟩ => (pd lam' hl).imp fun _ h => h.1⟩, fun lam lam' hl hl' => ⟨?_, ?_⟩⟩
  · obtain ⟨x, hx, hx'⟩ := pd lam' hl'
    rwa [le_antisymm (hl.2 hx.1) (hx.2 hl.1)]
  · obtain ⟨x, hx, hx'⟩ := pu lam hl
    rwa [le_antisymm (hl'.2 hx.1) (hx.2 hl'.1)]

/-- **C125** multipliers of a plate whose data are known up to tolerances.  A concrete pair of plates: the last example of `Props/DoublePrecision.lean`. -/
theorem C125_multipliers {e al r S : ℝ} (he : 0 ≤ e) (he1 : e < 1) (hr : r < 1) (hd : dataErr e r < 1) (l l' : Lam) (hs : IsStack l) (hs' : IsStack l')
    (hl : List.Forall₂ (NearPly e al) l.layup l'.layup) (ht : NonnegThick l.layup) (hp : ∀ p ∈ l.layup, 0 ≤ poissonProduct p.2 ∧ poissonProduct p.2 ≤ r)
    (hS : ∀ p ∈ l.layup, ∀ Q, p.2.Q0 = .ok Q → entrySum Q ≤ S) (D : M3) (hD : l.D = .ok D) (mu M eta : ℝ) (hb : Between D mu M) (cs : Constraints) (p : PlateNum)
    (ha : 0 < p.a) (hbb : 0 < p.b) (hm : 1 ≤ p.m) (hn : 1 ≤ p.n) (ed : Edges) (hed : chooseEdges cs = .ok ed) (hh : EdgesHeld ed) (hcond : bendErr p mu M < 1)
    (heta : stiffErr p mu M (dataChange e al r S (height l.layup) 2) ≤ eta) (heta0 : 0 ≤ eta) (heta1 : eta < 1) (K KG : SqMat (p.m * p.n))
    (h : calcKKGD shipped l.D cs p = .ok (K, KG)) :
    ∃ K', calcKKGD shipped l'.D cs p = .ok (K', KG) ∧ K.PosDef ∧ K'.PosDef ∧ ∀ k, 1 ≤ k →
      ((∃ lam, IsKth K KG k lam) ↔ ∃ lam', IsKth K' KG k lam') ∧
      ∀ lam lam', IsKth K KG k lam → IsKth K' KG k lam' → (1 - eta) * lam ≤ lam' ∧ lam' ≤ (1 + eta) * lam := by
  obtain ⟨_, _, _, _, D1, D', -, -, -, -, d1, d2, hE⟩ := C125_stack he he1 hr hd l l' hs hs' hl ht hp hS
  obtain rfl := Except.ok.inj (hD.symm.trans d1)
  rw [hD] at h
  rw [d2]
  exact C125_plate D D' mu M _ eta hb (fun i j => (hE i j).2.2) cs p ha hbb hm hn ed hed hh hcond heta heta0 heta1 K KG h

end Composipy
