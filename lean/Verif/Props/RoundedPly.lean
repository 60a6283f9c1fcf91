import Verif.Props.Rounded
import Verif.Props.Invariants
import Verif.Spec.Nearest

/-!
# C111: ply stiffnesses, invariants and lamination-parameter matrices in floating-point arithmetic
-/

namespace Composipy
open Spec Matrix

namespace Spec

/-- Product of the two Poisson ratios of a material. -/
noncomputable def poissonProduct : Mat → ℝ
  | .ortho m => m.v12 ^ 2 * (m.e2 / m.e1)
  | .iso m => m.v ^ 2

/-- Relative error of the computed denominator `1 - v12 v21`. -/
noncomputable def denErr (u r : ℝ) : ℝ := ((1 + u) ^ 4 - 1) * ((1 + r) / (1 - r))

/-- Growth of the error of the computed `Q_0`. -/
noncomputable def matGrowth (u r : ℝ) : ℝ := (1 + u) ^ 2 / (1 - denErr u r)

/-- Growth of the error of the computed sine and cosine of an angle of at most `a` radians. -/
noncomputable def trigGrowth (u a : ℝ) : ℝ := 1 + (u + ((1 + u) ^ 3 - 1) * a)

/-- Growth of the error of a computed rotated stiffness. -/
noncomputable def plyGrowth (u r a gI : ℝ) : ℝ := gI * matGrowth u r * (trigGrowth u a ^ 2 * (1 + u) ^ 2) * (1 + u) ^ 6

/-- Sum of the sizes of the entries of a matrix. -/
noncomputable def entrySum (Q : M3) : ℝ := ∑ k, ∑ l, |Q k l|

end Spec

theorem Spec.Within.div {g y x X d d' e : ℝ} (hg : 1 ≤ g) (h : Within g y x X) (hd : 0 < d) (he : 0 ≤ e) (he1 : e < 1) (hdd : |d' - d| ≤ e * d) :
    Within (g * (1 / (1 - e))) (y / d') (x / d) (X / d) := by
  have h1 := abs_le.mp hdd
  have hd' : d * (1 - e) ≤ d' := by linarith
  have hpos : 0 < d * (1 - e) := mul_pos hd (by linarith)
  have hd'0 : 0 < d' := lt_of_lt_of_le hpos hd'
  have hinv : Within (1 / (1 - e)) (1 / d') (1 / d) (1 / d) := by
    refine ⟨by rw [abs_of_pos (by positivity)], ?_⟩
    have e1 : 1 / d' - 1 / d = -((d' - d) / (d * d')) := by field_simp; ring
    rw [e1, abs_neg, abs_div, abs_of_pos (mul_pos hd hd'0), div_le_iff₀ (mul_pos hd hd'0)]
    refine hdd.trans ?_
    have e2 : (1 / (1 - e) - 1) * (1 / d) * (d * d') = e / (1 - e) * d' := by
      have : (1 - e) ≠ 0 := by linarith
      field_simp; ring
    rw [e2]
    have h2 : e / (1 - e) * (d * (1 - e)) ≤ e / (1 - e) * d' := mul_le_mul_of_nonneg_left hd' (div_nonneg he (by linarith))
    have e3 : e / (1 - e) * (d * (1 - e)) = e * d := by
      have : (1 - e) ≠ 0 := by linarith
      field_simp
    linarith
  have := h.mul hg hinv
  rw [div_eq_mul_one_div y, div_eq_mul_one_div x, div_eq_mul_one_div X]
  exact this

namespace FloatArith
variable {F : FloatArith}

theorem exact_within (x : ℝ) (n : ℕ) : Within (F.q ^ n) x x |x| := (Within.exact x).mono le_rfl (F.qpow_ge n) le_rfl

theorem mul_fl {n k : ℕ} {y x X y' x' X' : ℝ} (h : Within (F.q ^ n) y x X) (h' : Within (F.q ^ k) y' x' X') :
    Within (F.q ^ (n + k + 1)) (F.fl (y * y')) (x * x') (X * X') := by
  have := fl_within (F := F) (h.mul (F.qpow_ge n) h')
  rwa [← pow_add, ← pow_succ] at this

theorem den_error (y x r : ℝ) (n : ℕ) (hn : n ≤ 3) (h : Within (F.q ^ n) y x r) (hx : x = r) (hr : r < 1) :
    |F.fl (1 - y) - (1 - x)| ≤ denErr F.u r * (1 - x) := by
  have h1 := exact_within (F := F) 1 n
  have h2 := fl_within (F := F) (h1.sub h)
  rw [← pow_succ, abs_one] at h2
  have h3 := (h2.mono (F.qpow_ge _) (F.qpow_mono (show n + 1 ≤ 4 by omega)) le_rfl).2
  have : denErr F.u r * (1 - x) = (F.q ^ 4 - 1) * (1 + r) := by
    rw [hx, denErr, q]
    have : (1 - r) ≠ 0 := by linarith
    field_simp
  rw [this]
  exact h3

theorem denErr_nonneg {r : ℝ} (hr0 : 0 ≤ r) (hr : r < 1) : 0 ≤ denErr F.u r := by
  unfold denErr
  apply mul_nonneg
  · have := F.qpow_ge 4; unfold q at this; linarith
  · exact div_nonneg (by linarith) (by linarith)

/-- Quotients by the computed denominator. -/
theorem entry_within (y x X d d' r : ℝ) (n : ℕ) (hn : n ≤ 1) (h : Within (F.q ^ n) y x X) (hr0 : 0 ≤ r) (hr : r < 1) (hd : 0 < d)
    (he : denErr F.u r < 1) (hdd : |d' - d| ≤ denErr F.u r * d) : Within (matGrowth F.u r) (F.fl (y / d')) (x / d) (X / d) := by
  have h1 := fl_within (F := F) (h.div (F.qpow_ge n) hd (denErr_nonneg hr0 hr) he hdd)
  have hpos : 0 < 1 - denErr F.u r := by linarith
  refine h1.mono ?_ ?_ le_rfl
  · refine one_le_mul_of_one_le_of_one_le (one_le_mul_of_one_le_of_one_le (F.qpow_ge n) ?_) F.q_ge
    rw [le_div_iff₀ hpos]; linarith [denErr_nonneg (F := F) hr0 hr]
  · have : matGrowth F.u r = F.q * (1 / (1 - denErr F.u r)) * F.q := by rw [matGrowth, q]; ring
    rw [this]
    have h2 : F.q ^ n ≤ F.q := by simpa using F.qpow_mono hn
    exact mul_le_mul_of_nonneg_right (mul_le_mul_of_nonneg_right h2 (by positivity)) F.q_pos.le

theorem matGrowth_ge {r : ℝ} (hr0 : 0 ≤ r) (hr : r < 1) (he : denErr F.u r < 1) : 1 ≤ matGrowth F.u r := by
  have hpos : 0 < 1 - denErr F.u r := by linarith
  rw [matGrowth, le_div_iff₀ hpos]
  have := F.qpow_ge 2
  unfold q at this
  linarith [denErr_nonneg (F := F) hr0 hr]

end FloatArith

theorem den_ne {d d' e : ℝ} (hd : 0 < d) (he1 : e < 1) (hdd : |d' - d| ≤ e * d) : d' ≠ 0 := by
  have h1 := abs_le.mp hdd
  have : 0 < d * (1 - e) := mul_pos hd (by linarith)
  intro h; rw [h] at h1; nlinarith

/-- **C111** computed `Q_0`: readable, exactly symmetric, and every entry has a small relative error. -/
theorem C111_Q0 (F : FloatArith) (m : Mat) (hr0 : 0 ≤ poissonProduct m) (hr : poissonProduct m < 1) (he : denErr F.u (poissonProduct m) < 1) :
    ∃ Q Q', m.Q0 = .ok Q ∧ F.Q0 m = .ok Q' ∧ Q'.IsSymm ∧ ∀ i j, |Q' i j - Q i j| ≤ (matGrowth F.u (poissonProduct m) - 1) * |Q i j| := by
  have hg := FloatArith.matGrowth_ge (F := F) hr0 hr he
  cases m with
  | ortho m =>
    simp only [poissonProduct] at hr0 hr he hg ⊢
    set r := m.v12 ^ 2 * (m.e2 / m.e1) with hrd
    have hv : m.v12 * m.v21 = r := by rw [OrthoMat.v21, hrd]; ring
    have hd : 0 < 1 - m.v12 * m.v21 := by rw [hv]; linarith
    have h1 : Within (F.q ^ 3) (F.fl (m.v12 * F.v21 m)) (m.v12 * m.v21) r := by
      have a1 := FloatArith.fl_within (F := F) (Within.exact (m.e2 / m.e1))
      rw [one_mul, ← pow_one F.q] at a1
      have a2 := FloatArith.mul_fl (FloatArith.exact_within (F := F) m.v12 0) a1
      have a3 := FloatArith.mul_fl (FloatArith.exact_within (F := F) m.v12 0) a2
      have e : |m.v12| * (|m.v12| * |m.e2 / m.e1|) = r := by
        rw [← abs_mul, ← abs_mul, show m.v12 * (m.v12 * (m.e2 / m.e1)) = r by rw [hrd]; ring]
        exact abs_of_nonneg hr0
      rw [e] at a3
      exact a3
    have hdd : |F.orthoDen m - (1 - m.v12 * m.v21)| ≤ denErr F.u r * (1 - m.v12 * m.v21) :=
      FloatArith.den_error _ _ r 3 le_rfl h1 hv hr
    have hd' := den_ne hd he hdd
    refine ⟨_, _, by simp only [Mat.Q0, OrthoMat.Q0, pyDiv, if_neg hd.ne', ok_bind, pure_eq_ok]; rfl,
      by simp only [FloatArith.Q0, FloatArith.orthoQ0, pyDiv, if_neg hd', ok_bind, pure_eq_ok]; rfl, ?_, ?_⟩
    · ext i j; fin_cases i <;> fin_cases j <;> rfl
    · have k1 := FloatArith.entry_within (F := F) _ _ _ _ _ r 0 (by omega) (FloatArith.exact_within m.e1 0) hr0 hr hd he hdd
      have k2 := FloatArith.entry_within (F := F) _ _ _ _ _ r 1 le_rfl (FloatArith.mul_fl (FloatArith.exact_within (F := F) m.v12 0) (FloatArith.exact_within m.e2 0)) hr0 hr hd he hdd
      have k3 := FloatArith.entry_within (F := F) _ _ _ _ _ r 0 (by omega) (FloatArith.exact_within m.e2 0) hr0 hr hd he hdd
      have ee : ∀ a b : ℝ, 0 < b → |a / b| = |a| / b := fun a b hb => by rw [abs_div, abs_of_pos hb]
      intro i j
      fin_cases i <;> fin_cases j <;> simp [ee _ _ hd, abs_mul]
      · exact k1.2
      · exact k2.2
      · exact k2.2
      · exact k3.2
      · exact mul_nonneg (by linarith) (abs_nonneg _)
  | iso m =>
    simp only [poissonProduct] at hr0 hr he hg ⊢
    set r := m.v ^ 2 with hrd
    have hv : m.v * m.v = r := by rw [hrd]; ring
    have hd : 0 < 1 - m.v * m.v := by rw [hv]; linarith
    have h1 : Within (F.q ^ 1) (F.fl (m.v * m.v)) (m.v * m.v) r := by
      have a2 := FloatArith.mul_fl (FloatArith.exact_within (F := F) m.v 0) (FloatArith.exact_within (F := F) m.v 0)
      have e : |m.v| * |m.v| = r := by rw [abs_mul_abs_self, hv]
      rw [e] at a2
      exact a2
    have hdd : |F.isoDen m - (1 - m.v * m.v)| ≤ denErr F.u r * (1 - m.v * m.v) :=
      FloatArith.den_error _ _ r 1 (by omega) h1 hv hr
    have hd' := den_ne hd he hdd
    refine ⟨_, _, by simp only [Mat.Q0, IsoMat.Q0, pyDiv, if_neg hd.ne', ok_bind, pure_eq_ok]; rfl,
      by simp only [FloatArith.Q0, FloatArith.isoQ0, pyDiv, if_neg hd', ok_bind, pure_eq_ok]; rfl, ?_, ?_⟩
    · ext i j; fin_cases i <;> fin_cases j <;> rfl
    · have k1 := FloatArith.entry_within (F := F) _ _ _ _ _ r 0 (by omega) (FloatArith.exact_within m.e 0) hr0 hr hd he hdd
      have k2 := FloatArith.entry_within (F := F) _ _ _ _ _ r 1 le_rfl (FloatArith.mul_fl (FloatArith.exact_within (F := F) m.v 0) (FloatArith.exact_within m.e 0)) hr0 hr hd he hdd
      have ee : ∀ a b : ℝ, 0 < b → |a / b| = |a| / b := fun a b hb => by rw [abs_div, abs_of_pos hb]
      intro i j
      fin_cases i <;> fin_cases j <;> simp [ee _ _ hd, abs_mul]
      · exact k1.2
      · exact k2.2
      · exact k2.2
      · exact k1.2
      · exact mul_nonneg (by linarith) (abs_nonneg _)

/-! ## Rotated stiffness -/

namespace FloatLib
variable {F : FloatLib}

theorem rad_within (t a : ℝ) (ha : |t * Real.pi / 180| ≤ a) : Within (F.q ^ 3) (F.rad t) (t * Real.pi / 180) a := by
  have h1 : Within (F.q ^ 1) (F.fl Real.pi) Real.pi |Real.pi| := by
    have := FloatArith.fl_within (F := F.toFloatArith) (Within.exact Real.pi)
    rwa [one_mul, ← pow_one F.q] at this
  have h2 := FloatArith.mul_fl (FloatArith.exact_within (F := F.toFloatArith) t 0) h1
  have h3 := FloatArith.mul_fl h2 (FloatArith.exact_within (F := F.toFloatArith) (1 / 180) 0)
  rw [← abs_mul, ← abs_mul, mul_one_div, mul_one_div] at h3
  exact h3.mono (F.qpow_ge _) (F.qpow_mono (by omega)) ha

theorem trigGrowth_ge {a : ℝ} (ha : 0 ≤ a) : 1 ≤ trigGrowth F.u a := by
  have h3 := F.qpow_ge 3
  unfold FloatArith.q at h3
  unfold trigGrowth
  have := mul_nonneg (sub_nonneg.mpr h3) ha
  linarith [F.u_nonneg]

theorem trig_within (f f' : ℝ → ℝ) (hf : ∀ x, |f' x - f x| ≤ F.u * |f x|) (hl : ∀ x y, |f x - f y| ≤ |x - y|) (h1 : ∀ x, |f x| ≤ 1)
    (t a : ℝ) (ha : |t * Real.pi / 180| ≤ a) : Within (trigGrowth F.u a) (f' (F.rad t)) (f (t * Real.pi / 180)) 1 := by
  refine ⟨h1 _, ?_⟩
  have h2 := (rad_within (F := F) t a ha).2
  have e : f' (F.rad t) - f (t * Real.pi / 180) = (f' (F.rad t) - f (F.rad t)) + (f (F.rad t) - f (t * Real.pi / 180)) := by ring
  rw [e]
  refine (abs_add_le _ _).trans ?_
  have h3 := (hf (F.rad t)).trans (mul_le_mul_of_nonneg_left (h1 _) F.u_nonneg)
  have h4 := (hl (F.rad t) (t * Real.pi / 180)).trans h2
  unfold trigGrowth FloatArith.q at *
  linarith

theorem cos_within (t a : ℝ) (ha : |t * Real.pi / 180| ≤ a) : Within (trigGrowth F.u a) (F.cos (F.rad t)) (cosd t) 1 :=
  trig_within Real.cos F.cos F.nearCos Real.abs_cos_sub_cos_le Real.abs_cos_le_one t a ha

theorem sin_within (t a : ℝ) (ha : |t * Real.pi / 180| ≤ a) : Within (trigGrowth F.u a) (F.sin (F.rad t)) (sind t) 1 :=
  trig_within Real.sin F.sin F.nearSin Real.abs_sin_sub_sin_le Real.abs_sin_le_one t a ha

/-- The entries of both rotation matrices are within `trigGrowth^2 (1+u)^2`. -/
theorem T_within (t a : ℝ) (ha : |t * Real.pi / 180| ≤ a) (i j : Fin 3) :
    Within (trigGrowth F.u a ^ 2 * F.q ^ 2) (F.Teng t i j) (Composipy.Teng t i j) 2 ∧
    Within (trigGrowth F.u a ^ 2 * F.q ^ 2) (F.Treal t i j) (Composipy.Treal t i j) 2 := by
  have ha0 : 0 ≤ a := (abs_nonneg _).trans ha
  set g := trigGrowth F.u a with hg
  have g1 : 1 ≤ g := trigGrowth_ge ha0
  have g2 : 1 ≤ g ^ 2 := one_le_pow₀ g1
  have q1 := F.q_ge
  have q12 : F.q ≤ F.q ^ 2 := by simpa using F.qpow_mono (show 1 ≤ 2 by omega)
  have hc := cos_within (F := F) t a ha
  have hs := sin_within (F := F) t a ha
  rw [← hg] at hc hs
  have up : ∀ {y x X : ℝ}, Within (g ^ 2 * F.q) y x X → X ≤ 2 → Within (g ^ 2 * F.q ^ 2) y x 2 := fun h hX =>
    h.mono (one_le_mul_of_one_le_of_one_le g2 q1) (mul_le_mul_of_nonneg_left q12 (by positivity)) hX
  have cc : Within (g ^ 2 * F.q ^ 2) (F.pw (F.cos (F.rad t)) 2) (cosd t ^ 2) 2 :=
    up (by simpa using FloatArith.pw_within (F := F.toFloatArith) g1 hc 2) (by norm_num)
  have ss : Within (g ^ 2 * F.q ^ 2) (F.pw (F.sin (F.rad t)) 2) (sind t ^ 2) 2 :=
    up (by simpa using FloatArith.pw_within (F := F.toFloatArith) g1 hs 2) (by norm_num)
  have cs : Within (g ^ 2 * F.q ^ 2) (F.fl (F.cos (F.rad t) * F.sin (F.rad t))) (cosd t * sind t) 2 := by
    apply up _ (show (1 : ℝ) * 1 ≤ 2 by norm_num)
    rw [sq]
    exact FloatArith.fl_within (F := F.toFloatArith) (hc.mul g1 hs)
  have ncs : Within (g ^ 2 * F.q ^ 2) (F.fl (-F.cos (F.rad t) * F.sin (F.rad t))) (-cosd t * sind t) 2 := by
    apply up _ (show (1 : ℝ) * 1 ≤ 2 by norm_num)
    rw [sq]
    exact FloatArith.fl_within (F := F.toFloatArith) (hc.neg.mul g1 hs)
  have two : ∀ k : ℝ, |k| = 2 → Within (g ^ 2 * F.q ^ 2) (F.fl (F.fl (k * F.cos (F.rad t)) * F.sin (F.rad t))) (k * cosd t * sind t) 2 := by
    intro k hk
    have h1 := FloatArith.fl_within (F := F.toFloatArith) ((Within.exact k).mul le_rfl hc)
    have h2 := FloatArith.fl_within (F := F.toFloatArith) (h1.mul (one_le_mul_of_one_le_of_one_le (by linarith) q1) hs)
    rw [hk] at h2
    convert h2 using 1 <;> ring
  have dd : Within (g ^ 2 * F.q ^ 2) (F.fl (F.pw (F.cos (F.rad t)) 2 - F.pw (F.sin (F.rad t)) 2)) (cosd t ^ 2 - sind t ^ 2) 2 := by
    have h1 := FloatArith.pw_within (F := F.toFloatArith) g1 hc 2
    have h2 := FloatArith.pw_within (F := F.toFloatArith) g1 hs 2
    have h3 := FloatArith.fl_within (F := F.toFloatArith) (h1.sub h2)
    convert h3 using 1 <;> ring
  have t2 := two 2 (by norm_num)
  have t2' := two (-2) (by norm_num)
  constructor
  · fin_cases i <;> fin_cases j <;> simp [FloatLib.Teng, Composipy.Teng] <;> first | exact cc | exact ss | (simpa using cs) | (simpa using ncs) | (simpa using t2) | (simpa using t2') | (simpa using dd)
  · fin_cases i <;> fin_cases j <;> simp [FloatLib.Treal, Composipy.Treal] <;> first | exact cc | exact ss | (simpa using cs) | (simpa using ncs) | (simpa using t2) | (simpa using t2') | (simpa using dd)

theorem mm_within {g g' : ℝ} (hg : 1 ≤ g) {A' A X B' B Y : M3} (hA : ∀ i j, Within g (A' i j) (A i j) (X i j))
    (hB : ∀ i j, Within g' (B' i j) (B i j) (Y i j)) (i j : Fin 3) :
    Within (g * g' * F.q ^ 3) (F.mm A' B' i j) ((A * B) i j) ((X * Y) i j) := by
  have h1 : Within (g * g') ((A' * B') i j) ((A * B) i j) ((X * Y) i j) := by
    simp only [Matrix.mul_apply, Fin.sum_univ_three]
    exact (((hA i 0).mul hg (hB 0 j)).add ((hA i 1).mul hg (hB 1 j))).add ((hA i 2).mul hg (hB 2 j))
  have h2 : ∑ k, |A' i k| * |B' k j| ≤ g * g' * (X * Y) i j := by
    rw [Matrix.mul_apply, Finset.mul_sum]
    apply Finset.sum_le_sum
    intro k _
    have := mul_le_mul (hA i k).size (hB k j).size (abs_nonneg _) (mul_nonneg (by linarith) (hA i k).nonneg)
    calc _ ≤ _ := this
      _ = _ := by ring
  refine ⟨h1.1, ?_⟩
  have h3 := F.nearMm A' B' i j
  have q3 : 1 ≤ (1 + F.u) ^ 3 := F.qpow_ge 3
  have e : F.mm A' B' i j - (A * B) i j = (F.mm A' B' i j - (A' * B') i j) + ((A' * B') i j - (A * B) i j) := by ring
  rw [e]
  refine (abs_add_le _ _).trans ?_
  have h4 : ((1 + F.u) ^ 3 - 1) * ∑ k, |A' i k| * |B' k j| ≤ (F.q ^ 3 - 1) * (g * g' * (X * Y) i j) :=
    mul_le_mul_of_nonneg_left h2 (by linarith)
  calc _ ≤ (F.q ^ 3 - 1) * (g * g' * (X * Y) i j) + (g * g' - 1) * (X * Y) i j := add_le_add (h3.trans h4) h1.2
    _ = _ := by ring

end FloatLib

/-- What is assumed about a ply and about `np.linalg.inv`: the product of the Poisson ratios is below 1 by more than the rounding error, the angle is at most
`a` radians, and the computed inverse of the computed rotation matrix is within `2 (gI-1)` of the inverse of the exact one. -/
structure Spec.PlyOk (F : FloatLib) (r a gI : ℝ) (p : ℝ × Mat) : Prop where
  ratio0 : 0 ≤ poissonProduct p.2
  ratio : poissonProduct p.2 ≤ r
  angle : |p.1 * Real.pi / 180| ≤ a
  inverse : ∃ R, F.inv (F.Treal p.1) = .ok R ∧ ∀ i j, |R i j - (Treal p.1)⁻¹ i j| ≤ (gI - 1) * 2

theorem denErr_mono {u r r' : ℝ} (hu : 0 ≤ u) (h : r ≤ r') (h1 : r' < 1) : denErr u r ≤ denErr u r' := by
  unfold denErr
  apply mul_le_mul_of_nonneg_left
  · rw [div_le_div_iff₀ (by linarith) (by linarith)]; nlinarith
  · have : 1 ≤ (1 + u) ^ 4 := one_le_pow₀ (by linarith)
    linarith

theorem matGrowth_mono {u r r' : ℝ} (hu : 0 ≤ u) (h : r ≤ r') (h1 : r' < 1) (he : denErr u r' < 1) : matGrowth u r ≤ matGrowth u r' := by
  unfold matGrowth
  have := denErr_mono hu h h1
  apply div_le_div_of_nonneg_left (by positivity) (by linarith) (by linarith)

/-- **C111** computed rotated stiffness of a ply: every entry is within a small fraction of the sum of the entries of `Q_0`. -/
theorem C111_ply (F : FloatLib) (r a gI : ℝ) (hr : r < 1) (he : denErr F.u r < 1) (hI : 1 ≤ gI) (p : ℝ × Mat) (hp : PlyOk F r a gI p) :
    ∃ Q0 Q Q', p.2.Q0 = .ok Q0 ∧ plyQ p = .ok Q ∧ F.plyQ p = .ok Q' ∧
      ∀ i j, |Q i j| ≤ 4 * entrySum Q0 ∧ |Q' i j - Q i j| ≤ (plyGrowth F.u r a gI - 1) * (4 * entrySum Q0) := by
  have hr0 := hp.ratio0
  have hrr := lt_of_le_of_lt hp.ratio hr
  have hed := lt_of_le_of_lt (denErr_mono F.u_nonneg hp.ratio hr) he
  obtain ⟨Q0, Q0', h0, h0', -, hQ⟩ := C111_Q0 F.toFloatArith p.2 hr0 hrr hed
  obtain ⟨R, hR, hR'⟩ := hp.inverse
  have hnp : npInv (Treal p.1) = .ok (Treal p.1)⁻¹ := by rw [npInv, if_neg (Treal_det_ne p.1)]
  refine ⟨Q0, (Treal p.1)⁻¹ * Q0 * Teng p.1, F.mm (F.mm R Q0') (F.Teng p.1), h0, ?_, ?_, ?_⟩
  · simp only [plyQ, hnp, h0, ok_bind, pure_eq_ok]
  · simp only [FloatLib.plyQ, hR, h0', ok_bind, pure_eq_ok]
  have hg1 := FloatArith.matGrowth_ge (F := F.toFloatArith) hr0 hrr hed
  have hg2 := matGrowth_mono F.u_nonneg hp.ratio hr he
  have wR : ∀ i j, Within gI (R i j) ((Treal p.1)⁻¹ i j) ((Matrix.of fun _ _ => (2 : ℝ)) i j) := fun i j =>
    ⟨by rw [Treal_inv]; exact (FloatLib.T_within (F := F) p.1 a hp.angle j i).1.1, hR' i j⟩
  have wQ : ∀ i j, Within (matGrowth F.u r) (Q0' i j) (Q0 i j) ((Matrix.of fun k l => |Q0 k l|) i j) := fun i j =>
    Within.mono ⟨le_rfl, hQ i j⟩ hg1 hg2 le_rfl
  have wT : ∀ i j, Within (trigGrowth F.u a ^ 2 * F.q ^ 2) (F.Teng p.1 i j) (Teng p.1 i j) ((Matrix.of fun _ _ => (2 : ℝ)) i j) := fun i j =>
    (FloatLib.T_within (F := F) p.1 a hp.angle i j).1
  have hgm : 1 ≤ matGrowth F.u r := hg1.trans hg2
  have w1 := FloatLib.mm_within (F := F) hI wR wQ
  have w2 := FloatLib.mm_within (F := F) (one_le_mul_of_one_le_of_one_le (one_le_mul_of_one_le_of_one_le hI hgm) (F.qpow_ge 3)) w1 wT
  intro i j
  have h := w2 i j
  have eg : gI * matGrowth F.u r * F.q ^ 3 * (trigGrowth F.u a ^ 2 * F.q ^ 2) * F.q ^ 3 = plyGrowth F.u r a gI := by
    unfold plyGrowth FloatArith.q; ring
  have eX : ((Matrix.of fun _ _ => (2 : ℝ)) * (Matrix.of fun k l => |Q0 k l|) * (Matrix.of fun _ _ => (2 : ℝ)) : M3) i j = 4 * entrySum Q0 := by
    simp only [Matrix.mul_apply, Matrix.of_apply, entrySum, Fin.sum_univ_three]; ring
  rw [eg, eX] at h
  exact h

theorem plyGrowth_ge (F : FloatLib) {r a gI : ℝ} (hr0 : 0 ≤ r) (hr : r < 1) (he : denErr F.u r < 1) (ha : 0 ≤ a) (hI : 1 ≤ gI) :
    1 ≤ plyGrowth F.u r a gI := by
  have h6 := F.qpow_ge 6
  have h2 := F.qpow_ge 2
  unfold plyGrowth
  exact one_le_mul_of_one_le_of_one_le (one_le_mul_of_one_le_of_one_le (one_le_mul_of_one_le_of_one_le hI
    (FloatArith.matGrowth_ge (F := F.toFloatArith) hr0 hr he)) (one_le_mul_of_one_le_of_one_le (one_le_pow₀ (FloatLib.trigGrowth_ge (F := F) ha)) h2)) h6

theorem computed_plies (F : FloatLib) (r a gI S : ℝ) (hr : r < 1) (he : denErr F.u r < 1) (hI : 1 ≤ gI) (hg : 1 ≤ plyGrowth F.u r a gI)
    (L : List (ℝ × Mat)) (hp : ∀ p ∈ L, PlyOk F r a gI p) (hS : ∀ p ∈ L, ∀ Q, p.2.Q0 = .ok Q → entrySum Q ≤ S) :
    ∃ Qs Qf, L.mapM plyQ = .ok Qs ∧ F.Qlayup L = .ok Qf ∧ Computed (plyGrowth F.u r a gI) (Matrix.of fun _ _ => 4 * S) Qf Qs := by
  induction L with
  | nil => exact ⟨[], [], rfl, rfl, List.Forall₂.nil⟩
  | cons p L ih =>
    obtain ⟨Qs, Qf, h1, h2, h3⟩ := ih (fun p h => hp p (by simp [h])) (fun p h => hS p (by simp [h]))
    obtain ⟨Q0, Q, Q', k0, k1, k2, k3⟩ := C111_ply F r a gI hr he hI p (hp p (by simp))
    refine ⟨Q :: Qs, Q' :: Qf, ?_, ?_, List.Forall₂.cons ?_ h3⟩
    · simp [List.mapM_cons, k1, h1]
    · rw [FloatLib.Qlayup] at h2 ⊢
      simp [List.mapM_cons, k2, h2]
    · intro i j
      exact Within.mono ⟨(k3 i j).1, (k3 i j).2⟩ hg le_rfl (by
        have := hS p (by simp) Q0 k0
        simp only [Matrix.of_apply]; linarith)

/-- **C111** `A`, `B` and `D` of a stack computed from the material constants and the angles. -/
theorem C111_stack (F : FloatLib) (r a gI S : ℝ) (hr0 : 0 ≤ r) (hr : r < 1) (he : denErr F.u r < 1) (ha : 0 ≤ a) (hI : 1 ≤ gI) (l : Lam) (hs : IsStack l)
    (ht : NonnegThick l.layup) (hp : ∀ p ∈ l.layup, PlyOk F r a gI p) (hS : ∀ p ∈ l.layup, ∀ Q, p.2.Q0 = .ok Q → entrySum Q ≤ S) :
    ∃ A A' B B' D D', l.A = .ok A ∧ l.B = .ok B ∧ l.D = .ok D ∧
      F.stiffness l.layup F.wA = .ok A' ∧ F.stiffness l.layup F.wB = .ok B' ∧ F.stiffness l.layup F.wD = .ok D' ∧ ∀ i j,
      |A' i j - A i j| ≤ (plyGrowth F.u r a gI * (1 + F.u) ^ (3 * l.layup.length + 3) - 1) * (height l.layup * (l.layup.length * (4 * S))) ∧
      |B' i j - B i j| ≤ (plyGrowth F.u r a gI * (1 + F.u) ^ (5 * l.layup.length + 7) - 1) * (height l.layup ^ 2 / 4 * (l.layup.length * (4 * S))) ∧
      |D' i j - D i j| ≤ (plyGrowth F.u r a gI * (1 + F.u) ^ (7 * l.layup.length + 8) - 1) * (height l.layup ^ 3 / 12 * (l.layup.length * (4 * S))) := by
  have hg := plyGrowth_ge F hr0 hr he ha hI
  obtain ⟨Qs, Qf, h1, h2, h3⟩ := computed_plies F r a gI S hr he hI hg l.layup hp hS
  obtain ⟨A, A', a1, a2, a3⟩ := C110_A F.toFloatArith l hs ht Qs Qf h1 _ _ hg h3
  obtain ⟨B, B', b1, b2, b3⟩ := C110_B F.toFloatArith l ht Qs Qf h1 _ _ hg h3
  obtain ⟨D, D', d1, d2, d3⟩ := C110_D F.toFloatArith l hs ht Qs Qf h1 _ _ hg h3
  refine ⟨A, A', B, B', D, D', a1, b1, d1, ?_, ?_, ?_, fun i j => ⟨a3 i j, b3 i j, d3 i j⟩⟩ <;>
    simp only [FloatLib.stiffness, h2, ok_bind] <;> assumption

/-! ## Invariants and lamination parameters -/

namespace FloatArith
variable {F : FloatArith}

theorem gq_ge {g : ℝ} (hg : 1 ≤ g) (n : ℕ) : 1 ≤ g * F.q ^ n := one_le_mul_of_one_le_of_one_le hg (F.qpow_ge n)

theorem up {g : ℝ} (hg : 1 ≤ g) {n k : ℕ} (h : n ≤ k) {y x X : ℝ} (hw : Within (g * F.q ^ n) y x X) : Within (g * F.q ^ k) y x X :=
  hw.mono (gq_ge hg n) (mul_le_mul_of_nonneg_left (F.qpow_mono h) (by linarith)) le_rfl

/-- A rounded sum. -/
theorem add_fl {g : ℝ} (hg : 1 ≤ g) {n k m : ℕ} (hn : n ≤ m) (hk : k ≤ m) {y x X y' x' X' : ℝ} (h : Within (g * F.q ^ n) y x X)
    (h' : Within (g * F.q ^ k) y' x' X') : Within (g * F.q ^ (m + 1)) (F.fl (y + y')) (x + x') (X + X') := by
  have := fl_within (F := F) ((up hg hn h).add (up hg hk h'))
  rwa [mul_assoc, ← pow_succ] at this

/-- A rounded difference. -/
theorem sub_fl {g : ℝ} (hg : 1 ≤ g) {n k m : ℕ} (hn : n ≤ m) (hk : k ≤ m) {y x X y' x' X' : ℝ} (h : Within (g * F.q ^ n) y x X)
    (h' : Within (g * F.q ^ k) y' x' X') : Within (g * F.q ^ (m + 1)) (F.fl (y - y')) (x - x') (X + X') := by
  have := fl_within (F := F) ((up hg hn h).sub (up hg hk h'))
  rwa [mul_assoc, ← pow_succ] at this

/-- A rounded product with a number of `k` roundings. -/
theorem scale_fl {g : ℝ} {n k : ℕ} {c' c C y x X : ℝ} (hc : Within (F.q ^ k) c' c C) (h : Within (g * F.q ^ n) y x X) :
    Within (g * F.q ^ (k + n + 1)) (F.fl (c' * y)) (c * x) (C * X) := by
  have := fl_within (F := F) (hc.mul (F.qpow_ge k) h)
  rwa [show F.q ^ k * (g * F.q ^ n) * F.q = g * F.q ^ (k + n + 1) by ring] at this

theorem const_fl (c : ℝ) (hc : 0 < c) : Within (F.q ^ 1) (F.fl c) c c := by
  rw [pow_one]; exact half_within c hc

theorem const (c : ℝ) (hc : 0 < c) : Within (F.q ^ 0) c c c := by
  have := exact_within (F := F) c 0
  rwa [abs_of_pos hc] at this

end FloatArith

open FloatArith in
/-- **C111** computed invariants. -/
theorem C111_invariants (F : FloatArith) (g : ℝ) (hg : 1 ≤ g) (Q' Q X : M3) (hQ : ∀ i j, Within g (Q' i j) (Q i j) (X i j)) :
    Within (g * (1 + F.u) ^ 6) (F.invariantsOf Q').U1 (invariantsOf Q).U1 (1/8 * (3 * X 0 0 + 3 * X 1 1 + 2 * X 0 1 + 4 * X 2 2)) ∧
    Within (g * (1 + F.u) ^ 6) (F.invariantsOf Q').U2 (invariantsOf Q).U2 (1/2 * (X 0 0 + X 1 1)) ∧
    Within (g * (1 + F.u) ^ 6) (F.invariantsOf Q').U3 (invariantsOf Q).U3 (1/8 * (X 0 0 + X 1 1 + 2 * X 0 1 + 4 * X 2 2)) ∧
    Within (g * (1 + F.u) ^ 6) (F.invariantsOf Q').U4 (invariantsOf Q).U4 (1/8 * (X 0 0 + X 1 1 + 6 * X 0 1 + 4 * X 2 2)) ∧
    Within (g * (1 + F.u) ^ 6) (F.invariantsOf Q').U5 (invariantsOf Q).U5 (1/8 * (X 0 0 + X 1 1 + 2 * X 0 1 + 4 * X 2 2)) := by
  have hQ0 : ∀ i j, Within (g * F.q ^ 0) (Q' i j) (Q i j) (X i j) := fun i j => by simpa using hQ i j
  have hq : (1 + F.u) = F.q := rfl
  have k : ∀ (c : ℝ), 0 < c → ∀ i j, Within (g * F.q ^ 1) (F.fl (c * Q' i j)) (c * Q i j) (c * X i j) := fun c hc i j =>
    scale_fl (const c hc) (hQ0 i j)
  have h8 := const_fl (F := F) (1/8) (by norm_num)
  have h2 := const_fl (F := F) (1/2) (by norm_num)
  have s := add_fl hg le_rfl le_rfl (hQ0 0 0) (hQ0 1 1)
  rw [hq]
  refine ⟨?_, ?_, ?_, ?_, ?_⟩
  · have a1 := add_fl hg le_rfl le_rfl (k 3 (by norm_num) 0 0) (k 3 (by norm_num) 1 1)
    have a2 := add_fl hg (m := 2) le_rfl (by omega) a1 (k 2 (by norm_num) 0 1)
    have a3 := add_fl hg (m := 3) le_rfl (by omega) a2 (k 4 (by norm_num) 2 2)
    exact up hg (by omega) (scale_fl h8 a3)
  · exact up hg (by omega) (scale_fl h2 (sub_fl hg le_rfl le_rfl (hQ0 0 0) (hQ0 1 1)))
  · have a2 := sub_fl hg (m := 1) le_rfl (by omega) s (k 2 (by norm_num) 0 1)
    have a3 := sub_fl hg (m := 2) le_rfl (by omega) a2 (k 4 (by norm_num) 2 2)
    exact up hg (by omega) (scale_fl h8 a3)
  · have a2 := add_fl hg (m := 1) le_rfl (by omega) s (k 6 (by norm_num) 0 1)
    have a3 := sub_fl hg (m := 2) le_rfl (by omega) a2 (k 4 (by norm_num) 2 2)
    exact up hg (by omega) (scale_fl h8 a3)
  · have a2 := sub_fl hg (m := 1) le_rfl (by omega) s (k 2 (by norm_num) 0 1)
    have a3 := add_fl hg (m := 2) le_rfl (by omega) a2 (k 4 (by norm_num) 2 2)
    exact up hg (by omega) (scale_fl h8 a3)

namespace FloatArith
variable {F : FloatArith}

/-- A rounded product with an exact number from the right. -/
theorem scale_fl' {g : ℝ} {n : ℕ} {y x X : ℝ} (h : Within (g * F.q ^ n) y x X) (c C : ℝ) (hc : |c| ≤ C) :
    Within (g * F.q ^ (n + 1)) (F.fl (y * c)) (x * c) (X * C) := by
  have h1 : Within (F.q ^ 0) c c C := (exact_within (F := F) c 0).mono (F.qpow_ge 0) le_rfl hc
  have := scale_fl (F := F) h1 h
  rw [mul_comm c y, mul_comm c x, mul_comm C X] at this
  rwa [zero_add] at this

end FloatArith

/-- The sizes of the invariants are at most half the sum of the entries. -/
theorem invariant_sizes (X : M3) (h : ∀ i j, 0 ≤ X i j) (hs : X 1 0 = X 0 1) :
    let S := ∑ k, ∑ l, X k l
    1/8 * (3 * X 0 0 + 3 * X 1 1 + 2 * X 0 1 + 4 * X 2 2) ≤ S / 2 ∧ 1/2 * (X 0 0 + X 1 1) ≤ S / 2 ∧
    1/8 * (X 0 0 + X 1 1 + 2 * X 0 1 + 4 * X 2 2) ≤ S / 2 ∧ 1/8 * (X 0 0 + X 1 1 + 6 * X 0 1 + 4 * X 2 2) ≤ S / 2 := by
  simp only [Fin.sum_univ_three]
  have h00 := h 0 0
  have h01 := h 0 1
  have h02 := h 0 2
  have h11 := h 1 1
  have h12 := h 1 2
  have h20 := h 2 0
  have h21 := h 2 1
  have h22 := h 2 2
  refine ⟨?_, ?_, ?_, ?_⟩ <;> linarith

open FloatArith in
theorem bracket_within (F : FloatArith) (g : ℝ) (hg : 1 ≤ g) (n : ℕ) (U' U : Invariants) (S xi1 xi2 xi3 xi4 : ℝ) (hS : 0 ≤ S)
    (h1 : Within (g * F.q ^ n) U'.U1 U.U1 S) (h2 : Within (g * F.q ^ n) U'.U2 U.U2 S) (h3 : Within (g * F.q ^ n) U'.U3 U.U3 S)
    (h4 : Within (g * F.q ^ n) U'.U4 U.U4 S) (h5 : Within (g * F.q ^ n) U'.U5 U.U5 S)
    (b1 : |xi1| ≤ 1) (b2 : |xi2| ≤ 1) (b3 : |xi3| ≤ 1) (b4 : |xi4| ≤ 1) (i j : Fin 3) :
    Within (g * F.q ^ (n + 3)) (F.lpBracket U' xi1 xi2 xi3 xi4 i j)
      ((!![U.U1 + U.U2*xi1 + U.U3*xi3, -U.U3*xi3 + U.U4, U.U2*xi2/2 + U.U3*xi4;
        -U.U3*xi3 + U.U4, U.U1 - U.U2*xi1 + U.U3*xi3, U.U2*xi2/2 - U.U3*xi4;
        U.U2*xi2/2 + U.U3*xi4, U.U2*xi2/2 - U.U3*xi4, -U.U3*xi3 + U.U5] : M3) i j) (3 * S) := by
  have fin : ∀ {m : ℕ} {y x X : ℝ}, m ≤ n + 3 → X ≤ 3 * S → Within (g * F.q ^ m) y x X → Within (g * F.q ^ (n + 3)) y x (3 * S) :=
    fun hm hX h => (up hg hm h).mono (gq_ge hg _) le_rfl hX
  have a1 := scale_fl' h2 xi1 1 b1
  have a3 := scale_fl' h3 xi3 1 b3
  have n3 := scale_fl' h3.neg xi3 1 b3
  have a4 := scale_fl' h3 xi4 1 b4
  have a2 := scale_fl' (scale_fl' h2 xi2 1 b2) (1/2) (1/2) (by norm_num)
  have e11 := fin (by omega) (by linarith) (add_fl hg (m := n + 2) le_rfl (by omega) (add_fl hg (m := n + 1) (by omega) le_rfl h1 a1) a3)
  have e22 := fin (by omega) (by linarith) (add_fl hg (m := n + 2) le_rfl (by omega) (sub_fl hg (m := n + 1) (by omega) le_rfl h1 a1) a3)
  have e12 := fin (by omega) (by linarith) (add_fl hg (m := n + 1) le_rfl (by omega) n3 h4)
  have e33 := fin (by omega) (by linarith) (add_fl hg (m := n + 1) le_rfl (by omega) n3 h5)
  have e13 := fin (by omega) (by linarith) (add_fl hg (m := n + 2) (by omega) (by omega) a2 a4)
  have e23 := fin (by omega) (by linarith) (sub_fl hg (m := n + 2) (by omega) (by omega) a2 a4)
  rw [mul_one_div, mul_one_div] at e13 e23
  fin_cases i <;> fin_cases j <;> simp [lpBracket] <;> first
    | (simpa using e11) | (simpa using e12) | (simpa using e13) | (simpa using e22) | (simpa using e23) | (simpa using e33)

open FloatArith in
/-- **C111** `A` and `D` computed from lamination parameters: exactly symmetric, and every entry has a small error. -/
theorem C111_parameters (F : FloatArith) (m : OrthoMat ℝ) (xi1 xi2 xi3 xi4 T : ℝ) (hr0 : 0 ≤ poissonProduct (.ortho m)) (hr : poissonProduct (.ortho m) < 1)
    (he : denErr F.u (poissonProduct (.ortho m)) < 1) (b1 : |xi1| ≤ 1) (b2 : |xi2| ≤ 1) (b3 : |xi3| ≤ 1) (b4 : |xi4| ≤ 1) :
    ∃ Q Q' A D, m.Q0 = .ok Q ∧ F.orthoQ0 m = .ok Q' ∧
      lpA (.single (.ortho m)) (.vec [xi1, xi2, xi3, xi4]) (.num T) = .ok A ∧ lpD (.single (.ortho m)) (.vec [xi1, xi2, xi3, xi4]) (.num T) = .ok D ∧
      (F.lpA (F.invariantsOf Q') xi1 xi2 xi3 xi4 T).IsSymm ∧ (F.lpD (F.invariantsOf Q') xi1 xi2 xi3 xi4 T).IsSymm ∧ ∀ i j,
      |F.lpA (F.invariantsOf Q') xi1 xi2 xi3 xi4 T i j - A i j| ≤ (matGrowth F.u (poissonProduct (.ortho m)) * (1 + F.u) ^ 10 - 1) * (|T| * (3/2 * entrySum Q)) ∧
      |F.lpD (F.invariantsOf Q') xi1 xi2 xi3 xi4 T i j - D i j| ≤
        (matGrowth F.u (poissonProduct (.ortho m)) * (1 + F.u) ^ 12 - 1) * (|T| ^ 3 / 12 * (3/2 * entrySum Q)) := by
  obtain ⟨Q, Q', h, h', -, hQ⟩ := C111_Q0 F (.ortho m) hr0 hr he
  have h : m.Q0 = .ok Q := h
  have h' : F.orthoQ0 m = .ok Q' := h'
  set g := matGrowth F.u (poissonProduct (.ortho m)) with hgd
  have hg : 1 ≤ g := matGrowth_ge hr0 hr he
  have hsymm : Q 1 0 = Q 0 1 := by
    by_cases hd : 1 - m.v12 * m.v21 = 0
    · simp [OrthoMat.Q0, pyDiv, hd] at h
    · simp only [OrthoMat.Q0, pyDiv, if_neg hd, ok_bind, pure_eq_ok, Except.ok.injEq] at h
      rw [← h]; rfl
  set X : M3 := Matrix.of fun k l => |Q k l| with hX
  have hX0 : ∀ i j, 0 ≤ X i j := fun i j => abs_nonneg _
  obtain ⟨s1, s2, s3, s4⟩ := invariant_sizes X hX0 (by simp [hX, hsymm])
  obtain ⟨u1, u2, u3, u4, u5⟩ := C111_invariants F g hg Q' Q X (fun i j => ⟨le_rfl, hQ i j⟩)
  have hS : (∑ k, ∑ l, X k l) = entrySum Q := rfl
  rw [hS] at s1 s2 s3 s4
  have hS0 : 0 ≤ entrySum Q := Finset.sum_nonneg fun k _ => Finset.sum_nonneg fun l _ => abs_nonneg _
  have hge := gq_ge (F := F) hg 6
  have hb := bracket_within F g hg 6 (F.invariantsOf Q') (invariantsOf Q) (entrySum Q / 2) xi1 xi2 xi3 xi4 (by linarith)
    (u1.mono hge le_rfl s1) (u2.mono hge le_rfl s2) (u3.mono hge le_rfl s3) (u4.mono hge le_rfl s4) (u5.mono hge le_rfl s3) b1 b2 b3 b4
  have hinv : m.invariants = .ok (invariantsOf Q) := by simp only [OrthoMat.invariants, h, ok_bind, pure_eq_ok]
  have hsym : ∀ i j, F.lpBracket (F.invariantsOf Q') xi1 xi2 xi3 xi4 i j = F.lpBracket (F.invariantsOf Q') xi1 xi2 xi3 xi4 j i := by
    intro i j; fin_cases i <;> fin_cases j <;> rfl
  refine ⟨Q, Q', _, _, h, h', by simp only [lpA, Plies.invariants, Mat.invariants, hinv, LPVal.unpack4, LPVal.asNum, ok_bind, pure_eq_ok]; rfl,
    by simp only [lpD, Plies.invariants, Mat.invariants, hinv, LPVal.unpack4, LPVal.asNum, ok_bind, pure_eq_ok]; rfl, ?_, ?_, ?_⟩
  · ext i j; simp only [Matrix.transpose_apply, FloatArith.lpA, hsym j i]
  · ext i j; simp only [Matrix.transpose_apply, FloatArith.lpD, hsym j i]
  · intro i j
    have hA := scale_fl (F := F) (exact_within T 0) (hb i j)
    have hT3 : Within (F.q ^ 1) (F.pw T 3) (T ^ 3) (|T| ^ 3) := by
      have := pw_within (F := F) le_rfl (Within.exact T) 3
      simpa using this
    have hD := scale_fl' (scale_fl (F := F) hT3 (hb i j)) (1/12) (1/12) (by norm_num)
    rw [mul_one_div, mul_one_div] at hD
    have hA2 := hA.2
    have hD2 := hD.2
    unfold FloatArith.lpA FloatArith.lpD
    constructor
    · convert hA2 using 2
      · congr 1
        fin_cases i <;> fin_cases j <;> simp
      · rfl
      · ring
    · convert hD2 using 2
      · congr 1
        fin_cases i <;> fin_cases j <;> simp
      · rfl
      · ring

/-! ## Size of the bounds and examples -/

/-- **C110** the growth of `m` roundings is at most `2 m u`. -/
theorem C110_small (u : ℝ) (hu : 0 ≤ u) (m : ℕ) (hm : m * u ≤ 1 / 2) : (1 + u) ^ m - 1 ≤ 2 * m * u := by
  have key : ∀ k : ℕ, k ≤ m → (1 + u) ^ k * (1 - k * u) ≤ 1 := by
    intro k
    induction k with
    | zero => intro _; simp
    | succ k ih =>
      intro hk
      have h1 := ih (by omega)
      have hp : 0 ≤ (1 + u) ^ k := by positivity
      have hk0 : (0 : ℝ) ≤ k := Nat.cast_nonneg k
      have h2 : (1 + u) * (1 - ((k + 1 : ℕ) : ℝ) * u) ≤ 1 - k * u := by
        push_cast
        nlinarith [mul_nonneg hu hu, mul_nonneg hk0 (mul_nonneg hu hu)]
      calc _ = (1 + u) ^ k * ((1 + u) * (1 - ((k + 1 : ℕ) : ℝ) * u)) := by rw [pow_succ]; ring
        _ ≤ (1 + u) ^ k * (1 - k * u) := mul_le_mul_of_nonneg_left h2 hp
        _ ≤ 1 := h1
  have h := key m le_rfl
  have hp : 1 ≤ (1 + u) ^ m := one_le_pow₀ (by linarith)
  have hm0 : (0 : ℝ) ≤ m * u := mul_nonneg (Nat.cast_nonneg m) hu
  -- (1+u)^m ≤ 1/(1-mu) ≤ 1 + 2mu
  have h2 : 1 ≤ (1 - m * u) * (1 + 2 * m * u) := by nlinarith
  have h3 : (0 : ℝ) < 1 - m * u := by linarith
  have : (1 + u) ^ m * (1 - m * u) ≤ (1 + 2 * m * u) * (1 - m * u) := by linarith
  have := le_of_mul_le_mul_right this h3
  linarith

/-- Rounding to nearest keeps the order of numbers. -/
theorem nearest_ordered (p : ℕ) : Ordered (nearestArith p) := ⟨fun _ _ h => nearest_mono p h, nearest_idem p⟩

/-- Non-vacuity for C110: in double precision the coupling matrix of the symmetric carbon stack [0, 90, 0] is computed with entries below `44 * 2^-53` times
their scale, and the computed interfaces do not decrease. -/
example : ∃ (l : Lam) (Qs : List M3) (B' X : M3), Lam.init (.angles [0, 90, 0]) (.single carbon) = .ok l ∧ l.Qlayup = .ok Qs ∧
    (nearestArith 52).loopMatrix l.layup Qs (nearestArith 52).wB = .ok B' ∧ (∀ Q ∈ Qs, ∀ i j, |Q i j| ≤ X i j) ∧
    (∀ i j, |B' i j| ≤ 44 * 2 ^ (-53 : ℤ) * (height l.layup ^ 2 / 4 * (3 * X i j))) ∧
    ∀ (k : ℕ) (a b : ℝ), ((nearestArith 52).zPositionOf l.layup)[k]? = some a → ((nearestArith 52).zPositionOf l.layup)[k + 1]? = some b → a ≤ b := by
  obtain ⟨l, hl, hs, hlay, hne, hadm⟩ := carbon_list [0, 90, 0] (by simp)
  have ht : NonnegThick l.layup := fun p hp => (hadm p hp).1.le
  have hall : AllOk l.layup := fun p hp => by
    obtain ⟨Q, hQ, -⟩ := (hadm p hp).2
    exact (plyQ_ok_iff p).mpr ⟨Q, hQ⟩
  set Qs := l.layup.map plyQ! with hQs
  set X : M3 := Matrix.of fun i j => (Qs.map fun Q => |Q i j|).sum with hX
  have hb : ∀ Q ∈ Qs, ∀ i j, |Q i j| ≤ X i j := fun Q hQ i j =>
    List.single_le_sum (by intro x hx; obtain ⟨Q, _, rfl⟩ := List.mem_map.mp hx; exact abs_nonneg _) _ (List.mem_map.mpr ⟨Q, hQ, rfl⟩)
  obtain ⟨B', hB', h⟩ := C110_symmetric (nearestArith 52) l hs ht (by rw [hlay]; rfl) Qs Qs (l.Qlayup_ok hall) X 1 le_rfl
    (List.forall₂_same.mpr fun Q hQ i j => ⟨hb Q hQ i j, by simp⟩)
  have hlen : l.layup.length = 3 := by rw [hlay]; rfl
  refine ⟨l, Qs, B', X, hl, l.Qlayup_ok hall, hB', hb, fun i j => (h i j).trans ?_, (C110_ordered _ (nearest_ordered 52) l ht).1⟩
  have hu : (nearestArith 52).u = 2 ^ (-53 : ℤ) := by simp [nearestArith]
  have hsmall := C110_small (2 ^ (-53 : ℤ)) (by positivity) 22 (by norm_num)
  have hX0 : 0 ≤ X i j := List.sum_nonneg (by intro x hx; obtain ⟨Q, _, rfl⟩ := List.mem_map.mp hx; exact abs_nonneg _)
  rw [hu, one_mul, hlen]
  apply mul_le_mul_of_nonneg_right _ (by positivity)
  push_cast at hsmall ⊢
  linarith

/-- A library that rounds every result to nearest; its inverse is that of a rotation matrix, by changing signs. -/
noncomputable def nearestLib (p : ℕ) : FloatLib where
  toFloatArith := nearestArith p
  cos := fun x => nearest p (Real.cos x)
  sin := fun x => nearest p (Real.sin x)
  mm := fun A B i j => nearest p ((A * B) i j)
  inv := fun M => .ok !![M 0 0, M 0 1, -M 0 2; M 1 0, M 1 1, -M 1 2; -M 2 0, -M 2 1, M 2 2]
  nearCos := fun x => nearest_near p _
  nearSin := fun x => nearest_near p _
  nearMm := fun A B i j => by
    refine (nearest_near p _).trans ?_
    have hu : (0 : ℝ) ≤ (nearestArith p).u := FloatArith.u_nonneg _
    have h1 : |(A * B) i j| ≤ ∑ k, |A i k| * |B k j| := by
      rw [Matrix.mul_apply]
      refine (Finset.abs_sum_le_sum_abs _ _).trans (Finset.sum_le_sum fun k _ => ?_)
      rw [abs_mul]
    have h2 : (nearestArith p).u ≤ (1 + (nearestArith p).u) ^ 3 - 1 := by nlinarith [mul_nonneg hu hu, mul_nonneg hu (mul_nonneg hu hu)]
    exact mul_le_mul h2 h1 (abs_nonneg _) (hu.trans h2)

/-- Non-vacuity for C111: the unsymmetric carbon stack [0, 45, 30] in double precision; the error of `A` is below `10^-12` of its scale. -/
example : ∃ l A A' B B' D D' S, Lam.init (.angles [0, 45, 30]) (.single carbon) = .ok l ∧ l.A = .ok A ∧ l.B = .ok B ∧ l.D = .ok D ∧
    (nearestLib 52).stiffness l.layup (nearestLib 52).wA = .ok A' ∧ (nearestLib 52).stiffness l.layup (nearestLib 52).wB = .ok B' ∧
    (nearestLib 52).stiffness l.layup (nearestLib 52).wD = .ok D' ∧ (∀ Q, carbon.Q0 = .ok Q → S = entrySum Q) ∧
    ∀ i j : Fin 3, |A' i j - A i j| ≤ 1 / 10 ^ 12 * (height l.layup * (3 * (4 * S))) := by
  obtain ⟨l, hl, hs, hlay, hne, hadm⟩ := carbon_list [0, 45, 30] (by simp)
  have ht : NonnegThick l.layup := fun p hp => (hadm p hp).1.le
  obtain ⟨Q0, hQ0, -⟩ := (carbon_admissible 0).2
  have hu : (nearestLib 52).u = 1 / 2 ^ 53 := by simp [nearestLib, nearestArith]
  have hpoisson : poissonProduct carbon = 1 / 16 * (10300 / 132000) := by simp only [poissonProduct, carbon]; norm_num
  have hrad : ∀ t : ℝ, |t| ≤ 45 → |t * Real.pi / 180| ≤ 1 := by
    intro t ht
    rw [abs_div, abs_mul, abs_of_pos Real.pi_pos, abs_of_pos (by norm_num : (0 : ℝ) < 180)]
    rw [div_le_one (by norm_num)]
    nlinarith [Real.pi_le_four, Real.pi_pos, abs_nonneg t]
  set gI := trigGrowth (nearestLib 52).u 1 ^ 2 * (1 + (nearestLib 52).u) ^ 2 with hgI
  have hgI1 : 1 ≤ gI := by rw [hgI, hu]; unfold trigGrowth; norm_num
  have hp : ∀ p ∈ l.layup, PlyOk (nearestLib 52) (1 / 100) 1 gI p := by
    intro p hp
    have hp2 : p.2 = carbon ∧ |p.1| ≤ 45 := by
      rw [hlay] at hp
      simp only [List.map_cons, List.map_nil, List.mem_cons, List.not_mem_nil, or_false] at hp
      rcases hp with rfl | rfl | rfl <;> norm_num
    refine ⟨by rw [hp2.1, hpoisson]; norm_num, by rw [hp2.1, hpoisson]; norm_num, hrad _ hp2.2, _, rfl, fun i j => ?_⟩
    have hT := fun i j => (FloatLib.T_within (F := nearestLib 52) p.1 1 (hrad _ hp2.2) i j).2.2
    have hneg : ∀ x y : ℝ, |-x - y| = |x + y| := fun x y => by rw [← abs_neg]; congr 1; ring
    have hneg' : ∀ x y : ℝ, |-x + y| = |x - y| := fun x y => by rw [← abs_neg]; congr 1; ring
    rw [Treal_inv]
    have h := hT i j
    fin_cases i <;> fin_cases j <;> simp [Treal, Teng, hneg, hneg'] at h ⊢ <;> exact h
  obtain ⟨A, A', B, B', D, D', a1, b1, d1, a2, b2, d2, h⟩ := C111_stack (nearestLib 52) (1 / 100) 1 gI (entrySum Q0) (by norm_num) (by norm_num)
    (by rw [hu]; unfold denErr; norm_num) (by norm_num) hgI1 l hs ht hp (by
      intro p hp Q hQ
      have hp2 : p.2 = carbon := by
        rw [hlay] at hp
        simp only [List.map_cons, List.map_nil, List.mem_cons, List.not_mem_nil, or_false] at hp
        rcases hp with rfl | rfl | rfl <;> rfl
      rw [hp2] at hQ
      have hQ0 : carbon.Q0 = .ok Q0 := hQ0
      rw [hQ0] at hQ; cases hQ; exact le_rfl)
  refine ⟨l, A, A', B, B', D, D', entrySum Q0, hl, a1, b1, d1, a2, b2, d2, fun Q hQ => ?_, fun i j => (h i j).1.trans ?_⟩
  · have hQ0 : carbon.Q0 = .ok Q0 := hQ0
    rw [hQ0] at hQ; cases hQ; rfl
  · have hlen : l.layup.length = 3 := by rw [hlay]; rfl
    have hS : 0 ≤ entrySum Q0 := Finset.sum_nonneg fun k _ => Finset.sum_nonneg fun l _ => abs_nonneg _
    rw [hlen]
    have hh := height_nonneg ht
    push_cast
    apply mul_le_mul_of_nonneg_right _ (by positivity)
    rw [hgI, hu]
    unfold plyGrowth matGrowth denErr trigGrowth
    norm_num

end Composipy
