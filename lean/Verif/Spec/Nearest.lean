import Verif.Model.Rounded
import Mathlib.Data.Int.Log
import Mathlib.Algebra.Order.Round
import Mathlib.Tactic.Linarith
import Mathlib.Tactic.Positivity
import Mathlib.Tactic.FieldSimp

/-!
# Rounding to the nearest number with `p+1` binary digits

An arithmetic that meets the contract of `FloatArith` (exponents are not limited); `p = 52` is the precision of IEEE doubles.
-/

namespace Composipy.Spec

/-- Exponent of the last digit of `x`. -/
noncomputable def lastDigit (p : ℕ) (x : ℝ) : ℤ := Int.log 2 |x| - p

/-- Rounding of the size of `x`, halves upwards. -/
noncomputable def nearestAbs (p : ℕ) (x : ℝ) : ℝ := (2 : ℝ) ^ lastDigit p x * ⌊|x| / (2 : ℝ) ^ lastDigit p x + 1 / 2⌋

/-- The nearest number with `p+1` binary digits. -/
noncomputable def nearest (p : ℕ) (x : ℝ) : ℝ := if 0 ≤ x then nearestAbs p x else -nearestAbs p x

theorem nearestAbs_near (p : ℕ) (x : ℝ) : |nearestAbs p x - abs x| ≤ (2 : ℝ) ^ (-(p : ℤ) - 1) * |x| := by
  by_cases hx : x = 0
  · simp [hx, nearestAbs, lastDigit]
    norm_num
  have hx' : 0 < |x| := abs_pos.mpr hx
  set e := lastDigit p x with he
  have hpos : (0 : ℝ) < (2 : ℝ) ^ e := by positivity
  have h1 := Int.floor_le (|x| / (2 : ℝ) ^ e + 1 / 2)
  have h2 := Int.lt_floor_add_one (|x| / (2 : ℝ) ^ e + 1 / 2)
  have hb : |(⌊|x| / (2 : ℝ) ^ e + 1 / 2⌋ : ℝ) - |x| / (2 : ℝ) ^ e| ≤ 1 / 2 := by
    rw [abs_le]; constructor <;> linarith
  have e1 : nearestAbs p x - |x| = (2 : ℝ) ^ e * ((⌊|x| / (2 : ℝ) ^ e + 1 / 2⌋ : ℝ) - |x| / (2 : ℝ) ^ e) := by
    rw [nearestAbs, ← he, mul_sub, mul_div_cancel₀ _ hpos.ne']
  rw [e1, abs_mul, abs_of_pos hpos]
  have h3 : (2 : ℝ) ^ (Int.log 2 |x|) ≤ |x| := Int.zpow_log_le_self one_lt_two hx'
  have h4 : (2 : ℝ) ^ e = (2 : ℝ) ^ (-(p : ℤ)) * (2 : ℝ) ^ (Int.log 2 |x|) := by
    rw [← zpow_add₀ two_ne_zero, he, lastDigit]; congr 1; ring
  have h5 : (2 : ℝ) ^ (-(p : ℤ) - 1) = (2 : ℝ) ^ (-(p : ℤ)) * (1 / 2) := by
    rw [zpow_sub₀ two_ne_zero]; simp [div_eq_mul_inv]
  rw [h5]
  have h6 : (0 : ℝ) < (2 : ℝ) ^ (-(p : ℤ)) := by positivity
  calc _ ≤ (2 : ℝ) ^ e * (1 / 2) := mul_le_mul_of_nonneg_left hb hpos.le
    _ = (2 : ℝ) ^ (-(p : ℤ)) * (1 / 2) * (2 : ℝ) ^ (Int.log 2 |x|) := by rw [h4]; ring
    _ ≤ _ := mul_le_mul_of_nonneg_left h3 (by positivity)

theorem nearest_near (p : ℕ) (x : ℝ) : |nearest p x - x| ≤ (2 : ℝ) ^ (-(p : ℤ) - 1) * |x| := by
  have h := nearestAbs_near p x
  unfold nearest
  split
  next h0 => rwa [abs_of_nonneg h0] at h ⊢
  next h0 =>
    have h0' : x < 0 := not_le.mp h0
    have e : |x| = -x := abs_of_neg h0'
    have : -nearestAbs p x - x = -(nearestAbs p x - |x|) := by rw [e]; ring
    rw [this, abs_neg]
    exact h

/-- The digits of the rounded number. -/
theorem nearestAbs_digits (p : ℕ) {x : ℝ} (hx : x ≠ 0) :
    (2 : ℝ) ^ (Int.log 2 |x|) ≤ nearestAbs p x ∧ nearestAbs p x ≤ (2 : ℝ) ^ (Int.log 2 |x| + 1) := by
  have hx' : 0 < |x| := abs_pos.mpr hx
  set e := lastDigit p x with he
  have hpos : (0 : ℝ) < (2 : ℝ) ^ e := by positivity
  have h3 : (2 : ℝ) ^ (Int.log 2 |x|) ≤ |x| := Int.zpow_log_le_self one_lt_two hx'
  have h4 : |x| < (2 : ℝ) ^ (Int.log 2 |x| + 1) := Int.lt_zpow_succ_log_self one_lt_two _
  have hl : Int.log 2 |x| = e + p := by rw [he, lastDigit]; ring
  have h5 : (2 : ℝ) ^ (Int.log 2 |x|) = (2 : ℝ) ^ e * (2 : ℝ) ^ p := by rw [hl, zpow_add₀ two_ne_zero, zpow_natCast]
  have h6 : (2 : ℝ) ^ (Int.log 2 |x| + 1) = (2 : ℝ) ^ e * (2 : ℝ) ^ (p + 1) := by
    rw [hl, show e + (p : ℤ) + 1 = e + ((p + 1 : ℕ) : ℤ) by push_cast; ring, zpow_add₀ two_ne_zero, zpow_natCast]
  rw [nearestAbs, ← he, h5, h6]
  constructor
  · apply mul_le_mul_of_nonneg_left _ hpos.le
    have : ((2 ^ p : ℤ) : ℝ) ≤ (⌊|x| / (2 : ℝ) ^ e + 1 / 2⌋ : ℤ) := by
      rw [Int.cast_le]
      apply Int.le_floor.mpr
      push_cast
      have : (2 : ℝ) ^ p ≤ |x| / (2 : ℝ) ^ e := by rw [le_div_iff₀ hpos, mul_comm, ← h5]; exact h3
      linarith
    simpa using this
  · apply mul_le_mul_of_nonneg_left _ hpos.le
    have : ((⌊|x| / (2 : ℝ) ^ e + 1 / 2⌋ : ℤ) : ℝ) ≤ ((2 ^ (p + 1) : ℤ) : ℝ) := by
      rw [Int.cast_le]
      apply Int.lt_add_one_iff.mp
      apply Int.floor_lt.mpr
      push_cast
      have : |x| / (2 : ℝ) ^ e < (2 : ℝ) ^ (p + 1) := by rw [div_lt_iff₀ hpos, mul_comm, ← h6]; exact h4
      linarith
    simpa using this

theorem nearestAbs_nonneg (p : ℕ) (x : ℝ) : 0 ≤ nearestAbs p x := by
  unfold nearestAbs
  apply mul_nonneg (by positivity)
  rw [← Int.cast_zero, Int.cast_le]
  apply Int.floor_nonneg.mpr
  positivity

theorem nearestAbs_mono (p : ℕ) {x y : ℝ} (h : |x| ≤ |y|) : nearestAbs p x ≤ nearestAbs p y := by
  by_cases hx : x = 0
  · have : nearestAbs p x = 0 := by
      simp [hx, nearestAbs, lastDigit]
      norm_num
    rw [this]; exact nearestAbs_nonneg p y
  have hx' : 0 < |x| := abs_pos.mpr hx
  have hy : y ≠ 0 := by rintro rfl; simp at h; exact hx h
  have hl : Int.log 2 |x| ≤ Int.log 2 |y| := Int.log_mono_right hx' h
  rcases hl.lt_or_eq with hlt | heq
  · refine (nearestAbs_digits p hx).2.trans (le_trans ?_ (nearestAbs_digits p hy).1)
    exact zpow_le_zpow_right₀ one_le_two (by omega)
  · have : lastDigit p x = lastDigit p y := by rw [lastDigit, lastDigit, heq]
    rw [nearestAbs, nearestAbs, this]
    apply mul_le_mul_of_nonneg_left _ (by positivity)
    rw [Int.cast_le]
    apply Int.floor_le_floor
    have : |x| / (2 : ℝ) ^ lastDigit p y ≤ |y| / (2 : ℝ) ^ lastDigit p y := div_le_div_of_nonneg_right h (by positivity)
    linarith

theorem nearest_mono (p : ℕ) {x y : ℝ} (h : x ≤ y) : nearest p x ≤ nearest p y := by
  unfold nearest
  split
  next hx =>
    rw [if_pos (hx.trans h)]
    exact nearestAbs_mono p (by rwa [abs_of_nonneg hx, abs_of_nonneg (hx.trans h)])
  next hx =>
    split
    · linarith [nearestAbs_nonneg p x, nearestAbs_nonneg p y]
    next hy =>
      apply neg_le_neg
      exact nearestAbs_mono p (by rw [abs_of_neg (not_le.mp hx), abs_of_neg (not_le.mp hy)]; linarith)

theorem nearestAbs_idem (p : ℕ) (x : ℝ) : nearestAbs p (nearestAbs p x) = nearestAbs p x := by
  by_cases hx : x = 0
  · have : nearestAbs p 0 = 0 := by
      simp [nearestAbs, lastDigit]
      norm_num
    rw [hx, this, this]
  obtain ⟨h1, h2⟩ := nearestAbs_digits p hx
  set y := nearestAbs p x with hy
  have hy0 : 0 < y := lt_of_lt_of_le (by positivity) h1
  have hyabs : |y| = y := abs_of_pos hy0
  -- `y` is a whole number of units of its own last digit
  have key : ∃ m : ℤ, y = (2 : ℝ) ^ lastDigit p y * m := by
    rcases h2.lt_or_eq with hlt | heq
    · have hl : Int.log 2 |y| = Int.log 2 |x| := by
        rw [hyabs]
        apply le_antisymm
        · have := (Int.lt_zpow_iff_log_lt one_lt_two hy0).mp (by exact_mod_cast hlt)
          omega
        · exact (Int.zpow_le_iff_le_log one_lt_two hy0).mp (by exact_mod_cast h1)
      have : lastDigit p y = lastDigit p x := by rw [lastDigit, lastDigit, hl]
      rw [this]
      exact ⟨_, rfl⟩
    · have hl : Int.log 2 |y| = Int.log 2 |x| + 1 := by
        rw [hyabs, heq]
        have := Int.log_zpow (R := ℝ) (b := 2) (by norm_num) (Int.log 2 |x| + 1)
        exact_mod_cast this
      refine ⟨2 ^ p, ?_⟩
      rw [lastDigit, hl, heq]
      push_cast
      rw [← zpow_natCast, ← zpow_add₀ two_ne_zero]
      congr 1; ring
  obtain ⟨m, hm⟩ := key
  have hpos : (0 : ℝ) < (2 : ℝ) ^ lastDigit p y := by positivity
  rw [nearestAbs, hyabs]
  have : y / (2 : ℝ) ^ lastDigit p y = m := by rw [div_eq_iff hpos.ne', mul_comm]; exact hm
  rw [this]
  have hf : ⌊(m : ℝ) + 1 / 2⌋ = m := by
    rw [Int.floor_eq_iff]; constructor <;> linarith
  rw [hf, ← hm]

theorem nearest_idem (p : ℕ) (x : ℝ) : nearest p (nearest p x) = nearest p x := by
  have hneg : ∀ y, nearestAbs p (-y) = nearestAbs p y := by intro y; simp [nearestAbs, lastDigit]
  by_cases hx : 0 ≤ x
  · have : nearest p x = nearestAbs p x := if_pos hx
    rw [this, nearest, if_pos (nearestAbs_nonneg p x), nearestAbs_idem]
  · have h : nearest p x = -nearestAbs p x := if_neg hx
    have hpos : 0 < nearestAbs p x := lt_of_lt_of_le (by positivity) (nearestAbs_digits p (by intro h; exact hx h.ge)).1
    rw [h, nearest, if_neg (by linarith), hneg, nearestAbs_idem]

/-- Arithmetic that rounds to nearest after every operation. -/
noncomputable def nearestArith (p : ℕ) : FloatArith where
  u := (2 : ℝ) ^ (-(p : ℤ) - 1)
  fl := nearest p
  pw := fun x n => nearest p (x ^ n)
  near := nearest_near p
  nearPw := fun x n => nearest_near p (x ^ n)

end Composipy.Spec
