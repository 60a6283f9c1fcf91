import Verif.Props.Margins
import Verif.Model.SignedZero

/-!
# C70: margins of safety and the sign of zero
-/

namespace Composipy
open Spec

/-- The float of a real number, zero taken as `+0.0`. -/
noncomputable def Spec.SFofReal (r : ℝ) : SF := if h : r = 0 then .zero false else .nz r h

/-- The float is finite and has the value `r`. -/
def Spec.SFHasValue : SF → ℝ → Prop
  | .zero _, r => r = 0
  | .nz q _, r => r = q
  | _, _ => False

theorem zMarginT_eq (a : ℝ) (s : SF) (r : ℝ) (h : SFHasValue s r) (hz : s ≠ .zero true) :
    zMarginT (SFofReal a) s = marginT a r := by
  cases s with
  | nan => exact absurd h id
  | inf b => exact absurd h id
  | zero b =>
    cases b with
    | true => exact absurd rfl hz
    | false =>
      simp only [SFHasValue] at h
      subst h
      by_cases ha : a = 0
      · simp [zMarginT, SF.isNeg, SFofReal, ha, SF.div, SF.subOne, marginT, npDiv, subOne]
      · by_cases hn : a < 0 <;>
          simp [zMarginT, SF.isNeg, SFofReal, ha, SF.div, SF.subOne, marginT, npDiv, subOne, hn]
  | nz q hq =>
    simp only [SFHasValue] at h
    subst h
    by_cases hneg : r < 0
    · by_cases ha : a = 0
      · simp [zMarginT, SF.isNeg, SFofReal, ha, SF.div, SF.subOne, marginT, npDiv, subOne, hneg]
      · by_cases hn : a < 0 <;>
          simp [zMarginT, SF.isNeg, SFofReal, ha, SF.div, SF.subOne, marginT, npDiv, subOne, hneg, hn]
    · by_cases ha : a = 0
      · simp [zMarginT, SF.isNeg, SFofReal, ha, SF.div, SF.subOne, marginT, npDiv, subOne, hneg, hq]
      · simp [zMarginT, SF.isNeg, SFofReal, ha, SF.div, SF.subOne, marginT, npDiv, subOne, hneg, hq]

theorem zAbs_div (a : ℝ) (s : SF) (r : ℝ) (h : SFHasValue s r) :
    ((SFofReal a).div s.abs).subOne = subOne (npDiv a |r|) := by
  cases s with
  | nan => exact absurd h id
  | inf b => exact absurd h id
  | zero b =>
    simp only [SFHasValue] at h
    subst h
    by_cases ha : a = 0
    · simp [SFofReal, ha, SF.abs, SF.div, SF.subOne, npDiv, subOne]
    · by_cases hn : a < 0 <;> simp [SFofReal, ha, SF.abs, SF.div, SF.subOne, npDiv, subOne, hn]
  | nz q hq =>
    simp only [SFHasValue] at h
    subst h
    by_cases ha : a = 0
    · simp [SFofReal, ha, SF.abs, SF.div, SF.subOne, npDiv, subOne, hq]
    · simp [SFofReal, ha, SF.abs, SF.div, SF.subOne, npDiv, subOne, hq]

theorem zMarginC_eq (a : ℝ) (s : SF) (r : ℝ) (h : SFHasValue s r) : zMarginC (SFofReal a) s = marginC a r := by
  unfold zMarginC marginC
  by_cases hp : s.isPos
  · have hr : r > 0 := by
      cases s with
      | nan => exact absurd h id
      | inf b => exact absurd h id
      | zero b => exact absurd hp id
      | nz q hq => rw [show r = q from h]; exact hp
    rw [if_pos hp, if_pos hr]
    exact zAbs_div a (.zero false) 0 rfl
  · have hr : ¬ r > 0 := by
      cases s with
      | nan => exact absurd h id
      | inf b => exact absurd h id
      | zero b => rw [show r = 0 from h]; exact lt_irrefl _
      | nz q hq => rw [show r = q from h]; exact hp
    rw [if_neg hp, if_neg hr]
    exact zAbs_div a s r h

/-- **C70 (partial: no negative zero among the direct stresses)** with signed zeros the margins are those of the model
with one zero, for all allowables and all finite stresses other than `sigma1 = -0.0` and `sigma2 = -0.0`; the sign of a
zero shear stress never matters. -/
theorem C70_agrees_partial (a : V5) (s : Fin 3 → SF) (r : V3) (h : ∀ i, SFHasValue (s i) (r i)) (h0 : s 0 ≠ .zero true)
    (h1 : s 1 ≠ .zero true) : zMargins (fun i => SFofReal (a i)) s = margins a r := by
  unfold zMargins margins
  rw [zMarginT_eq _ _ _ (h 0) h0, zMarginC_eq _ _ _ (h 0), zMarginT_eq _ _ _ (h 1) h1, zMarginC_eq _ _ _ (h 1)]
  unfold zMarginS marginS
  rw [zAbs_div _ _ _ (h 2)]

/-- **C70** for every positive tension allowable a stress of `-0.0` gives the tension margin `-inf`. -/
theorem C70_negative_zero (a : ℝ) (ha : 0 < a) : zMarginT (SFofReal a) (.zero true) = .ninf := by
  simp [zMarginT, SF.isNeg, SFofReal, ha.ne', SF.div, SF.subOne, not_lt.mpr ha.le]

/-- **C70** so an unstressed direction 1 (`sigma1 = -0.0`) becomes the critical failure mode of the row, whatever the
other stresses and allowables are: even a row that fails in another mode is attributed to tension. -/
theorem C70_critical_wrong (a : Fin 5 → SF) (a0 : ℝ) (h0 : a 0 = SFofReal a0) (ha : 0 < a0) (s : Fin 3 → SF)
    (hs : s 0 = .zero true) : zMargins a s 0 = .ninf ∧ idxmin (zMargins a s) = some 0 := by
  have h : zMargins a s 0 = .ninf := by
    show zMarginT (a 0) (s 0) = .ninf
    rw [h0, hs, C70_negative_zero a0 ha]
  refine ⟨h, ((idxmin_spec _).1 0).mpr ⟨by rw [h]; simp, ?_, fun j hj => absurd hj (Fin.not_lt_zero j)⟩⟩
  intro j _ hlt
  rw [h] at hlt
  cases hm : zMargins a s j <;> rw [hm] at hlt <;> exact hlt

/-- **C70** is false of the formulas as written: a zero direct stress does not always have an infinite margin. -/
theorem C70_zero_stress_false : ¬ ∀ (a : ℝ) (s : SF), 0 < a → SFHasValue s 0 → zMarginT (SFofReal a) s = .pinf := by
  intro H
  have := H 1 (.zero true) one_pos rfl
  rw [C70_negative_zero 1 one_pos] at this
  cases this

/-- Non-vacuity for C70: a row with allowables 1500, 1200, 50, 200, 70 whose only stress is a shear of 140 (margin -1/2);
with `sigma1 = +0.0` the shear is critical, with `sigma1 = -0.0` tension is. -/
example : idxmin (zMargins (fun i => SFofReal (![1500, 1200, 50, 200, 70] i))
      ![.zero false, .zero false, .nz 140 (by norm_num)]) = some 4 ∧
    idxmin (zMargins (fun i => SFofReal (![1500, 1200, 50, 200, 70] i))
      ![.zero true, .zero false, .nz 140 (by norm_num)]) = some 0 := by
  constructor
  · rw [C70_agrees_partial ![1500, 1200, 50, 200, 70] _ ![0, 0, 140] (by
      intro i; fin_cases i <;> simp [SFHasValue]) (by simp) (by simp)]
    have hm : margins ![1500, 1200, 50, 200, 70] ![0, 0, 140] = ![.pinf, .pinf, .pinf, .pinf, .fin (-1/2)] := by
      ext i
      have e2 : (![1500, 1200, 50, 200, 70] : V5) 2 = 50 := rfl
      have e3 : (![1500, 1200, 50, 200, 70] : V5) 3 = 200 := rfl
      have e4 : (![1500, 1200, 50, 200, 70] : V5) 4 = 70 := rfl
      have e5 : (![0, 0, 140] : V3) 2 = 140 := rfl
      fin_cases i <;> norm_num [margins, marginT, marginC, marginS, npDiv, subOne, e2, e3, e4, e5]
    rw [hm]
    refine ((idxmin_spec _).1 4).mpr ⟨by simp, ?_, ?_⟩
    · intro j _ hlt
      fin_cases j <;> simp [XF.lt] at hlt
    · intro j hj _
      fin_cases j <;> simp [XF.lt] at hj ⊢
  · exact (C70_critical_wrong _ 1500 (by simp) (by norm_num) _ (by simp)).2

end Composipy
