import Verif.Lemmas.Certificate
import Verif.Lemmas.Stiffness

/-!
# The scaled integrals are the shipped ones
-/

namespace Composipy
open Spec

/-- The entries of a table with indices below 14 are the numbers at place `p` of the nine, over the common denominator. -/
def nineOk (t : List (List ℕ)) (p : ℕ) : Bool :=
  (List.range 14).all fun i => (List.range 14).all fun k => Nat.ble (i + 1) t.length && Nat.ble (k + 1) (t.getD i []).length &&
    match textTerms (unpack ((t.getD i []).getD k 0)) with
    | some [(q, 0, 0)] => decide (q * nineDen = (((nine i k).getD p 0 : ℤ) : ℚ))
    | _ => false

theorem nine_FF : nineOk text_FF 0 = true := by decide +kernel
theorem nine_FXI_F : nineOk text_FXI_F 1 = true := by decide +kernel
theorem nine_FXI_FXI : nineOk text_FXI_FXI 3 = true := by decide +kernel
theorem nine_FXIXI_F : nineOk text_FXIXI_F 4 = true := by decide +kernel
theorem nine_FXIXI_FXI : nineOk text_FXIXI_FXI 6 = true := by decide +kernel
theorem nine_FXIXI_FXIXI : nineOk text_FXIXI_FXIXI 8 = true := by decide +kernel

/-- The nine of a pair are nine numbers, and those of the reversed pair are the same in another order. -/
theorem nine_rev : ((List.range 14).all fun i => (List.range 14).all fun k => decide ((nine i k).length = 9) &&
    decide ((nine i k).getD 2 0 = (nine k i).getD 1 0) && decide ((nine i k).getD 5 0 = (nine k i).getD 4 0) &&
    decide ((nine i k).getD 7 0 = (nine k i).getD 6 0)) = true := by decide +kernel

theorem nineDen_pos : (0 : ℝ) < nineDen := by
  have : 0 < nineDen := by decide
  exact_mod_cast this

theorem evalAt_nine {t : List (List ℕ)} {p : ℕ} (h : nineOk t p = true) {i k : ℕ} (hi : i < 14) (hk : k < 14) :
    evalAt t (i, k) = .ok (((nine i k).getD p 0 : ℤ) / nineDen) := by
  simp only [nineOk, List.all_eq_true, List.mem_range, Bool.and_eq_true, Nat.ble_eq] at h
  obtain ⟨⟨h1, h2⟩, h3⟩ := h i hi k hk
  have hi' : i < t.length := h1
  have hg : t.getD i [] = t[i] := by simp [List.getD, hi']
  rw [hg] at h2 h3
  have hk' : k < t[i].length := h2
  have hg2 : t[i].getD k 0 = t[i][k] := by simp [List.getD, hk']
  rw [hg2] at h3
  split at h3
  · rename_i q hq
    have hval : Terms.val 0 0 [(q, 0, 0)] = (q : ℝ) := by simp [Terms.val, termVal]
    unfold evalAt textAt
    simp only [List.getElem?_eq_getElem hi', List.getElem?_eq_getElem hk', ok_bind]
    rw [pyEval_of_terms hq, hval]
    have h4 : q * (nineDen : ℚ) = (((nine i k).getD p 0 : ℤ) : ℚ) := of_decide_eq_true h3
    have h5 : (q : ℝ) * nineDen = (((nine i k).getD p 0 : ℤ) : ℝ) := by
      have := congrArg (fun x : ℚ => (x : ℝ)) h4
      push_cast at this
      exact this
    rw [← h5, mul_div_cancel_right₀ _ nineDen_pos.ne']
  · cases h3

/-- The shipped values with indices below 14. -/
theorem shippedV_nine {i k : ℕ} (hi : i < 14) (hk : k < 14) : ∃ ff xf fx xx Xf fX Xx xX XX : ℤ,
    nine i k = [ff, xf, fx, xx, Xf, fX, Xx, xX, XX] ∧
    shippedV.ff i k = ff / nineDen ∧ shippedV.fxi_f i k = xf / nineDen ∧ shippedV.f_fxi i k = fx / nineDen ∧
    shippedV.fxi_fxi i k = xx / nineDen ∧ shippedV.fxixi_f i k = Xf / nineDen ∧ shippedV.f_fxixi i k = fX / nineDen ∧
    shippedV.fxixi_fxi i k = Xx / nineDen ∧ shippedV.fxi_fxixi i k = xX / nineDen ∧ shippedV.fxixi_fxixi i k = XX / nineDen := by
  have hr := nine_rev
  simp only [List.all_eq_true, List.mem_range, Bool.and_eq_true, decide_eq_true_eq] at hr
  obtain ⟨⟨⟨hl, h2⟩, h5⟩, h7⟩ := hr i hi k hk
  have a0 := evalAt_nine nine_FF hi hk
  have a1 := evalAt_nine nine_FXI_F hi hk
  have a2 := evalAt_nine nine_FXI_F hk hi
  have a3 := evalAt_nine nine_FXI_FXI hi hk
  have a4 := evalAt_nine nine_FXIXI_F hi hk
  have a5 := evalAt_nine nine_FXIXI_F hk hi
  have a6 := evalAt_nine nine_FXIXI_FXI hi hk
  have a7 := evalAt_nine nine_FXIXI_FXI hk hi
  have a8 := evalAt_nine nine_FXIXI_FXIXI hi hk
  rw [← h2] at a2
  rw [← h5] at a5
  rw [← h7] at a7
  generalize nine i k = l at *
  match l, hl with
  | [ff, xf, fx, xx, Xf, fX, Xx, xX, XX], _ =>
    refine ⟨ff, xf, fx, xx, Xf, fX, Xx, xX, XX, rfl, ?_, ?_, ?_, ?_, ?_, ?_, ?_, ?_, ?_⟩
    · simp only [shippedV, ii_ff, a0, readVal]; rfl
    · simp only [shippedV, ii_fxi_f, a1, readVal]; rfl
    · simp only [shippedV, ii_f_fxi, rev2, a2, readVal]; rfl
    · simp only [shippedV, ii_fxi_fxi, a3, readVal]; rfl
    · simp only [shippedV, ii_fxixi_f, a4, readVal]; rfl
    · simp only [shippedV, ii_f_fxixi, rev2, a5, readVal]; rfl
    · simp only [shippedV, ii_fxixi_fxi, a6, readVal]; rfl
    · simp only [shippedV, ii_fxi_fxixi, rev2, a7, readVal]; rfl
    · simp only [shippedV, ii_fxixi_fxixi, a8, readVal]; rfl

/-- The entries of the bending matrix plus a multiple of the geometric matrix, as integers over a common denominator. -/
theorem entZ_eq (c : Coef9) (a b : ℝ) (D : Matrix (Fin 3) (Fin 3) ℝ) (Nxx Nyy Nxy mu den : ℝ)
    (h1 : 4 * (b / a ^ 3) * D 0 0 * den = c.c1) (h2 : 4 / (a * b) * D 1 0 * den = c.c2) (h3 : 4 * (a / b ^ 3) * D 1 1 * den = c.c3)
    (h4 : 8 / a ^ 2 * D 2 0 * den = c.c4) (h5 : 8 / b ^ 2 * D 2 1 * den = c.c5) (h6 : 16 / (a * b) * D 2 2 * den = c.c6)
    (h7 : mu * (Nxx * (b / a)) * den = c.g1) (h8 : mu * (Nyy * (a / b)) * den = c.g2) (h9 : mu * Nxy * den = c.g3)
    {r q : ℕ × ℕ} (hr : r.1 < 14 ∧ r.2 < 14) (hq : q.1 < 14 ∧ q.2 < 14) :
    (k33v shippedV a b D r q + mu * g33v shippedV a b Nxx Nyy Nxy r q) * (den * (nineDen * nineDen)) = entZ c r q := by
  obtain ⟨ff, xf, fx, xx, Xf, fX, Xx, xX, XX, e, e1, e2, e3, e4, e5, e6, e7, e8, e9⟩ := shippedV_nine hr.1 hq.1
  obtain ⟨ff', xf', fx', xx', Xf', fX', Xx', xX', XX', e', e1', e2', e3', e4', e5', e6', e7', e8', e9'⟩ := shippedV_nine hr.2 hq.2
  rw [entZ, e, e', k33v, g33v, e1, e2, e3, e4, e5, e6, e7, e8, e9, e1', e2', e3', e4', e5', e6', e7', e8', e9']
  simp only [mix, dotZ]
  push_cast
  rw [← h1, ← h2, ← h3, ← h4, ← h5, ← h6, ← h7, ← h8, ← h9]
  generalize 4 * (b / a ^ 3) * D 0 0 = k1
  generalize 4 / (a * b) * D 1 0 = k2
  generalize 4 * (a / b ^ 3) * D 1 1 = k3
  generalize 8 / a ^ 2 * D 2 0 = k4
  generalize 8 / b ^ 2 * D 2 1 = k5
  generalize 16 / (a * b) * D 2 2 = k6
  generalize Nxx * (b / a) = k7
  generalize Nyy * (a / b) = k8
  have hn := nineDen_pos.ne'
  generalize (nineDen : ℝ) = s at *
  field_simp
  ring

end Composipy
