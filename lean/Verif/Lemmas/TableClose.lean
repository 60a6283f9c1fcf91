import Verif.Lemmas.DualCheck

/-!
# The shipped tables against the integrals, measured with the mean squares of the shapes that vanish at both ends
-/

namespace Composipy
open Polynomial Spec

theorem pint_mul_eq (p q : ℝ[X]) : pint (p * q) = ∫ x in (-1 : ℝ)..1, p.eval x * q.eval x := by
  unfold pint
  simp only [eval_mul]

/-- The nine tables are within `δ` of the integrals, in the norms given by the weights. -/
structure TabClose (I : Finset ℕ) (δ : ℝ) (h0 h1 h2 : ℕ → ℝ) : Prop where
  c0 : CoefBound I (fun i => shape i) h0
  c1 : CoefBound I (fun i => derivative (shape i)) h1
  c2 : CoefBound I (fun i => derivative (derivative (shape i))) h2
  ff : wsize I (fun i k => shippedV.ff i k - pint (shape i * shape k)) h0 h0 ≤ δ
  fxi_f : wsize I (fun i k => shippedV.fxi_f i k - pint (derivative (shape i) * shape k)) h1 h0 ≤ δ
  f_fxi : wsize I (fun i k => shippedV.f_fxi i k - pint (shape i * derivative (shape k))) h0 h1 ≤ δ
  fxi_fxi : wsize I (fun i k => shippedV.fxi_fxi i k - pint (derivative (shape i) * derivative (shape k))) h1 h1 ≤ δ
  fxixi_f : wsize I (fun i k => shippedV.fxixi_f i k - pint (derivative (derivative (shape i)) * shape k)) h2 h0 ≤ δ
  f_fxixi : wsize I (fun i k => shippedV.f_fxixi i k - pint (shape i * derivative (derivative (shape k)))) h0 h2 ≤ δ
  fxixi_fxi : wsize I (fun i k => shippedV.fxixi_fxi i k - pint (derivative (derivative (shape i)) * derivative (shape k))) h2 h1 ≤ δ
  fxi_fxixi : wsize I (fun i k => shippedV.fxi_fxixi i k - pint (derivative (shape i) * derivative (derivative (shape k)))) h1 h2 ≤ δ
  fxixi_fxixi : wsize I (fun i k => shippedV.fxixi_fxixi i k
    - pint (derivative (derivative (shape i)) * derivative (derivative (shape k)))) h2 h2 ≤ δ

theorem wsize_swap (I : Finset ℕ) (E : ℕ → ℕ → ℝ) (h h' : ℕ → ℝ) : wsize I (fun i k => E k i) h h' = wsize I E h' h := by
  unfold wsize
  rw [Finset.sum_comm]
  exact Finset.sum_congr rfl fun i _ => Finset.sum_congr rfl fun k _ => by ring

/-- From the kernel checks to the closeness of the tables. -/
theorem tabClose_of {B : ℕ} (hB : B ≤ 30) {n0 n1 n2 : List (List ℤ)} {d0 d1 d2 h0 h1 h2 : List ℕ}
    (k0 : dualOk B n0 d0 h0 shapeMom0 = true) (k1 : dualOk B n1 d1 h1 shapeMom1 = true) (k2 : dualOk B n2 d2 h2 shapeMom2 = true)
    {n : ℕ} (e1 : errSum B err_FF h0 h0 ≤ n) (e2 : errSum B err_FXI_F h1 h0 ≤ n) (e3 : errSum B err_FXI_FXI h1 h1 ≤ n)
    (e4 : errSum B err_FXIXI_F h2 h0 ≤ n) (e5 : errSum B err_FXIXI_FXI h2 h1 ≤ n) (e6 : errSum B err_FXIXI_FXIXI h2 h2 ≤ n) :
    TabClose (endSet B) (n * 1e-22) (fun i => (h0.getD i 0 : ℕ)) (fun i => (h1.getD i 0 : ℕ)) (fun i => (h2.getD i 0 : ℕ)) := by
  have t1 {i k : ℕ} (hi : i < 30) (hk : k < 30) := entry_err (dl := id) (dr := id) (left := id) err_ok_FF
    (fun i hi => (mom_facts hi).1) (fun _ => le_rfl) (fun _ => le_rfl) (fun _ _ => rfl) (fun _ _ => rfl) hi hk
  have t2 {i k : ℕ} (hi : i < 30) (hk : k < 30) := entry_err (dl := fun p => derivative p) (dr := id) (left := derivZ) err_ok_FXI_F
    (fun i hi => (mom_facts hi).2.1) len1 (fun _ => le_rfl) d1_C (fun _ _ => rfl) hi hk
  have t3 {i k : ℕ} (hi : i < 30) (hk : k < 30) := entry_err (dl := fun p => derivative p) (dr := fun p => derivative p)
    (left := derivZ) err_ok_FXI_FXI (fun i hi => (mom_facts hi).2.1) len1 len1 d1_C d1_C hi hk
  have t4 {i k : ℕ} (hi : i < 30) (hk : k < 30) := entry_err (dl := fun p => derivative (derivative p)) (dr := id)
    (left := fun l => derivZ (derivZ l)) err_ok_FXIXI_F
    (fun i hi => (mom_facts hi).2.2) len2 (fun _ => le_rfl) d2_C (fun _ _ => rfl) hi hk
  have t5 {i k : ℕ} (hi : i < 30) (hk : k < 30) := entry_err (dl := fun p => derivative (derivative p))
    (dr := fun p => derivative p) (left := fun l => derivZ (derivZ l)) err_ok_FXIXI_FXI
    (fun i hi => (mom_facts hi).2.2) len2 len1 d2_C d1_C hi hk
  have t6 {i k : ℕ} (hi : i < 30) (hk : k < 30) := entry_err (dl := fun p => derivative (derivative p))
    (dr := fun p => derivative (derivative p)) (left := fun l => derivZ (derivZ l)) err_ok_FXIXI_FXIXI
    (fun i hi => (mom_facts hi).2.2) len2 len2 d2_C d2_C hi hk
  have w1 := wsize_le hB (fun i k hi hk => t1 hi hk) e1
  have w2 := wsize_le hB (fun i k hi hk => t2 hi hk) e2
  have w3 := wsize_le hB (fun i k hi hk => t3 hi hk) e3
  have w4 := wsize_le hB (fun i k hi hk => t4 hi hk) e4
  have w5 := wsize_le hB (fun i k hi hk => t5 hi hk) e5
  have w6 := wsize_le hB (fun i k hi hk => t6 hi hk) e6
  refine ⟨coefBound_of (dl := id) (left := id) hB k0 (fun i hi => (mom_facts hi).1) (fun _ => le_rfl) (fun _ _ => rfl),
    coefBound_of (dl := fun p => derivative p) (left := derivZ) hB k1 (fun i hi => (mom_facts hi).2.1) len1 d1_C,
    coefBound_of (dl := fun p => derivative (derivative p)) (left := fun l => derivZ (derivZ l)) hB k2
      (fun i hi => (mom_facts hi).2.2) len2 d2_C, w1, w2, ?_, w3, w4, ?_, w5, ?_, w6⟩
  · rw [← wsize_swap] at w2
    simp only [id_eq, mul_comm (derivative (shape _))] at w2
    exact w2
  · rw [← wsize_swap] at w4
    simp only [id_eq, mul_comm (derivative (derivative (shape _))) (shape _)] at w4
    exact w4
  · rw [← wsize_swap] at w5
    simp only [id_eq, mul_comm (derivative (derivative (shape _))) (derivative (shape _))] at w5
    exact w5

/-- Shape numbers below 14: within `1e-9`. -/
theorem tabClose_14 : ∃ h0 h1 h2, TabClose (endSet 14) 1e-9 h0 h1 h2 := by
  have := tabClose_of (n := 10 ^ 13) (by norm_num) dual_ok0_14 dual_ok1_14 dual_ok2_14 (by decide +kernel) (by decide +kernel) (by decide +kernel)
    (by decide +kernel) (by decide +kernel) (by decide +kernel)
  norm_num at this ⊢
  exact ⟨_, _, _, this⟩

/-- Shape numbers below 20: within `2e-7`. -/
theorem tabClose_20 : ∃ h0 h1 h2, TabClose (endSet 20) 2e-7 h0 h1 h2 := by
  have := tabClose_of (n := 2 * 10 ^ 15) (by norm_num) dual_ok0_20 dual_ok1_20 dual_ok2_20 (by decide +kernel) (by decide +kernel) (by decide +kernel)
    (by decide +kernel) (by decide +kernel) (by decide +kernel)
  norm_num at this ⊢
  exact ⟨_, _, _, this⟩

/-- Shape numbers below 30: within `2e-3`. -/
theorem tabClose_30 : ∃ h0 h1 h2, TabClose (endSet 30) 2e-3 h0 h1 h2 := by
  have := tabClose_of (n := 2 * 10 ^ 19) (by norm_num) dual_ok0_30 dual_ok1_30 dual_ok2_30 (by decide +kernel) (by decide +kernel) (by decide +kernel)
    (by decide +kernel) (by decide +kernel) (by decide +kernel)
  norm_num at this ⊢
  exact ⟨_, _, _, this⟩

end Composipy
