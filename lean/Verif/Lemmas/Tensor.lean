import Verif.Props.Bardell

/-!
# Products of two tables, applied to a rectangular array of coefficients
-/

namespace Composipy
open Polynomial Spec Finset

variable {I : Finset ℕ}

/-- The combination of the functions `u i` with coefficients `x i`. -/
noncomputable def comb (I : Finset ℕ) (u : ℕ → ℝ[X]) (x : ℕ → ℝ) : ℝ[X] := ∑ i ∈ I, C (x i) * u i

/-- The bilinear form of a table. -/
def form (I : Finset ℕ) (A : ℕ → ℕ → ℝ) (x y : ℕ → ℝ) : ℝ := ∑ i ∈ I, ∑ k ∈ I, x i * y k * A i k

/-- The form of the product of two tables. -/
def tform (I : Finset ℕ) (A B : ℕ → ℕ → ℝ) (c : ℕ → ℕ → ℝ) : ℝ := ∑ i ∈ I, ∑ k ∈ I, A i k * form I B (c i) (c k)

/-- The mean square over the square of the combination of the products `u i (x) * v j (y)`. -/
noncomputable def tnorm (I : Finset ℕ) (u v : ℕ → ℝ[X]) (c : ℕ → ℕ → ℝ) : ℝ :=
  tform I (fun i k => pint (u i * u k)) (fun j l => pint (v j * v l)) c

theorem pint_sum' {ι : Type} (s : Finset ι) (f : ι → ℝ[X]) : pint (∑ i ∈ s, f i) = ∑ i ∈ s, pint (f i) := by
  classical
  induction s using Finset.induction_on with
  | empty => simp [pint]
  | insert a s ha ih => rw [Finset.sum_insert ha, Finset.sum_insert ha, pint_add, ih]

theorem pint_comb (u v : ℕ → ℝ[X]) (x y : ℕ → ℝ) :
    pint (comb I u x * comb I v y) = form I (fun i k => pint (u i * v k)) x y := by
  unfold comb form
  rw [Finset.sum_mul_sum, pint_sum']
  refine Finset.sum_congr rfl fun i _ => ?_
  rw [pint_sum']
  refine Finset.sum_congr rfl fun k _ => ?_
  rw [show C (x i) * u i * (C (y k) * v k) = C (x i * y k) * (u i * v k) by rw [C_mul]; ring, pint_C_mul]

theorem pint_le_pint {p q : ℝ[X]} (h : ∀ x, p.eval x ≤ q.eval x) : pint p ≤ pint q :=
  intervalIntegral.integral_mono_on (by norm_num) (p.continuous.intervalIntegrable _ _) (q.continuous.intervalIntegrable _ _)
    fun x _ => h x

theorem pint_sq_nonneg (p : ℝ[X]) : 0 ≤ pint (p * p) := by
  refine intervalIntegral.integral_nonneg (by norm_num) fun x _ => ?_
  rw [eval_mul]
  exact mul_self_nonneg _

theorem pint_cauchy (p q : ℝ[X]) : |pint (p * q)| ≤ √(pint (p * p)) * √(pint (q * q)) := by
  rw [← Real.sqrt_mul (pint_sq_nonneg p)]
  refine Real.abs_le_sqrt ?_
  have h (t : ℝ) : 0 ≤ pint (q * q) * (t * t) + (2 * pint (p * q)) * t + pint (p * p) := by
    have := pint_sq_nonneg (p + C t * q)
    rw [show (p + C t * q) * (p + C t * q) = p * p + (C (2 * t) * (p * q) + C (t * t) * (q * q)) by
      rw [C_mul, C_mul, show (C 2 : ℝ[X]) = 2 from rfl]; ring, pint_add, pint_add, pint_C_mul, pint_C_mul] at this
    linarith
  have := discrim_le_zero h
  rw [discrim] at this
  nlinarith

/-- A functional bound: the coefficient `i` is at most `h i` times the root mean square. -/
def CoefBound (I : Finset ℕ) (u : ℕ → ℝ[X]) (h : ℕ → ℝ) : Prop :=
  (∀ i, 0 ≤ h i) ∧ ∀ x : ℕ → ℝ, ∀ i ∈ I, x i ^ 2 ≤ h i ^ 2 * pint (comb I u x * comb I u x)

theorem CoefBound.abs {u : ℕ → ℝ[X]} {h : ℕ → ℝ} (H : CoefBound I u h) (x : ℕ → ℝ) {i : ℕ} (hi : i ∈ I) :
    |x i| ≤ h i * √(pint (comb I u x * comb I u x)) := by
  have := Real.abs_le_sqrt (H.2 x i hi)
  rwa [Real.sqrt_mul (sq_nonneg _), Real.sqrt_sq (H.1 i)] at this

theorem form_comm (A : ℕ → ℕ → ℝ) (x y : ℕ → ℝ) : form I A x y = form I (fun i k => A k i) y x := by
  unfold form
  rw [Finset.sum_comm]
  exact Finset.sum_congr rfl fun i _ => Finset.sum_congr rfl fun k _ => by ring

/-- Exchange of the two directions. -/
theorem tform_swap (A B : ℕ → ℕ → ℝ) (c : ℕ → ℕ → ℝ) : tform I A B c = tform I B A fun j i => c i j := by
  unfold tform form
  simp only [Finset.mul_sum]
  have e : ∀ F : ℕ → ℕ → ℕ → ℕ → ℝ, ∑ i ∈ I, ∑ k ∈ I, ∑ j ∈ I, ∑ l ∈ I, F i k j l = ∑ j ∈ I, ∑ l ∈ I, ∑ i ∈ I, ∑ k ∈ I, F i k j l := by
    intro F
    calc _ = ∑ i ∈ I, ∑ j ∈ I, ∑ k ∈ I, ∑ l ∈ I, F i k j l := Finset.sum_congr rfl fun i _ => Finset.sum_comm
      _ = ∑ j ∈ I, ∑ i ∈ I, ∑ k ∈ I, ∑ l ∈ I, F i k j l := Finset.sum_comm
      _ = ∑ j ∈ I, ∑ i ∈ I, ∑ l ∈ I, ∑ k ∈ I, F i k j l :=
        Finset.sum_congr rfl fun j _ => Finset.sum_congr rfl fun i _ => Finset.sum_comm
      _ = _ := Finset.sum_congr rfl fun j _ => Finset.sum_comm
  rw [e]
  exact Finset.sum_congr rfl fun j _ => Finset.sum_congr rfl fun l _ => Finset.sum_congr rfl fun i _ =>
    Finset.sum_congr rfl fun k _ => by ring

theorem tnorm_swap (u v : ℕ → ℝ[X]) (c : ℕ → ℕ → ℝ) : tnorm I u v c = tnorm I v u fun j i => c i j := tform_swap _ _ _

/-- A row of the array is controlled by the whole. -/
theorem row_le {u : ℕ → ℝ[X]} {h : ℕ → ℝ} (H : CoefBound I u h) (v : ℕ → ℝ[X]) (c : ℕ → ℕ → ℝ) {i : ℕ} (hi : i ∈ I) :
    pint (comb I v (c i) * comb I v (c i)) ≤ h i ^ 2 * tnorm I u v c := by
  have e : h i ^ 2 * tnorm I u v c = pint (C (h i ^ 2) * ∑ k ∈ I, ∑ l ∈ I, C (pint (u k * u l)) * (comb I v (c k) * comb I v (c l))) := by
    rw [pint_C_mul, pint_sum', tnorm, tform]
    congr 1
    refine Finset.sum_congr rfl fun k _ => ?_
    rw [pint_sum']
    exact Finset.sum_congr rfl fun l _ => by rw [pint_C_mul, pint_comb]
  rw [e]
  refine pint_le_pint fun t => ?_
  have := H.2 (fun k => (comb I v (c k)).eval t) i hi
  rw [pint_comb] at this
  simp only [eval_mul, eval_C, eval_finsetSum]
  rw [← pow_two]
  refine this.trans (le_of_eq ?_)
  unfold form
  congr 1
  exact Finset.sum_congr rfl fun k _ => Finset.sum_congr rfl fun l _ => by ring

theorem row_sqrt {u : ℕ → ℝ[X]} {h : ℕ → ℝ} (H : CoefBound I u h) (v : ℕ → ℝ[X]) (c : ℕ → ℕ → ℝ) {i : ℕ} (hi : i ∈ I) :
    √(pint (comb I v (c i) * comb I v (c i))) ≤ h i * √(tnorm I u v c) := by
  refine (Real.sqrt_le_sqrt (row_le H v c hi)).trans ?_
  rw [Real.sqrt_mul (sq_nonneg _), Real.sqrt_sq (H.1 i)]

/-- The weighted size of a table. -/
def wsize (I : Finset ℕ) (E : ℕ → ℕ → ℝ) (h h' : ℕ → ℝ) : ℝ := ∑ i ∈ I, ∑ k ∈ I, |E i k| * h i * h' k

/-- A small table gives a small form. -/
theorem form_le {u v : ℕ → ℝ[X]} {h h' : ℕ → ℝ} (H : CoefBound I u h) (H' : CoefBound I v h') (E : ℕ → ℕ → ℝ) (x y : ℕ → ℝ) :
    |form I E x y| ≤ wsize I E h h' * √(pint (comb I u x * comb I u x)) * √(pint (comb I v y * comb I v y)) := by
  unfold form wsize
  rw [Finset.sum_mul, Finset.sum_mul]
  refine (Finset.abs_sum_le_sum_abs _ _).trans (Finset.sum_le_sum fun i hi => ?_)
  rw [Finset.sum_mul, Finset.sum_mul]
  refine (Finset.abs_sum_le_sum_abs _ _).trans (Finset.sum_le_sum fun k hk => ?_)
  rw [abs_mul, abs_mul]
  have h1 := mul_le_mul (H.abs x hi) (H'.abs y hk) (abs_nonneg _) (mul_nonneg (H.1 i) (Real.sqrt_nonneg _))
  have h2 := mul_le_mul_of_nonneg_right h1 (abs_nonneg (E i k))
  refine h2.trans (le_of_eq ?_)
  ring

/-- A small table times a bounded one. -/
theorem tform_le {u v w w' : ℕ → ℝ[X]} {h h' : ℕ → ℝ} (H : CoefBound I u h) (H' : CoefBound I v h') (E B : ℕ → ℕ → ℝ) {β : ℝ}
    (hβ : 0 ≤ β) (hB : ∀ x y, |form I B x y| ≤ β * √(pint (comb I w x * comb I w x)) * √(pint (comb I w' y * comb I w' y)))
    (c : ℕ → ℕ → ℝ) : |tform I E B c| ≤ wsize I E h h' * β * √(tnorm I u w c) * √(tnorm I v w' c) := by
  unfold tform wsize
  rw [Finset.sum_mul, Finset.sum_mul, Finset.sum_mul]
  refine (Finset.abs_sum_le_sum_abs _ _).trans (Finset.sum_le_sum fun i hi => ?_)
  rw [Finset.sum_mul, Finset.sum_mul, Finset.sum_mul]
  refine (Finset.abs_sum_le_sum_abs _ _).trans (Finset.sum_le_sum fun k hk => ?_)
  rw [abs_mul]
  have h1 := mul_le_mul (row_sqrt H w c hi) (row_sqrt H' w' c hk) (Real.sqrt_nonneg _) (mul_nonneg (H.1 i) (Real.sqrt_nonneg _))
  have h2 : |form I B (c i) (c k)| ≤ β * (h i * √(tnorm I u w c) * (h' k * √(tnorm I v w' c))) :=
    (hB (c i) (c k)).trans (by rw [mul_assoc]; exact mul_le_mul_of_nonneg_left h1 hβ)
  refine (mul_le_mul_of_nonneg_left h2 (abs_nonneg (E i k))).trans (le_of_eq ?_)
  ring

theorem tform_sub (A A' B B' : ℕ → ℕ → ℝ) (c : ℕ → ℕ → ℝ) : tform I A B c - tform I A' B' c
    = tform I (fun i k => A i k - A' i k) B c + tform I A' (fun i k => B i k - B' i k) c := by
  unfold tform form
  rw [← Finset.sum_sub_distrib, ← Finset.sum_add_distrib]
  refine Finset.sum_congr rfl fun i _ => ?_
  rw [← Finset.sum_sub_distrib, ← Finset.sum_add_distrib]
  refine Finset.sum_congr rfl fun k _ => ?_
  simp only [mul_sub, Finset.sum_sub_distrib, sub_mul]
  ring

theorem form_add (A B : ℕ → ℕ → ℝ) (x y : ℕ → ℝ) : form I A x y = form I B x y + form I (fun i k => A i k - B i k) x y := by
  unfold form
  rw [← Finset.sum_add_distrib]
  refine Finset.sum_congr rfl fun i _ => ?_
  rw [← Finset.sum_add_distrib]
  exact Finset.sum_congr rfl fun k _ => by ring

/-- A product of two tables close to the integrals is close to the product of the integrals, relative to the mean squares. -/
theorem tensor_close {u v w w' : ℕ → ℝ[X]} {hu hv hw hw' : ℕ → ℝ} (Hu : CoefBound I u hu) (Hv : CoefBound I v hv)
    (Hw : CoefBound I w hw) (Hw' : CoefBound I w' hw') {V V' : ℕ → ℕ → ℝ} {δ : ℝ} (hδ : 0 ≤ δ)
    (h1 : wsize I (fun i k => V i k - pint (u i * v k)) hu hv ≤ δ)
    (h2 : wsize I (fun j l => V' j l - pint (w j * w' l)) hw hw' ≤ δ) (c : ℕ → ℕ → ℝ) :
    |tform I V V' c - tform I (fun i k => pint (u i * v k)) (fun j l => pint (w j * w' l)) c|
      ≤ (2 * δ + δ ^ 2) * (√(tnorm I u w c) * √(tnorm I v w' c)) := by
  have cs (u v : ℕ → ℝ[X]) (x y : ℕ → ℝ) : |form I (fun i k => pint (u i * v k)) x y|
      ≤ 1 * √(pint (comb I u x * comb I u x)) * √(pint (comb I v y * comb I v y)) := by
    rw [← pint_comb, one_mul]
    exact pint_cauchy _ _
  have hB (x y : ℕ → ℝ) : |form I V' x y| ≤ (1 + δ) * √(pint (comb I w x * comb I w x)) * √(pint (comb I w' y * comb I w' y)) := by
    rw [form_add V' (fun j l => pint (w j * w' l))]
    refine (abs_add_le _ _).trans ?_
    have a1 := cs w w' x y
    have a2 := form_le Hw Hw' (fun j l => V' j l - pint (w j * w' l)) x y
    have a3 := mul_le_mul_of_nonneg_right (mul_le_mul_of_nonneg_right h2 (Real.sqrt_nonneg (pint (comb I w x * comb I w x))))
      (Real.sqrt_nonneg (pint (comb I w' y * comb I w' y)))
    linarith
  rw [tform_sub]
  refine (abs_add_le _ _).trans ?_
  have b1 := tform_le Hu Hv (fun i k => V i k - pint (u i * v k)) V' (by linarith) hB c
  have b2 := tform_le Hw Hw' (fun j l => V' j l - pint (w j * w' l)) (fun i k => pint (u i * v k)) zero_le_one (cs u v)
    (fun j i => c i j)
  rw [← tform_swap, ← tnorm_swap u w c, ← tnorm_swap v w' c] at b2
  have hp := mul_nonneg (Real.sqrt_nonneg (tnorm I u w c)) (Real.sqrt_nonneg (tnorm I v w' c))
  have c1 := mul_le_mul_of_nonneg_right (mul_le_mul_of_nonneg_right h1 (show 0 ≤ 1 + δ by linarith)) hp
  have c2 := mul_le_mul_of_nonneg_right h2 hp
  linarith

end Composipy
