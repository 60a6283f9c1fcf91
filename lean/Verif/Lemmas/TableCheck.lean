import Verif.Gen.ShapeInts
import Verif.Props.ShapeTables
import Verif.Props.Bardell

/-!
# Exact integrals of the shape functions, computed in the kernel
-/

namespace Composipy
open Polynomial Spec

/-- Polynomial with the given integer coefficients, lowest degree first. -/
noncomputable def toPoly : List ℤ → ℝ[X]
  | [] => 0
  | a :: l => C (a : ℝ) + X * toPoly l

/-- Add coefficient lists. -/
def addZ : List ℤ → List ℤ → List ℤ
  | [], l => l
  | l, [] => l
  | a :: l, b :: l' => (a + b) :: addZ l l'

/-- Coefficients of the derivative. -/
def derivZ : List ℤ → List ℤ
  | [] => []
  | _ :: l => addZ l (0 :: derivZ l)

/-- Scaled `∫ x^q` over `[-1, 1]`. -/
def muZ (q : ℕ) : ℤ := if q % 2 = 0 then ((2 * momDen / (q + 1) : ℕ) : ℤ) else 0

/-- Scaled `∫ x^q p`. -/
def momZ : List ℤ → ℕ → ℤ
  | [], _ => 0
  | a :: l, q => a * muZ q + momZ l (q + 1)

/-- Inner product; the second list may be longer. -/
def dotZ : List ℤ → List ℤ → ℤ
  | a :: l, b :: l' => a * b + dotZ l l'
  | _, _ => 0

theorem toPoly_addZ (a b : List ℤ) : toPoly (addZ a b) = toPoly a + toPoly b := by
  induction a generalizing b with
  | nil => simp [addZ, toPoly]
  | cons x l ih =>
    cases b with
    | nil => simp [addZ, toPoly]
    | cons y l' => simp only [addZ, toPoly, ih, Int.cast_add, C_add]; ring

theorem toPoly_derivZ (l : List ℤ) : toPoly (derivZ l) = derivative (toPoly l) := by
  induction l with
  | nil => simp [derivZ, toPoly]
  | cons a l ih =>
    simp only [derivZ, toPoly, toPoly_addZ, ih, derivative_add, derivative_C, derivative_mul, derivative_X,
      Int.cast_zero, C_0]
    ring

/-- The scaled moments of monomials are integers. -/
theorem mu_check : (List.range 62).all (fun q => q % 2 = 1 ∨ (2 * momDen) % (q + 1) = 0) = true := by decide +kernel

theorem momDen_ne : (momDen : ℝ) ≠ 0 := by
  have : momDen ≠ 0 := by decide +kernel
  exact_mod_cast this

theorem pint_X_pow (q : ℕ) : pint (X ^ q) = if q % 2 = 0 then 2 / ((q : ℝ) + 1) else 0 := by
  have h : pint (X ^ q) = (1 - (-1) ^ (q + 1)) / ((q : ℝ) + 1) := by
    have h := pint_derivative (X ^ (q + 1))
    have e : derivative ((X : ℝ[X]) ^ (q + 1)) = C ((q : ℝ) + 1) * X ^ q := by
      rw [derivative_X_pow]; simp
    rw [e, pint_C_mul] at h
    have h0 : (q : ℝ) + 1 ≠ 0 := by positivity
    rw [eq_div_iff h0, mul_comm, h]
    simp
  rw [h]
  split_ifs with hq
  · have : Odd (q + 1) := by
      rw [Nat.odd_iff]; omega
    rw [this.neg_one_pow]; norm_num
  · have : Even (q + 1) := by
      rw [Nat.even_iff]; omega
    rw [this.neg_one_pow]; norm_num

theorem pint_mu (q : ℕ) (hq : q < 62) : pint (X ^ q) = (muZ q : ℝ) / momDen := by
  rw [pint_X_pow]
  unfold muZ
  split_ifs with h
  · have hc := List.all_eq_true.mp mu_check q (by simpa using hq)
    simp only [decide_eq_true_eq] at hc
    have hd : q + 1 ∣ 2 * momDen := Nat.dvd_of_mod_eq_zero (by omega)
    have h0 : ((q + 1 : ℕ) : ℝ) ≠ 0 := by positivity
    rw [Int.cast_natCast, Nat.cast_div hd h0]
    have := momDen_ne
    push_cast at h0 ⊢
    field_simp
  · simp

theorem pint_momZ (l : List ℤ) : ∀ q, q + l.length ≤ 62 → pint (X ^ q * toPoly l) = (momZ l q : ℝ) / momDen := by
  induction l with
  | nil => intro q _; simp [toPoly, momZ, pint]
  | cons a l ih =>
    intro q hq
    simp only [List.length_cons] at hq
    have e : X ^ q * toPoly (a :: l) = C (a : ℝ) * X ^ q + X ^ (q + 1) * toPoly l := by
      simp only [toPoly]; ring
    rw [e, pint_add, pint_C_mul, ih (q + 1) (by omega), pint_mu q (by omega)]
    simp only [momZ, Int.cast_add, Int.cast_mul]
    ring

theorem pint_dotZ (l : List ℤ) (r : List ℤ) : ∀ q n, r.length ≤ n → q + n + l.length ≤ 62 →
    pint (X ^ q * toPoly r * toPoly l) = (dotZ r ((List.range n).map fun j => momZ l (q + j)) : ℝ) / momDen := by
  induction r with
  | nil => intro q n _ _; simp [toPoly, dotZ, pint]
  | cons a r ih =>
    intro q n hn hq
    simp only [List.length_cons] at hn
    obtain ⟨n, rfl⟩ : ∃ k, n = k + 1 := ⟨n - 1, by omega⟩
    have e : X ^ q * toPoly (a :: r) * toPoly l = C (a : ℝ) * (X ^ q * toPoly l) + X ^ (q + 1) * toPoly r * toPoly l := by
      simp only [toPoly]; ring
    rw [e, pint_add, pint_C_mul, ih (q + 1) n (by omega) (by omega), pint_momZ l q (by omega),
      List.range_succ_eq_map]
    have hm : (List.map (fun j => momZ l (q + j)) (List.map Nat.succ (List.range n)))
        = (List.range n).map fun j => momZ l (q + 1 + j) := by
      rw [List.map_map]
      exact List.map_congr_left fun j _ => by simp [Nat.succ_eq_add_one, add_comm, add_left_comm]
    simp only [List.map_cons, dotZ, hm, Int.cast_add, Int.cast_mul, Nat.add_zero]
    ring

/-- The monomials of an integer coefficient list over a denominator, highest degree first, zeros left out. -/
def sparseOf (l : List ℤ) (d : ℕ) : List (ℚ × ℕ) :=
  (l.zipIdx.filter fun t => t.1 ≠ 0).reverse.map fun t => ((t.1 : ℚ) / d, t.2)

theorem sparseOf_val (l : List ℤ) (d : ℕ) (x : ℝ) :
    ((sparseOf l d).map fun t => (t.1 : ℝ) * x ^ t.2).sum = (toPoly l).eval x / d := by
  have aux : ∀ (l : List ℤ) (k : ℕ), (((l.zipIdx k).filter fun t => t.1 ≠ 0).map fun t => (t.1 : ℝ) * x ^ t.2).sum
      = x ^ k * (toPoly l).eval x := by
    intro l
    induction l with
    | nil => intro k; simp [toPoly]
    | cons a l ih =>
      intro k
      have := ih (k + 1)
      simp only [List.zipIdx_cons, List.filter_cons, toPoly, eval_add, eval_C, eval_mul, eval_X]
      split_ifs with h
      · rw [List.map_cons, List.sum_cons, this]; ring
      · simp only [ne_eq, decide_not, Bool.not_eq_true', decide_eq_false_iff_not, not_not] at h
        rw [this, h]; simp; ring
  have h := aux l 0
  simp only [pow_zero, one_mul] at h
  rw [← h]
  simp only [sparseOf, List.map_map, List.map_reverse, List.sum_reverse]
  rw [div_eq_mul_inv, ← List.sum_map_mul_right]
  congr 1
  refine List.map_congr_left fun t _ => ?_
  simp
  ring

/-- Kernel check: the integer data are the generated functions. -/
theorem shapeInt_check : (List.range 30).all (fun i => (shapeInt.getD i []).length ≤ 30 ∧ shapeDen.getD i 0 ≠ 0 ∧
    sparseOf (shapeInt.getD i []) (shapeDen.getD i 0) = genTerms i) = true := by
  decide +kernel

/-- Kernel check: the moment data. -/
theorem shapeMom_check : (List.range 30).all (fun i =>
    shapeMom0.getD i [] = (List.range 30).map (fun j => momZ (shapeInt.getD i []) j) ∧
    shapeMom1.getD i [] = (List.range 30).map (fun j => momZ (derivZ (shapeInt.getD i [])) j) ∧
    shapeMom2.getD i [] = (List.range 30).map (fun j => momZ (derivZ (derivZ (shapeInt.getD i []))) j)) = true := by
  decide +kernel

/-- The entry with text `x` is a number within `1e-8` of `num / den`, and equal to it if `exact`. -/
def entryOk (exact : Bool) (x : ℕ) (num : ℤ) (den : ℕ) : Bool :=
  match textTerms (unpack x) with
  | some [(q, 0, 0)] => decide (|q * den - num| * 100000000 ≤ den) && (!exact || decide (q * den = num))
  | _ => false

/-- All entries of a table against the exact integrals of the products of left and right functions. -/
def tableOk (t : List (List ℕ)) (mom : List (List ℤ)) (right : List ℤ → List ℤ) : Bool :=
  decide (t.length = 30) && (List.range 30).all fun i =>
    decide ((t.getD i []).length = 30) && (List.range 30).all fun k =>
      entryOk (Nat.ble 4 i && Nat.ble 4 k) ((t.getD i []).getD k 0)
        (dotZ (right (shapeInt.getD k [])) (mom.getD i []))
        (shapeDen.getD i 0 * shapeDen.getD k 0 * momDen)

theorem ok_FF : tableOk text_FF shapeMom0 id = true := by decide +kernel

end Composipy
