import Verif.Gen.Duals
import Verif.Lemmas.Tensor
import Verif.Props.TableError

/-!
# Coefficients of a shape are controlled by its mean squares, and the rounding of the shipped tables, checked in the kernel
-/

namespace Composipy
open Polynomial Spec

/-! ## Rounding of the tables -/

/-- The entry with text `x` is within `e` units of `1e-22` of `num / den`. -/
def entryErr (e : ℕ) (x : ℕ) (num : ℤ) (den : ℕ) : Bool :=
  match textTerms (unpack x) with
  | some [(q, 0, 0)] => decide (|q * den - num| * 10000000000000000000000 ≤ e * den)
  | _ => false

/-- All entries of a table against a table of errors. -/
def tableErr (err : List (List ℕ)) (t : List (List ℕ)) (mom : List (List ℤ)) (right : List ℤ → List ℤ) : Bool :=
  decide (t.length = 30) && (List.range 30).all fun i =>
    decide ((t.getD i []).length = 30) && (List.range 30).all fun k =>
      entryErr ((err.getD i []).getD k 0) ((t.getD i []).getD k 0) (dotZ (right (shapeInt.getD k [])) (mom.getD i []))
        (shapeDen.getD i 0 * shapeDen.getD k 0 * momDen)

theorem err_ok_FF : tableErr err_FF text_FF shapeMom0 id = true := by decide +kernel
theorem err_ok_FXI_F : tableErr err_FXI_F text_FXI_F shapeMom1 id = true := by decide +kernel
theorem err_ok_FXI_FXI : tableErr err_FXI_FXI text_FXI_FXI shapeMom1 derivZ = true := by decide +kernel
theorem err_ok_FXIXI_F : tableErr err_FXIXI_F text_FXIXI_F shapeMom2 id = true := by decide +kernel
theorem err_ok_FXIXI_FXI : tableErr err_FXIXI_FXI text_FXIXI_FXI shapeMom2 derivZ = true := by decide +kernel
theorem err_ok_FXIXI_FXIXI : tableErr err_FXIXI_FXIXI text_FXIXI_FXIXI shapeMom2 (derivZ ∘ derivZ) = true := by decide +kernel

/-- The shapes below `B` that vanish at both ends. -/
def Spec.EndShape (B : ℕ) (i : ℕ) : Prop := i < B ∧ i ≠ 0 ∧ i ≠ 2

/-- The same as a list. -/
def endShapes (B : ℕ) : List ℕ := (List.range B).filter fun i => i ≠ 0 && i ≠ 2

/-- The sum of the errors weighted with the norms of the dual polynomials. -/
def errSum (B : ℕ) (err : List (List ℕ)) (h h' : List ℕ) : ℕ :=
  ((endShapes B).map fun i => ((endShapes B).map fun k => (err.getD i []).getD k 0 * h.getD i 0 * h'.getD k 0).sum).sum

/-! ## Dual polynomials -/

/-- Kernel check of the dual polynomials. -/
def dualOk (B : ℕ) (num : List (List ℤ)) (den norm : List ℕ) (mom : List (List ℤ)) : Bool :=
  (endShapes B).all fun i =>
    decide ((num.getD i []).length ≤ 30) && decide (den.getD i 0 ≠ 0) &&
    decide (dotZ (num.getD i []) ((List.range 30).map fun j => momZ (num.getD i []) j)
      ≤ ((norm.getD i 0 ^ 2 * den.getD i 0 ^ 2 * momDen : ℕ) : ℤ)) &&
    (endShapes B).all fun k => decide (dotZ (num.getD i []) (mom.getD k [])
      = if i = k then ((den.getD i 0 * shapeDen.getD k 0 * momDen : ℕ) : ℤ) else 0)

theorem dual_ok0_14 : dualOk 14 dualNum0_14 dualDen0_14 dualNorm0_14 shapeMom0 = true := by decide +kernel
theorem dual_ok1_14 : dualOk 14 dualNum1_14 dualDen1_14 dualNorm1_14 shapeMom1 = true := by decide +kernel
theorem dual_ok2_14 : dualOk 14 dualNum2_14 dualDen2_14 dualNorm2_14 shapeMom2 = true := by decide +kernel
theorem dual_ok0_20 : dualOk 20 dualNum0_20 dualDen0_20 dualNorm0_20 shapeMom0 = true := by decide +kernel
theorem dual_ok1_20 : dualOk 20 dualNum1_20 dualDen1_20 dualNorm1_20 shapeMom1 = true := by decide +kernel
theorem dual_ok2_20 : dualOk 20 dualNum2_20 dualDen2_20 dualNorm2_20 shapeMom2 = true := by decide +kernel
theorem dual_ok0_30 : dualOk 30 dualNum0_30 dualDen0_30 dualNorm0_30 shapeMom0 = true := by decide +kernel
theorem dual_ok1_30 : dualOk 30 dualNum1_30 dualDen1_30 dualNorm1_30 shapeMom1 = true := by decide +kernel
theorem dual_ok2_30 : dualOk 30 dualNum2_30 dualDen2_30 dualNorm2_30 shapeMom2 = true := by decide +kernel

theorem endShapes_nodup (B : ℕ) : (endShapes B).Nodup := (List.nodup_range).filter _

/-- The same as a finite set. -/
def endSet (B : ℕ) : Finset ℕ := (endShapes B).toFinset

theorem mem_endSet {B i : ℕ} : i ∈ endSet B ↔ EndShape B i := by
  simp [endSet, endShapes, EndShape]

theorem mem_endShapes {B i : ℕ} : i ∈ endShapes B ↔ i ∈ endSet B := by simp [endSet]

/-- The integral of a product of two integer polynomials. -/
theorem pint_dot {r l : List ℤ} (hr : r.length ≤ 30) (hl : l.length ≤ 30) :
    pint (toPoly r * toPoly l) = (dotZ r ((List.range 30).map fun j => momZ l j) : ℝ) / momDen := by
  have := pint_dotZ l r 0 30 hr (by omega)
  simpa only [pow_zero, one_mul, Nat.zero_add] using this

/-- What a passed check of the dual polynomials means. -/
theorem coefBound_of {B : ℕ} (hB : B ≤ 30) {num : List (List ℤ)} {den norm : List ℕ} {mom : List (List ℤ)} {left : List ℤ → List ℤ}
    {dl : ℝ[X] → ℝ[X]} (hok : dualOk B num den norm mom = true)
    (hmom : ∀ i < 30, mom.getD i [] = (List.range 30).map fun j => momZ (left (shapeInt.getD i [])) j)
    (hleft : ∀ l, (left l).length ≤ l.length) (hdl : ∀ c l, dl (C c * toPoly l) = C c * toPoly (left l)) :
    CoefBound (endSet B) (fun i => dl (shape i)) (fun i => (norm.getD i 0 : ℕ)) := by
  refine ⟨fun i => Nat.cast_nonneg _, fun x i hi => ?_⟩
  have h := List.all_eq_true.mp hok i (mem_endShapes.mpr hi)
  simp only [Bool.and_eq_true, decide_eq_true_eq] at h
  obtain ⟨⟨⟨h1, h2⟩, h3⟩, h4⟩ := h
  have h2' : (den.getD i 0 : ℝ) ≠ 0 := by exact_mod_cast h2
  have hmd := momDen_ne
  set g : ℝ[X] := C (1 / (den.getD i 0 : ℝ)) * toPoly (num.getD i []) with hg
  have e1 : pint (g * g) ≤ (norm.getD i 0 : ℝ) ^ 2 := by
    have h3' : (dotZ (num.getD i []) ((List.range 30).map fun j => momZ (num.getD i []) j) : ℝ)
        ≤ (norm.getD i 0 : ℝ) ^ 2 * (den.getD i 0 : ℝ) ^ 2 * momDen := by exact_mod_cast h3
    have hpos : (0 : ℝ) < (den.getD i 0 : ℝ) ^ 2 * momDen :=
      mul_pos (by positivity) (lt_of_le_of_ne (Nat.cast_nonneg _) hmd.symm)
    rw [hg, show C (1 / (den.getD i 0 : ℝ)) * toPoly (num.getD i []) * (C (1 / (den.getD i 0 : ℝ)) * toPoly (num.getD i []))
      = C (1 / (den.getD i 0 : ℝ) * (1 / (den.getD i 0 : ℝ))) * (toPoly (num.getD i []) * toPoly (num.getD i [])) by rw [C_mul]; ring,
      pint_C_mul, pint_dot h1 h1]
    have e : 1 / (den.getD i 0 : ℝ) * (1 / (den.getD i 0 : ℝ))
          * ((dotZ (num.getD i []) ((List.range 30).map fun j => momZ (num.getD i []) j) : ℝ) / momDen)
        = (dotZ (num.getD i []) ((List.range 30).map fun j => momZ (num.getD i []) j) : ℝ) / ((den.getD i 0 : ℝ) ^ 2 * momDen) := by
      field_simp
    rw [e, div_le_iff₀ hpos]
    linarith
  have e2 : ∀ k ∈ endSet B, pint (g * dl (shape k)) = if i = k then 1 else 0 := by
    intro k hk
    have hk30 : k < 30 := by have := (mem_endSet.mp hk).1; omega
    have h5 := List.all_eq_true.mp h4 k (mem_endShapes.mpr hk)
    simp only [decide_eq_true_eq] at h5
    obtain ⟨lk, dk, sk⟩ := shape_int hk30
    rw [sk, hdl, hg, show C (1 / (den.getD i 0 : ℝ)) * toPoly (num.getD i []) * (C (1 / (shapeDen.getD k 0 : ℝ)) * toPoly (left (shapeInt.getD k [])))
      = C (1 / (den.getD i 0 : ℝ) * (1 / (shapeDen.getD k 0 : ℝ))) * (toPoly (num.getD i []) * toPoly (left (shapeInt.getD k []))) by
        rw [C_mul]; ring, pint_C_mul, pint_dot h1 ((hleft _).trans lk), ← hmom k hk30, h5]
    split_ifs
    · push_cast
      field_simp
    · simp
  have e3 : x i = pint (g * comb (endSet B) (fun i => dl (shape i)) x) := by
    unfold comb
    rw [Finset.mul_sum, pint_sum']
    rw [Finset.sum_eq_single i]
    · rw [show g * (C (x i) * dl (shape i)) = C (x i) * (g * dl (shape i)) by ring, pint_C_mul, e2 i hi, if_pos rfl, mul_one]
    · intro k hk hne
      rw [show g * (C (x k) * dl (shape k)) = C (x k) * (g * dl (shape k)) by ring, pint_C_mul, e2 k hk, if_neg (Ne.symm hne), mul_zero]
    · exact fun h => absurd hi h
  have h6 := pint_cauchy g (comb (endSet B) (fun i => dl (shape i)) x)
  rw [← e3] at h6
  have h7 := mul_self_le_mul_self (abs_nonneg _) h6
  rw [abs_mul_abs_self] at h7
  have s1 := Real.mul_self_sqrt (pint_sq_nonneg g)
  have s2 := Real.mul_self_sqrt (pint_sq_nonneg (comb (endSet B) (fun i => dl (shape i)) x))
  have h8 : x i * x i ≤ pint (g * g) * pint (comb (endSet B) (fun i => dl (shape i)) x * comb (endSet B) (fun i => dl (shape i)) x) := by
    rw [← s1, ← s2]
    refine h7.trans (le_of_eq ?_)
    rw [s1, s2]
    linear_combination (√(pint (comb (endSet B) (fun i => dl (shape i)) x * comb (endSet B) (fun i => dl (shape i)) x))) ^ 2 * s1
      + (pint (g * g)) * s2
  rw [pow_two (x i)]
  exact h8.trans (mul_le_mul_of_nonneg_right e1 (pint_sq_nonneg _))

/-- What a passed table of errors means. -/
theorem entry_err {err t : List (List ℕ)} {mom : List (List ℤ)} {right left : List ℤ → List ℤ}
    {dl dr : ℝ[X] → ℝ[X]} (ht : tableErr err t mom right = true)
    (hmom : ∀ i < 30, mom.getD i [] = (List.range 30).map fun j => momZ (left (shapeInt.getD i [])) j)
    (hleft : ∀ l, (left l).length ≤ l.length) (hright : ∀ l, (right l).length ≤ l.length)
    (hdl : ∀ c l, dl (C c * toPoly l) = C c * toPoly (left l)) (hdr : ∀ c l, dr (C c * toPoly l) = C c * toPoly (right l))
    {i k : ℕ} (hi : i < 30) (hk : k < 30) :
    |readVal (evalAt t (i, k)) - pint (dl (shape i) * dr (shape k))| ≤ ((err.getD i []).getD k 0 : ℕ) * 1e-22 := by
  simp only [tableErr, Bool.and_eq_true, decide_eq_true_eq, List.all_eq_true, List.mem_range] at ht
  obtain ⟨hl, hrow⟩ := ht
  obtain ⟨hrl, hent⟩ := hrow i hi
  have he := hent k hk
  obtain ⟨li, di, si⟩ := shape_int hi
  obtain ⟨lk, dk, sk⟩ := shape_int hk
  have hi' : i < t.length := by omega
  have hg : t.getD i [] = t[i] := by simp [List.getD, hi']
  rw [hg] at hrl he
  have hk' : k < t[i].length := by omega
  have hg2 : t[i].getD k 0 = t[i][k] := by simp [List.getD, hk']
  rw [hg2] at he
  set num := dotZ (right (shapeInt.getD k [])) (mom.getD i []) with hnum
  set den := shapeDen.getD i 0 * shapeDen.getD k 0 * momDen with hden
  have hden0 : (den : ℝ) ≠ 0 := by
    rw [hden]; push_cast
    exact mul_ne_zero (mul_ne_zero di dk) momDen_ne
  have hint : pint (dl (shape i) * dr (shape k)) = (num : ℝ) / den := by
    rw [si, sk, hdl, hdr, show C (1 / (shapeDen.getD i 0 : ℝ)) * toPoly (left (shapeInt.getD i []))
        * (C (1 / (shapeDen.getD k 0 : ℝ)) * toPoly (right (shapeInt.getD k [])))
      = C (1 / (shapeDen.getD i 0 : ℝ) * (1 / (shapeDen.getD k 0 : ℝ))) * (toPoly (right (shapeInt.getD k [])) * toPoly (left (shapeInt.getD i []))) by
        rw [C_mul]; ring, pint_C_mul, pint_dot ((hright _).trans lk) ((hleft _).trans li), ← hmom i hi, hnum, hden]
    push_cast
    field_simp
  rw [hint]
  unfold entryErr at he
  split at he
  · rename_i q hq
    simp only [decide_eq_true_eq] at he
    have hval : Terms.val 0 0 [(q, 0, 0)] = (q : ℝ) := by simp [Terms.val, termVal]
    have hr : evalAt t (i, k) = .ok (q : ℝ) := by
      unfold evalAt textAt
      simp only [List.getElem?_eq_getElem hi', List.getElem?_eq_getElem hk', ok_bind]
      rw [pyEval_of_terms hq, hval]
    rw [hr]
    show |(q : ℝ) - num / den| ≤ _
    have hc : (|q * den - num| * 10000000000000000000000 : ℚ) ≤ ((err.getD i []).getD k 0 : ℕ) * den := he
    have hc' : |(q : ℝ) * den - num| * 10000000000000000000000 ≤ ((err.getD i []).getD k 0 : ℕ) * den := by exact_mod_cast hc
    have hpos : (0 : ℝ) < den := lt_of_le_of_ne (Nat.cast_nonneg _) hden0.symm
    have e : (q : ℝ) - num / den = (q * den - num) / den := by field_simp
    rw [e, abs_div, abs_of_pos hpos, div_le_iff₀ hpos]
    linarith
  · cases he

/-- The weighted size of the rounding, from the integer sum. -/
theorem wsize_le {B : ℕ} (hB : B ≤ 30) {E : ℕ → ℕ → ℝ} {err : List (List ℕ)} {h h' : List ℕ}
    (hE : ∀ i k, i < 30 → k < 30 → |E i k| ≤ ((err.getD i []).getD k 0 : ℕ) * 1e-22) {n : ℕ} (hn : errSum B err h h' ≤ n) :
    wsize (endSet B) E (fun i => (h.getD i 0 : ℕ)) (fun i => (h'.getD i 0 : ℕ)) ≤ n * 1e-22 := by
  have e : (errSum B err h h' : ℝ)
      = ∑ i ∈ endSet B, ∑ k ∈ endSet B, (((err.getD i []).getD k 0 : ℕ) : ℝ) * (h.getD i 0 : ℕ) * (h'.getD k 0 : ℕ) := by
    unfold errSum endSet
    rw [List.sum_toFinset _ (endShapes_nodup B)]
    push_cast
    rw [List.map_map]
    congr 1
    refine List.map_congr_left fun i _ => ?_
    rw [List.sum_toFinset _ (endShapes_nodup B)]
    simp only [Function.comp]
    push_cast
    rw [List.map_map]
    congr 1
    refine List.map_congr_left fun k _ => ?_
    simp only [Function.comp]
    push_cast
    ring
  have hn' : (errSum B err h h' : ℝ) ≤ n := by exact_mod_cast hn
  refine le_trans ?_ (mul_le_mul_of_nonneg_right hn' (by norm_num))
  rw [e, Finset.sum_mul]
  unfold wsize
  refine Finset.sum_le_sum fun i hi => ?_
  rw [Finset.sum_mul]
  refine Finset.sum_le_sum fun k hk => ?_
  have hi' : i < 30 := by have := (mem_endSet.mp hi).1; omega
  have hk' : k < 30 := by have := (mem_endSet.mp hk).1; omega
  have := mul_le_mul_of_nonneg_right (mul_le_mul_of_nonneg_right (hE i k hi' hk') (Nat.cast_nonneg (α := ℝ) (h.getD i 0)))
    (Nat.cast_nonneg (α := ℝ) (h'.getD k 0))
  linarith

end Composipy
