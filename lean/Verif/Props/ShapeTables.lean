import Verif.Model.Tables
import Verif.Model.ShapeFunctions
import Verif.Lemmas.Eval
import Mathlib.Algebra.Polynomial.Eval.Defs
import Mathlib.Algebra.Polynomial.Eval.SMul

/-!
# C46: the shipped shape-function texts are the generated functions
-/

namespace Composipy
open Polynomial

/-- Monomials of the generated function `i`, highest degree first. -/
def genTerms : ℕ → List (ℚ × ℕ)
  | 0 => [(1/4, 3), (-3/4, 1), (1/2, 0)]
  | 1 => [(1/8, 3), (-1/8, 2), (-1/8, 1), (1/8, 0)]
  | 2 => [(-1/4, 3), (3/4, 1), (1/2, 0)]
  | 3 => [(1/8, 3), (1/8, 2), (-1/8, 1), (-1/8, 0)]
  | i => (List.range (i / 2 + 1)).map fun n => (orthCoef (i + 1) n, i - 2 * n)

theorem genTerms_val (i : ℕ) (x : ℝ) :
    ((genTerms i).map fun t => (t.1 : ℝ) * x ^ t.2).sum = (shape i).eval x := by
  match i with
  | 0 => simp [genTerms, shape, bardell]; ring
  | 1 => simp [genTerms, shape, bardell]; ring
  | 2 => simp [genTerms, shape, bardell]; ring
  | 3 => simp [genTerms, shape, bardell]; ring
  | k + 4 =>
    have h : genTerms (k + 4) = (List.range ((k + 4) / 2 + 1)).map fun n => (orthCoef (k + 5) n, k + 4 - 2 * n) := rfl
    have hb : bardell (k + 4) = orthPoly (k + 5) := rfl
    rw [h, shape, hb, orthPoly, Polynomial.map_sum, Polynomial.eval_finset_sum, List.map_map]
    have hsub : Finset.range ((k + 4) / 2 + 1) ⊆ Finset.range ((k + 5) / 2 + 1) := by
      intro a ha; simp at ha ⊢; omega
    rw [← Finset.sum_subset hsub]
    · rw [← List.sum_toFinset _ List.nodup_range]
      have : (List.range ((k + 4) / 2 + 1)).toFinset = Finset.range ((k + 4) / 2 + 1) := by
        ext a; simp
      rw [this]
      refine Finset.sum_congr rfl fun n hn => ?_
      have : 2 * n + 1 ≤ k + 5 := by simp at hn; omega
      have e : k + 5 - 2 * n - 1 = k + 4 - 2 * n := by omega
      simp [this, e]
    · intro n hn hn'
      have : ¬ 2 * n + 1 ≤ k + 5 := by simp at hn hn'; omega
      simp [this]

/-- The generated function as monomials in `xi`. -/
def xiTerms (i : ℕ) : Terms := (genTerms i).map fun t => (t.1, t.2, 0)
/-- The generated function as monomials in `eta`. -/
def etaTerms (i : ℕ) : Terms := (genTerms i).map fun t => (t.1, 0, t.2)

theorem xiTerms_val (i : ℕ) (xi eta : ℝ) : Terms.val xi eta (xiTerms i) = (shape i).eval xi := by
  rw [← genTerms_val]
  simp only [Terms.val, xiTerms, List.map_map]
  congr 1
  exact List.map_congr_left fun t _ => by simp [termVal]

theorem etaTerms_val (i : ℕ) (xi eta : ℝ) : Terms.val xi eta (etaTerms i) = (shape i).eval eta := by
  rw [← genTerms_val]
  simp only [Terms.val, etaTerms, List.map_map]
  congr 1
  exact List.map_congr_left fun t _ => by simp [termVal]

/-- Kernel check of the 50 texts in `xi`. -/
theorem check_xi : (List.range 50).all (fun i => textTerms (unpack (text_factors.getD i 0)) = some (xiTerms i)) = true := by
  decide +kernel

/-- Exchange the two variables. -/
def Terms.swap (ts : Terms) : Terms := ts.map fun t => (t.1, t.2.2, t.2.1)

/-- Kernel check of the 50 texts in `eta`: they are the texts in `xi` with the variables exchanged. -/
theorem check_eta : (List.range 50).all (fun i => textTerms (unpack (text_factors.getD (50 + i) 0))
    = (textTerms (unpack (text_factors.getD i 0))).map Terms.swap) = true := by
  decide +kernel

/-- The `FXI` texts are the first 50 factor texts. -/
theorem check_fxi : text_FXI = text_factors.take 50 := by decide +kernel

/-- Kernel check of the 2500 factor numbers: one factor is `i` in `xi`, the other `j` in `eta`. -/
theorem check_ids : ids_S.length = 50 ∧ (List.range 50).all (fun i =>
    (ids_S.getD i []).length = 50 ∧ (List.range 50).all fun j =>
      let pq := (ids_S.getD i []).getD j (0, 0)
      pq = (i, 50 + j) ∨ pq = (50 + j, i)) = true := by
  decide +kernel

theorem factor_xi {i : ℕ} (h : i < 50) : textTerms (unpack (text_factors.getD i 0)) = some (xiTerms i) := by
  have := List.all_eq_true.mp check_xi i (by simpa using h)
  simpa using this

theorem factor_eta {i : ℕ} (h : i < 50) : textTerms (unpack (text_factors.getD (50 + i) 0)) = some (etaTerms i) := by
  have := List.all_eq_true.mp check_eta i (by simpa using h)
  rw [factor_xi h] at this
  simp only [decide_eq_true_eq, Option.map_some] at this
  rw [this]
  simp [Terms.swap, xiTerms, etaTerms]

/-- **C46** `fxi(i, xi)` is the generated shape function, for every index of the table and every `xi`;
other indices raise `KeyError`. -/
theorem C46_fxi (i : ℕ) (xi : ℝ) :
    fxi i xi = if i < 50 then .ok ((shape i).eval xi) else .error .keyError := by
  have hlen : text_FXI.length = 50 := by decide +kernel
  unfold fxi
  split_ifs with h
  · have h1 : text_FXI[i]? = some (text_factors.getD i 0) := by
      have hl : i < text_factors.length := by
        have : text_factors.length = 100 := by decide +kernel
        omega
      rw [check_fxi, List.getElem?_take_of_lt h, List.getElem?_eq_getElem hl]
      simp [List.getD, hl]
    rw [h1]
    dsimp only
    rw [pyEval_of_terms (factor_xi h), xiTerms_val]
  · rw [List.getElem?_eq_none (by omega)]

/-- Non-vacuity for C46: the text of index 4 is `xi**4/8 - xi**2/4 + 1/8`. -/
example : fxi 4 2 = .ok (9 / 8) := by
  rw [C46_fxi, if_pos (by norm_num), ← genTerms_val]
  norm_num [genTerms, orthCoef, List.range_succ, Nat.doubleFactorial, Nat.factorial]

/-- **C46** `S[(i, j)]` evaluates to the product of the generated functions of `xi` and `eta`, for all 2500
pairs and all points; other keys raise `KeyError`. -/
theorem C46_sxieta (i j : ℕ) (xi eta : ℝ) :
    sxieta_ij (i, j) xi eta =
      if i < 50 ∧ j < 50 then .ok ((shape i).eval xi * (shape j).eval eta) else .error .keyError := by
  obtain ⟨hl, hc⟩ := check_ids
  have row : ∀ i, i < 50 → ∃ r, ids_S[i]? = some r ∧ r.length = 50 ∧ ∀ j, j < 50 →
      r[j]? = some (i, 50 + j) ∨ r[j]? = some (50 + j, i) := by
    intro i hi
    have hi' : i < ids_S.length := by omega
    have h := List.all_eq_true.mp hc i (by simpa using hi)
    simp only [decide_eq_true_eq, List.all_eq_true, List.mem_range] at h
    have hg : ids_S.getD i [] = ids_S[i] := by simp [List.getD, hi']
    rw [hg] at h
    refine ⟨ids_S[i], List.getElem?_eq_getElem hi', h.1, fun j hj => ?_⟩
    have hj' : j < ids_S[i].length := by omega
    have h2 := h.2 j hj
    have hg2 : ids_S[i].getD j (0, 0) = ids_S[i][j] := by simp [List.getD, hj']
    rw [hg2] at h2
    rw [List.getElem?_eq_getElem hj']
    simpa using h2
  unfold sxieta_ij textS
  by_cases hi : i < 50
  · obtain ⟨r, hr, hrl, hrj⟩ := row i hi
    simp only [hr]
    by_cases hj : j < 50
    · rw [if_pos ⟨hi, hj⟩]
      rcases hrj j hj with h | h <;> simp only [h, ok_bind]
      · rw [pyEval_of_terms (textTerms_product (factor_xi hi) (factor_eta hj)), Terms.val_mul, xiTerms_val, etaTerms_val]
      · rw [pyEval_of_terms (textTerms_product (factor_eta hj) (factor_xi hi)), Terms.val_mul, xiTerms_val, etaTerms_val,
          mul_comm]
    · rw [List.getElem?_eq_none (by omega), if_neg (fun h => hj h.2)]
      rfl
  · rw [List.getElem?_eq_none (by omega), if_neg (fun h => hi h.1)]
    rfl

/-- **C46** `sxieta` evaluates every requested pair: the vector of products, in order. -/
theorem C46_sxieta_vector (s : List (ℕ × ℕ)) (hs : ∀ p ∈ s, p.1 < 50 ∧ p.2 < 50) (xi eta : ℝ) :
    sxieta s xi eta = .ok (s.map fun p => (shape p.1).eval xi * (shape p.2).eval eta) := by
  unfold sxieta
  induction s with
  | nil => rfl
  | cons p ps ih =>
    rw [List.mapM_cons, show p = (p.1, p.2) from rfl, C46_sxieta, if_pos (hs p (by simp)),
      ih fun q hq => hs q (by simp [hq])]
    rfl

end Composipy
