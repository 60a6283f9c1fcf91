import Verif.Lemmas.TableCheck

/-!
# C47: the pre-integrated tables are the integrals of the shape functions
-/

namespace Composipy
open Polynomial Spec

/-- Kernel check of the 900 entries of `ii_FXI_F`. -/
theorem ok_FXI_F : tableOk text_FXI_F shapeMom1 id = true := by decide +kernel
/-- Kernel check of the 900 entries of `ii_FXI_FXI`. -/
theorem ok_FXI_FXI : tableOk text_FXI_FXI shapeMom1 derivZ = true := by decide +kernel
/-- Kernel check of the 900 entries of `ii_FXIXI_F`. -/
theorem ok_FXIXI_F : tableOk text_FXIXI_F shapeMom2 id = true := by decide +kernel
/-- Kernel check of the 900 entries of `ii_FXIXI_FXI`. -/
theorem ok_FXIXI_FXI : tableOk text_FXIXI_FXI shapeMom2 derivZ = true := by decide +kernel
/-- Kernel check of the 900 entries of `ii_FXIXI_FXIXI`. -/
theorem ok_FXIXI_FXIXI : tableOk text_FXIXI_FXIXI shapeMom2 (derivZ ∘ derivZ) = true := by decide +kernel

/-- `0 ≤ i < 30`: the function over its common denominator. -/
theorem shape_int {i : ℕ} (hi : i < 30) : (shapeInt.getD i []).length ≤ 30 ∧ (shapeDen.getD i 0 : ℝ) ≠ 0 ∧
    shape i = C (1 / (shapeDen.getD i 0 : ℝ)) * toPoly (shapeInt.getD i []) := by
  have h := List.all_eq_true.mp shapeInt_check i (by simpa using hi)
  simp only [decide_eq_true_eq] at h
  obtain ⟨h1, h2, h3⟩ := h
  refine ⟨h1, by exact_mod_cast h2, Polynomial.funext fun x => ?_⟩
  rw [← genTerms_val, ← h3, sparseOf_val, eval_mul, eval_C]
  ring

theorem length_addZ (a b : List ℤ) : (addZ a b).length = max a.length b.length := by
  induction a generalizing b with
  | nil => simp [addZ]
  | cons x l ih => cases b with
    | nil => simp [addZ]
    | cons y l' => simp [addZ, ih]

theorem length_derivZ (l : List ℤ) : (derivZ l).length ≤ l.length := by
  induction l with
  | nil => simp [derivZ]
  | cons a l ih => simp [derivZ, length_addZ]; omega

/-- What a passed table check means for the reader of the table. -/
theorem entry_of_tableOk {t : List (List ℕ)} {mom : List (List ℤ)} {right left : List ℤ → List ℤ}
    {dl dr : ℝ[X] → ℝ[X]} (ht : tableOk t mom right = true)
    (hmom : ∀ i < 30, mom.getD i [] = (List.range 30).map fun j => momZ (left (shapeInt.getD i [])) j)
    (hleft : ∀ l, (left l).length ≤ l.length) (hright : ∀ l, (right l).length ≤ l.length)
    (hdl : ∀ c l, dl (C c * toPoly l) = C c * toPoly (left l)) (hdr : ∀ c l, dr (C c * toPoly l) = C c * toPoly (right l))
    {i k : ℕ} (hi : i < 30) (hk : k < 30) :
    ∃ q, evalAt t (i, k) = .ok q ∧ |q - ∫ x in (-1 : ℝ)..1, (dl (shape i)).eval x * (dr (shape k)).eval x| ≤ 1e-8 ∧
      (4 ≤ i → 4 ≤ k → q = ∫ x in (-1 : ℝ)..1, (dl (shape i)).eval x * (dr (shape k)).eval x) := by
  simp only [tableOk, Bool.and_eq_true, decide_eq_true_eq, List.all_eq_true, List.mem_range] at ht
  obtain ⟨hl, hrow⟩ := ht
  obtain ⟨hrl, hent⟩ := hrow i hi
  have he := hent k hk
  obtain ⟨li, di, si⟩ := shape_int hi
  obtain ⟨lk, dk, sk⟩ := shape_int hk
  have hi' : i < t.length := by omega
  have hg : t.getD i [] = t[i] := by simp [List.getD, hi']
  rw [hg] at hrl he
  have hk' : k < t[i].length := by omega
  have hg2 : t[i].getD k 0 = t[i][k] := by simp [List.getD, hk']
  rw [hg2] at he
  -- the exact integral
  set num := dotZ (right (shapeInt.getD k [])) (mom.getD i []) with hnum
  set den := shapeDen.getD i 0 * shapeDen.getD k 0 * momDen with hden
  have hden0 : (den : ℝ) ≠ 0 := by
    rw [hden]; push_cast
    exact mul_ne_zero (mul_ne_zero di dk) momDen_ne
  have hint : ∫ x in (-1 : ℝ)..1, (dl (shape i)).eval x * (dr (shape k)).eval x = (num : ℝ) / den := by
    have h1 := pint_dotZ (left (shapeInt.getD i [])) (right (shapeInt.getD k [])) 0 30
      ((hright _).trans lk) (by have := (hleft (shapeInt.getD i [])).trans li; omega)
    simp only [pow_zero, one_mul, Nat.zero_add, ← hmom i hi] at h1
    have h2 : (∫ x in (-1 : ℝ)..1, (dl (shape i)).eval x * (dr (shape k)).eval x)
        = pint (C (1 / (shapeDen.getD i 0 : ℝ) * (1 / (shapeDen.getD k 0 : ℝ)))
            * (toPoly (right (shapeInt.getD k [])) * toPoly (left (shapeInt.getD i [])))) := by
      rw [si, sk, hdl, hdr, pint]
      congr 1
      funext x
      simp only [eval_mul, eval_C]
      ring
    rw [h2, pint_C_mul, h1, hnum, hden]
    push_cast
    field_simp
  rw [hint]
  -- the entry
  unfold entryOk at he
  split at he
  · rename_i q hq
    simp only [Bool.and_eq_true, decide_eq_true_eq, Bool.or_eq_true, Bool.not_eq_true'] at he
    obtain ⟨h1, h2⟩ := he
    have hval : Terms.val 0 0 [(q, 0, 0)] = (q : ℝ) := by simp [Terms.val, termVal]
    refine ⟨q, ?_, ?_, ?_⟩
    · unfold evalAt textAt
      simp only [List.getElem?_eq_getElem hi', List.getElem?_eq_getElem hk', ok_bind]
      rw [pyEval_of_terms hq, hval]
    · have hc : (|q * den - num| * 100000000 : ℚ) ≤ den := h1
      have hc' : |(q : ℝ) * den - num| * 100000000 ≤ den := by exact_mod_cast hc
      have hpos : (0 : ℝ) < den := lt_of_le_of_ne (Nat.cast_nonneg _) hden0.symm
      have e : (q : ℝ) - num / den = (q * den - num) / den := by field_simp
      rw [e, abs_div, abs_of_pos hpos, div_le_iff₀ hpos]
      linarith
    · intro h4 h4'
      have hex : (Nat.ble 4 i && Nat.ble 4 k) = true := by
        rw [Bool.and_eq_true]; exact ⟨Nat.ble_eq.mpr h4, Nat.ble_eq.mpr h4'⟩
      rw [hex] at h2
      simp only [Bool.true_eq_false, false_or] at h2
      have : (q : ℝ) * den = num := by exact_mod_cast h2
      rw [← this]; field_simp
  · cases he

theorem mom_facts {i : ℕ} (hi : i < 30) :
    shapeMom0.getD i [] = (List.range 30).map (fun j => momZ (shapeInt.getD i []) j) ∧
    shapeMom1.getD i [] = (List.range 30).map (fun j => momZ (derivZ (shapeInt.getD i [])) j) ∧
    shapeMom2.getD i [] = (List.range 30).map (fun j => momZ (derivZ (derivZ (shapeInt.getD i []))) j) := by
  have h := List.all_eq_true.mp shapeMom_check i (by simpa using hi)
  simpa only [decide_eq_true_eq] using h

/-- `r` is a number within `1e-8` of `I`, and exactly `I` if `exact`. -/
def Spec.Near (r : Except PyErr ℝ) (exact : Prop) (I : ℝ) : Prop := ∃ q, r = .ok q ∧ |q - I| ≤ 1e-8 ∧ (exact → q = I)

theorem d1_C (c : ℝ) (l : List ℤ) : derivative (C c * toPoly l) = C c * toPoly (derivZ l) := by
  rw [derivative_C_mul, toPoly_derivZ]

theorem d2_C (c : ℝ) (l : List ℤ) : derivative (derivative (C c * toPoly l)) = C c * toPoly (derivZ (derivZ l)) := by
  rw [d1_C, d1_C]

theorem len1 (l : List ℤ) : (derivZ l).length ≤ l.length := length_derivZ l
theorem len2 (l : List ℤ) : (derivZ (derivZ l)).length ≤ l.length := (length_derivZ _).trans (length_derivZ l)

/-- **C47** all 5400 shipped entries, and the nine functions reading them, against the exact integrals over
`[-1, 1]`: within `1e-8` always and exactly equal for `i, k ≥ 4`. -/
theorem C47_integrals (i k : ℕ) (hi : i < 30) (hk : k < 30) :
    let f := fun i x => (shape i).eval x
    let f' := fun i x => (derivative (shape i)).eval x
    let f'' := fun i x => (derivative (derivative (shape i))).eval x
    let ex := 4 ≤ i ∧ 4 ≤ k
    Near (ii_ff (i, k)) ex (∫ x in (-1 : ℝ)..1, f i x * f k x) ∧
    Near (ii_fxi_f (i, k)) ex (∫ x in (-1 : ℝ)..1, f' i x * f k x) ∧
    Near (ii_f_fxi (i, k)) ex (∫ x in (-1 : ℝ)..1, f i x * f' k x) ∧
    Near (ii_fxi_fxi (i, k)) ex (∫ x in (-1 : ℝ)..1, f' i x * f' k x) ∧
    Near (ii_fxixi_f (i, k)) ex (∫ x in (-1 : ℝ)..1, f'' i x * f k x) ∧
    Near (ii_f_fxixi (i, k)) ex (∫ x in (-1 : ℝ)..1, f i x * f'' k x) ∧
    Near (ii_fxixi_fxi (i, k)) ex (∫ x in (-1 : ℝ)..1, f'' i x * f' k x) ∧
    Near (ii_fxi_fxixi (i, k)) ex (∫ x in (-1 : ℝ)..1, f' i x * f'' k x) ∧
    Near (ii_fxixi_fxixi (i, k)) ex (∫ x in (-1 : ℝ)..1, f'' i x * f'' k x) := by
  intro f f' f'' ex
  have t1 {i k : ℕ} (hi : i < 30) (hk : k < 30) := entry_of_tableOk (dl := id) (dr := id) (left := id) ok_FF
    (fun i hi => (mom_facts hi).1) (fun _ => le_rfl) (fun _ => le_rfl) (fun _ _ => rfl) (fun _ _ => rfl) hi hk
  have t2 {i k : ℕ} (hi : i < 30) (hk : k < 30) := entry_of_tableOk (dl := fun p => derivative p) (dr := id) (left := derivZ) ok_FXI_F
    (fun i hi => (mom_facts hi).2.1) len1 (fun _ => le_rfl) d1_C (fun _ _ => rfl) hi hk
  have t3 {i k : ℕ} (hi : i < 30) (hk : k < 30) := entry_of_tableOk (dl := fun p => derivative p) (dr := fun p => derivative p)
    (left := derivZ) ok_FXI_FXI
    (fun i hi => (mom_facts hi).2.1) len1 len1 d1_C d1_C hi hk
  have t4 {i k : ℕ} (hi : i < 30) (hk : k < 30) := entry_of_tableOk (dl := fun p => derivative (derivative p)) (dr := id)
    (left := fun l => derivZ (derivZ l)) ok_FXIXI_F
    (fun i hi => (mom_facts hi).2.2) len2 (fun _ => le_rfl) d2_C (fun _ _ => rfl) hi hk
  have t5 {i k : ℕ} (hi : i < 30) (hk : k < 30) := entry_of_tableOk (dl := fun p => derivative (derivative p))
    (dr := fun p => derivative p) (left := fun l => derivZ (derivZ l)) ok_FXIXI_FXI
    (fun i hi => (mom_facts hi).2.2) len2 len1 d2_C d1_C hi hk
  have t6 {i k : ℕ} (hi : i < 30) (hk : k < 30) := entry_of_tableOk (dl := fun p => derivative (derivative p))
    (dr := fun p => derivative (derivative p)) (left := fun l => derivZ (derivZ l)) ok_FXIXI_FXIXI
    (fun i hi => (mom_facts hi).2.2) len2 len2 d2_C d2_C hi hk
  refine ⟨?_, ?_, ?_, ?_, ?_, ?_, ?_, ?_, ?_⟩
  · obtain ⟨q, h1, h2, h3⟩ := t1 hi hk
    exact ⟨q, h1, h2, fun h => h3 h.1 h.2⟩
  · obtain ⟨q, h1, h2, h3⟩ := t2 hi hk
    exact ⟨q, h1, h2, fun h => h3 h.1 h.2⟩
  · obtain ⟨q, h1, h2, h3⟩ := t2 hk hi
    simp only [mul_comm (eval _ (derivative _))] at h2 h3
    exact ⟨q, h1, h2, fun h => h3 h.2 h.1⟩
  · obtain ⟨q, h1, h2, h3⟩ := t3 hi hk
    exact ⟨q, h1, h2, fun h => h3 h.1 h.2⟩
  · obtain ⟨q, h1, h2, h3⟩ := t4 hi hk
    exact ⟨q, h1, h2, fun h => h3 h.1 h.2⟩
  · obtain ⟨q, h1, h2, h3⟩ := t4 hk hi
    simp only [mul_comm (eval _ (derivative _))] at h2 h3
    exact ⟨q, h1, h2, fun h => h3 h.2 h.1⟩
  · obtain ⟨q, h1, h2, h3⟩ := t5 hi hk
    exact ⟨q, h1, h2, fun h => h3 h.1 h.2⟩
  · obtain ⟨q, h1, h2, h3⟩ := t5 hk hi
    simp only [mul_comm (eval _ (derivative (derivative _)))] at h2 h3
    exact ⟨q, h1, h2, fun h => h3 h.2 h.1⟩
  · obtain ⟨q, h1, h2, h3⟩ := t6 hi hk
    exact ⟨q, h1, h2, fun h => h3 h.1 h.2⟩

/-- Non-vacuity for C47: the exact entry `ii_FF[(4, 4)]`, the integral of `((x^2-1)^2/8)^2`. -/
example : ii_ff (4, 4) = .ok (4 / 315) := by
  have h : textTerms (unpack ((text_FF.getD 4 []).getD 4 0)) = some [(4 / 315, 0, 0)] := by decide +kernel
  have : evalAt text_FF (4, 4) = .ok (Terms.val 0 0 [(4 / 315, 0, 0)]) := by
    rw [← pyEval_of_terms h]; rfl
  unfold ii_ff
  rw [this]
  simp [Terms.val, termVal]

theorem text_sym (t : List (List ℕ)) (hs : (t.length = 30 ∧ (List.range 30).all fun i => (t.getD i []).length = 30 ∧
      (List.range 30).all fun k => (t.getD i []).getD k 0 = (t.getD k []).getD i 0) = true) (i k : ℕ) :
    textAt t (i, k) = textAt t (k, i) := by
  simp only [decide_eq_true_eq, List.all_eq_true, List.mem_range, Bool.decide_and, Bool.and_eq_true, eq_iff_iff, iff_true] at hs
  obtain ⟨hl, hr⟩ := hs
  have key : ∀ i k, i < 30 → k < 30 → textAt t (i, k) = .ok (unpack ((t.getD i []).getD k 0)) := by
    intro i k hi hk
    have hi' : i < t.length := by omega
    have hg : t.getD i [] = t[i] := by simp [List.getD, hi']
    have h2 := (hr i hi).1
    rw [hg] at h2
    have hk' : k < t[i].length := by omega
    unfold textAt
    simp only [List.getElem?_eq_getElem hi', List.getElem?_eq_getElem hk', hg, List.getD, Option.getD]
  have err : ∀ i k, ¬ (i < 30 ∧ k < 30) → textAt t (i, k) = .error .keyError := by
    intro i k h
    unfold textAt
    by_cases hi : i < 30
    · have hi' : i < t.length := by omega
      have hg : t.getD i [] = t[i] := by simp [List.getD, hi']
      have h2 := (hr i hi).1
      rw [hg] at h2
      have hk' : t[i].length ≤ k := by omega
      simp only [List.getElem?_eq_getElem hi', List.getElem?_eq_none hk']
    · simp only [List.getElem?_eq_none (show t.length ≤ i by omega)]
  by_cases h : i < 30 ∧ k < 30
  · rw [key i k h.1 h.2, key k i h.2 h.1, (hr i h.1).2 k h.2]
  · rw [err i k h, err k i fun h' => h ⟨h'.2, h'.1⟩]

/-- **C47** the three tables of like products are exactly symmetric, for all keys (including absent ones). -/
theorem C47_symmetric (i k : ℕ) : ii_ff (i, k) = ii_ff (k, i) ∧ ii_fxi_fxi (i, k) = ii_fxi_fxi (k, i) ∧
    ii_fxixi_fxixi (i, k) = ii_fxixi_fxixi (k, i) := by
  refine ⟨?_, ?_, ?_⟩
  · unfold ii_ff evalAt
    rw [text_sym text_FF (by decide +kernel) i k]
  · unfold ii_fxi_fxi evalAt
    rw [text_sym text_FXI_FXI (by decide +kernel) i k]
  · unfold ii_fxixi_fxixi evalAt
    rw [text_sym text_FXIXI_FXIXI (by decide +kernel) i k]

end Composipy
