import Verif.Model.PcompArray
import Verif.Props.PcompAny

/-!
# C139: arrays as arguments of `build_pcomp`
-/

namespace Composipy
open Spec

namespace Spec

/-- The array `np.array(ts)` of texts, one dimension. -/
def textArray (ts : List Text) : SoutArray := ⟨ts.map some, false, some ts⟩

/-- An array of numbers, one dimension, `ts` their texts. -/
def numberArray (ts : List Text) : SoutArray := ⟨ts.map fun _ => none, true, some ts⟩

/-- The texts `_convert_sout` knows. -/
def Word (t : Text) : Prop := t = tFIBER ∨ t = tNO ∨ t = tYES

/-- What a request means, for both kinds of call. -/
def SameSout (np : NumpyVer) (a : SoutArray) (size : ℕ) (s : ContSout) : Prop := convertArraySout np a size = convertContSout s size

end Spec

theorem buildPcompArray_congr (np : NumpyVer) (Q : PyCont) (midi ti : ContArg) (pid : PidArg) (z0 : Text) (a : SoutArray) (s : ContSout)
    (h : SameSout np a Q.len s) : buildPcompArray np Q midi ti pid z0 a = buildPcompAny Q midi ti pid z0 s := by
  unfold SameSout at h
  simp only [buildPcompArray, buildPcompAny, h]

theorem buildPcompArray_error (np : NumpyVer) (Q : PyCont) (midi ti : ContArg) (pid : PidArg) (k : ℤ) (hk : pid.toInt = .ok k) (z0 : Text) (a : SoutArray)
    (h : convertArraySout np a Q.len = .error .valueError) : buildPcompArray np Q midi ti pid z0 a = .error .valueError := by
  have hcl : ∀ a n, (∃ r, convertCont a n = .ok r) ∨ convertCont a n = .error .valueError := fun a n => by
    cases a with
    | scalar t => exact .inl ⟨_, rfl⟩
    | cont c =>
      by_cases h : c.len = n
      · exact .inl ⟨c, by simp [convertCont, h]⟩
      · exact .inr (by simp [convertCont, h])
  simp only [buildPcompArray, hk, ok_bind, h]
  rcases hcl ti Q.len with ⟨r, hr⟩ | hr <;> simp only [hr, ok_bind]
  · rcases hcl midi Q.len with ⟨r, hr⟩ | hr <;> simp only [hr, ok_bind] <;> rfl
  · rfl

theorem FIBER_ne_NO : tFIBER ≠ tNO := by decide

theorem FIBER_ne_YES : tFIBER ≠ tYES := by decide

theorem NO_ne_YES : tNO ≠ tYES := by decide

/-- **C139** an array with two entries or more is not accepted as `sout`, even if it holds a request for every ply: `ValueError`, whatever the
entries, dimensions and version (arrays of numbers: from numpy 1.25). -/
theorem C139_several (np : NumpyVer) (Q : PyCont) (midi ti : ContArg) (pid : PidArg) (k : ℤ) (hk : pid.toInt = .ok k) (z0 : Text) (a : SoutArray)
    (h : 2 ≤ a.entries.length) (hn : a.numeric = false ∨ np.entrywise = true) : buildPcompArray np Q midi ti pid z0 a = .error .valueError := by
  refine buildPcompArray_error np Q midi ti pid k hk z0 a ?_
  have : a.eqText np tFIBER = .error .valueError := by
    unfold SoutArray.eqText
    rw [if_neg (by rcases hn with hn | hn <;> simp [hn])]
    obtain ⟨entries, numeric, rows⟩ := a
    match entries, h with
    | x :: y :: r, _ => rfl
  simp only [convertArraySout, this]
  rfl

/-- **C139** an array with one entry: the three words count for all plies, whatever their number, as the text itself does and as the list with this
entry does not; other entries count as the list. -/
theorem C139_one (np : NumpyVer) (Q : PyCont) (midi ti : ContArg) (pid : PidArg) (z0 : Text) (t : Text) :
    (Word t → buildPcompArray np Q midi ti pid z0 (textArray [t]) = buildPcompAny Q midi ti pid z0 (.text t)) ∧
    (¬ Word t → buildPcompArray np Q midi ti pid z0 (textArray [t]) = buildPcompAny Q midi ti pid z0 (.cont (.list [t]))) := by
  have e : ∀ w, (textArray [t]).eqText np w = .ok (t == w) := fun w => by
    unfold SoutArray.eqText textArray arrayTruth
    rw [if_neg (by simp)]
    rfl
  constructor
  · intro hw
    refine buildPcompArray_congr np Q midi ti pid z0 _ _ ?_
    unfold SameSout
    simp only [convertArraySout, e, ok_bind, convertContSout]
    rcases hw with rfl | rfl | rfl
    · simp
    · simp [FIBER_ne_NO.symm, convertSout]
    · simp [FIBER_ne_YES.symm, NO_ne_YES.symm, convertSout]
  · intro hw
    refine buildPcompArray_congr np Q midi ti pid z0 _ _ ?_
    unfold Word at hw
    push Not at hw
    unfold SameSout
    simp only [convertArraySout, e, ok_bind, convertContSout]
    simp [hw.1, hw.2.1, hw.2.2, textArray, PyCont.len]

/-- **C139** an array without dimension, `np.array(t)`: the three words count as the text, everything else raises `ValueError`. -/
theorem C139_no_dimension (np : NumpyVer) (Q : PyCont) (midi ti : ContArg) (pid : PidArg) (k : ℤ) (hk : pid.toInt = .ok k) (z0 : Text) (x : Option Text) :
    (∀ t, x = some t → Word t → buildPcompArray np Q midi ti pid z0 ⟨[x], false, none⟩ = buildPcompAny Q midi ti pid z0 (.text t)) ∧
    ((∀ t, x = some t → ¬ Word t) → ∀ num, buildPcompArray np Q midi ti pid z0 ⟨[x], num, none⟩ = .error .valueError) := by
  constructor
  · rintro t rfl hw
    have e : ∀ w, (⟨[some t], false, none⟩ : SoutArray).eqText np w = .ok (t == w) := fun w => by
      unfold SoutArray.eqText arrayTruth
      rw [if_neg (by simp)]
      rfl
    refine buildPcompArray_congr np Q midi ti pid z0 _ _ ?_
    unfold SameSout
    simp only [convertArraySout, e, ok_bind, convertContSout]
    rcases hw with rfl | rfl | rfl
    · simp
    · simp [FIBER_ne_NO.symm, convertSout]
    · simp [FIBER_ne_YES.symm, NO_ne_YES.symm, convertSout]
  · intro hx num
    have e : ∀ w, Word w → (⟨[x], num, none⟩ : SoutArray).eqText np w = .ok false := fun w hw => by
      unfold SoutArray.eqText arrayTruth
      by_cases hc : num = true ∧ ¬ np.entrywise = true
      · rw [if_pos hc]
      · rw [if_neg hc]
        have : x ≠ some w := fun h => hx w h hw
        simp [this]
    refine buildPcompArray_error np Q midi ti pid k hk z0 _ ?_
    simp only [convertArraySout, e _ (.inl rfl), e _ (.inr (.inl rfl)), e _ (.inr (.inr rfl)), ok_bind]
    rfl

/-- **C139** an array of numbers counts as the list of its entries if it has one entry or numpy is older than 1.25. -/
theorem C139_numbers (np : NumpyVer) (Q : PyCont) (midi ti : ContArg) (pid : PidArg) (z0 : Text) (ts : List Text)
    (h : ts.length = 1 ∨ np.entrywise = false) :
    buildPcompArray np Q midi ti pid z0 (numberArray ts) = buildPcompAny Q midi ti pid z0 (.cont (.list ts)) := by
  have e : ∀ w, (numberArray ts).eqText np w = .ok false := fun w => by
    unfold SoutArray.eqText
    by_cases hc : (numberArray ts).numeric = true ∧ ¬ np.entrywise = true
    · rw [if_pos hc]
    · rw [if_neg hc]
      rcases h with h | h
      · match ts, h with
        | [t], _ => rfl
      · simp [numberArray, h] at hc
  refine buildPcompArray_congr np Q midi ti pid z0 _ _ ?_
  unfold SameSout
  generalize Q.len = n
  simp only [convertArraySout, e, ok_bind, convertContSout]
  by_cases hn : ts.length = n <;> simp [numberArray, PyCont.len, hn]

/-- **C139** no plies: an array without entries is accepted as the empty list is, up to numpy 2.1, and raises `ValueError` later. -/
theorem C139_empty (np : NumpyVer) (Q : PyCont) (midi ti : ContArg) (pid : PidArg) (k : ℤ) (hk : pid.toInt = .ok k) (z0 : Text) (a : SoutArray)
    (ha : a.entries = []) (hr : a.rows = some []) (hn : a.numeric = false ∨ np.entrywise = true) :
    buildPcompArray np Q midi ti pid z0 a =
      if np.emptyFalse then buildPcompAny Q midi ti pid z0 (.cont (.list [])) else .error .valueError := by
  have e : ∀ w, a.eqText np w = if np.emptyFalse then .ok false else .error .valueError := fun w => by
    unfold SoutArray.eqText
    rw [if_neg (by rcases hn with hn | hn <;> simp [hn]), ha]
    rfl
  by_cases h : np.emptyFalse = true
  · rw [if_pos h]
    refine buildPcompArray_congr np Q midi ti pid z0 _ _ ?_
    unfold SameSout
    generalize Q.len = n
    simp only [convertArraySout, e, h, if_true, ok_bind, convertContSout]
    by_cases hn : 0 = n <;> simp [hr, PyCont.len, hn]
  · rw [if_neg h]
    refine buildPcompArray_error np Q midi ti pid k hk z0 _ ?_
    simp only [convertArraySout, e, h]
    rfl

/-- Non-vacuity for C139: two plies, the list of requests gives the card, the array of the same requests raises `ValueError`. -/
example : let Q : PyCont := .list [['0'], ['9', '0']]
    (∃ t, buildPcompAny Q (.scalar ['1']) (.scalar ['2']) (.int 1) [] (.cont (.list [tYES, tNO])) = .ok t) ∧
    buildPcompArray ⟨true, true⟩ Q (.scalar ['1']) (.scalar ['2']) (.int 1) [] (textArray [tYES, tNO]) = .error .valueError :=
  ⟨⟨_, rfl⟩, rfl⟩

/-- Non-vacuity for C139: the two arrays without entries. -/
example : (textArray []).entries = [] ∧ (textArray []).rows = some [] ∧ (numberArray []).entries = [] ∧ (numberArray []).rows = some [] := ⟨rfl, rfl, rfl, rfl⟩

/-- Non-vacuity for C139: two plies and one request; the array is accepted, the list is not. -/
example : let Q : PyCont := .list [['0'], ['9', '0']]
    (∃ t, buildPcompArray ⟨true, true⟩ Q (.scalar ['1']) (.scalar ['2']) (.int 1) [] (textArray [tYES]) = .ok t) ∧
    buildPcompAny Q (.scalar ['1']) (.scalar ['2']) (.int 1) [] (.cont (.list [tYES])) = .error .valueError :=
  ⟨⟨_, rfl⟩, rfl⟩

end Composipy
