import Verif.Lemmas.Moments
import Verif.Spec.Stack
import Mathlib.Analysis.SpecialFunctions.Integrals.Basic

namespace Composipy
open Spec Matrix MeasureTheory intervalIntegral

/-- Exact weight of `z^p` on an interval. -/
noncomputable def wP (p : ℕ) (a b : ℝ) : ℝ := (b ^ (p + 1) - a ^ (p + 1)) / (p + 1)

theorem wP_zero : wP 0 = wA := by ext a b; simp [wP, wA]
theorem wP_one : wP 1 = wB := by ext a b; simp [wP, wB]; ring
theorem wP_two : wP 2 = wD := by ext a b; simp [wP, wD]; ring

theorem IsField_tail {V : Type} {f : ℝ → V} {z : ℝ} {zs : List ℝ} {q : V} {qs : List V}
    (h : IsField f (z :: zs) (q :: qs)) : IsField f zs qs := by
  intro k a b q' ha hb hq
  exact h (k + 1) a b q' (by simpa using ha) (by simpa using hb) (by simpa using hq)

theorem piecewise_integral (p : ℕ) (f : ℝ → ℝ) (ts qs : List ℝ) (hlen : qs.length = ts.length)
    (hts : ∀ t ∈ ts, 0 ≤ t) (z0 : ℝ) (hf : IsField f (zList z0 ts) qs) :
    IntervalIntegrable (fun z => z ^ p * f z) volume z0 (z0 + ts.sum) ∧
    ∫ z in z0..(z0 + ts.sum), z ^ p * f z = mom (wP p) z0 (ts.zip qs) := by
  induction ts generalizing z0 qs with
  | nil => cases qs with
    | nil => simp [mom]
    | cons q qs => simp at hlen
  | cons t ts ih =>
    cases qs with
    | nil => simp at hlen
    | cons q qs =>
      have ht : 0 ≤ t := hts t (by simp)
      obtain ⟨hi, hv⟩ := ih qs (by simpa using hlen) (fun t ht => hts t (by simp [ht])) (z0 + t) (IsField_tail hf)
      have heq : ∀ z, z0 < z → z < z0 + t → f z = q :=
        hf 0 z0 (z0 + t) q rfl (by simp [zList, zList_head]) rfl
      have hEq : Set.EqOn (fun z => z ^ p * q) (fun z => z ^ p * f z) (Set.uIoo z0 (z0 + t)) := by
        intro z hz
        rw [Set.uIoo_of_le (by linarith)] at hz
        simp only [heq z hz.1 hz.2]
      have hc : IntervalIntegrable (fun z : ℝ => z ^ p * q) volume z0 (z0 + t) :=
        (Continuous.intervalIntegrable (by fun_prop) _ _)
      have h1 : IntervalIntegrable (fun z => z ^ p * f z) volume z0 (z0 + t) := hc.congr_uIoo hEq
      have hsum : z0 + (t :: ts).sum = (z0 + t) + ts.sum := by simp [add_assoc]
      rw [hsum]
      refine ⟨h1.trans hi, ?_⟩
      rw [← integral_add_adjacent_intervals h1 hi, hv, ← integral_congr_uIoo hEq,
        intervalIntegral.integral_mul_const, integral_pow]
      simp [mom, wP]

theorem zList_append_length (z : ℝ) (ts : List ℝ) (k : Nat) (hk : k < ts.length) :
    ∃ a, (zList z ts)[k]? = some a ∧ (zList z ts)[k + 1]? = some (a + ts[k]) := by
  induction ts generalizing z k with
  | nil => simp at hk
  | cons t ts ih =>
    cases k with
    | zero => exact ⟨z, rfl, by simp [zList, zList_head]⟩
    | succ k =>
      obtain ⟨a, h1, h2⟩ := ih (z + t) k (by simpa using hk)
      exact ⟨a, by simpa [zList] using h1, by simpa [zList] using h2⟩

/-- Interfaces are in increasing order. -/
theorem zList_ge (z : ℝ) (ts : List ℝ) (hts : ∀ t ∈ ts, 0 ≤ t) : ∀ a ∈ zList z ts, z ≤ a := by
  induction ts generalizing z with
  | nil => simp [zList]
  | cons t ts ih =>
    have ht : 0 ≤ t := hts t (by simp)
    simp only [zList, List.mem_cons]
    rintro a (rfl | ha)
    · exact le_refl _
    · have := ih (z + t) (fun t ht => hts t (by simp [ht])) a ha
      linarith

/-- A piecewise constant function with the prescribed values exists. -/
theorem piecewise_exists {V : Type} [Inhabited V] (ts : List ℝ) (qs : List V)
    (hts : ∀ t ∈ ts, 0 ≤ t) (z0 : ℝ) : ∃ f : ℝ → V, IsField f (zList z0 ts) qs := by
  classical
  induction ts generalizing z0 qs with
  | nil => exact ⟨fun _ => default, by intro k a b q ha hb; simp [zList] at hb⟩
  | cons t ts ih =>
    cases qs with
    | nil => exact ⟨fun _ => default, by intro k a b q ha hb hq; simp at hq⟩
    | cons q qs =>
      obtain ⟨f, hf⟩ := ih qs (fun t ht => hts t (by simp [ht])) (z0 + t)
      refine ⟨fun z => if z < z0 + t then q else f z, ?_⟩
      intro k a b q' ha hb hq z hz1 hz2
      cases k with
      | zero =>
        simp [zList, zList_head] at ha hb hq
        subst hb hq
        simp [hz2]
      | succ k =>
        simp only [zList, List.getElem?_cons_succ] at ha hb hq
        have ha' : a ∈ zList (z0 + t) ts := List.mem_of_getElem? ha
        have := zList_ge (z0 + t) ts (fun t ht => hts t (by simp [ht])) a ha'
        have hz : ¬ z < z0 + t := by linarith
        simp only [if_neg hz]
        exact hf k a b q' ha hb hq z hz1 hz2

end Composipy
