import Verif.Spec.Validation
import Mathlib.Tactic.NormNum
import Mathlib.Tactic.Linarith
import Mathlib.Tactic.Push

namespace Composipy
open Spec

theorem not_below_above_iff (lo : ℝ) (hi : Option ℝ) (hlh : ∀ h, hi = some h → True) (x : PyFloat) :
    (¬ belowMin x (some lo) ∧ ¬ aboveMax x hi) ↔ InRange lo hi x := by
  cases x <;> cases hi <;> simp [belowMin, aboveMax, InRange, XF.lt]

theorem floatNumber_cases (v : PyVal) (lo : ℝ) (hi : Option ℝ) :
    (∃ x, v.toFloat = some x ∧ InRange lo hi x ∧ floatNumber v (some lo) hi = .ok x) ∨
    ((∀ x, v.toFloat = some x → ¬ InRange lo hi x) ∧
      floatNumber v (some lo) hi = .error .valueError) := by
  unfold floatNumber
  cases h : v.toFloat with
  | none => right; simp
  | some x =>
    have key := not_below_above_iff lo hi (fun _ _ => trivial) x
    by_cases h1 : belowMin x (some lo)
    · right; simp only [h1, if_true, Option.some.injEq]
      refine ⟨?_, trivial⟩
      rintro y rfl hy
      exact (key.mpr hy).1 h1
    · by_cases h2 : aboveMax x hi
      · right; simp only [h1, h2, if_true, if_false, Option.some.injEq]
        refine ⟨?_, trivial⟩
        rintro y rfl hy
        exact (key.mpr hy).2 h2
      · left; exact ⟨x, rfl, key.mp ⟨h1, h2⟩, by simp [h1, h2]⟩

end Composipy

namespace Composipy
open Spec

theorem half_neg : (-0.5 : ℝ) = -(1/2) := by norm_num
theorem half_pos' : (0.5 : ℝ) = 1/2 := by norm_num

theorem OrthoConverts.unique {a : OrthoMat PyVal} {m m' : OrthoMat PyFloat}
    (h : OrthoConverts a m) (h' : OrthoConverts a m') : m = m' := by
  cases m; cases m'
  simp only [OrthoConverts] at h h'
  grind

theorem IsoConverts.unique {a : IsoMat PyVal} {m m' : IsoMat PyFloat}
    (h : IsoConverts a m) (h' : IsoConverts a m') : m = m' := by
  cases m; cases m'
  simp only [IsoConverts] at h h'
  grind

theorem ortho_init_cases (a : OrthoMat PyVal) :
    (∃ m, OrthoConverts a m ∧ OrthoRanges m ∧ m.e1 ≠ .fin 0 ∧ a.init = .ok m) ∨
    (∃ m, OrthoConverts a m ∧ OrthoRanges m ∧ m.e1 = .fin 0 ∧
      a.init = .error .zeroDivisionError) ∨
    ((¬ ∃ m, OrthoConverts a m ∧ OrthoRanges m) ∧ a.init = .error .valueError) := by
  unfold OrthoMat.init
  simp only [half_neg, half_pos']
  rcases floatNumber_cases a.e1 0 none with ⟨e1, c1, r1, h1⟩ | ⟨n1, h1⟩
  on_goal 2 =>
    right; right; rw [h1]; refine ⟨?_, rfl⟩; rintro ⟨m, hc, hr⟩; exact n1 _ hc.1 hr.1
  rcases floatNumber_cases a.e2 0 none with ⟨e2, c2, r2, h2⟩ | ⟨n2, h2⟩
  on_goal 2 =>
    right; right; rw [h1, h2]; refine ⟨?_, rfl⟩; rintro ⟨m, hc, hr⟩; exact n2 _ hc.2.1 hr.2.1
  rcases floatNumber_cases a.v12 (-(1/2)) (some (1/2)) with ⟨v12, c3, r3, h3⟩ | ⟨n3, h3⟩
  on_goal 2 =>
    right; right; rw [h1, h2, h3]; refine ⟨?_, rfl⟩
    rintro ⟨m, hc, hr⟩; exact n3 _ hc.2.2.1 hr.2.2.1
  rcases floatNumber_cases a.g12 0 none with ⟨g12, c4, r4, h4⟩ | ⟨n4, h4⟩
  on_goal 2 =>
    right; right; rw [h1, h2, h3, h4]; refine ⟨?_, rfl⟩
    rintro ⟨m, hc, hr⟩; exact n4 _ hc.2.2.2.1 hr.2.2.2.1
  rcases floatNumber_cases a.thickness 0 none with ⟨th, c5, r5, h5⟩ | ⟨n5, h5⟩
  on_goal 2 =>
    right; right; rw [h1, h2, h3, h4, h5]; refine ⟨?_, rfl⟩
    rintro ⟨m, hc, hr⟩; exact n5 _ hc.2.2.2.2.1 hr.2.2.2.2.1
  rcases floatNumber_cases a.t1 0 none with ⟨t1, c6, r6, h6⟩ | ⟨n6, h6⟩
  on_goal 2 =>
    right; right; rw [h1, h2, h3, h4, h5, h6]; refine ⟨?_, rfl⟩
    rintro ⟨m, hc, hr⟩; exact n6 _ hc.2.2.2.2.2.1 hr.2.2.2.2.2.1
  rcases floatNumber_cases a.c1 0 none with ⟨k1, c7, r7, h7⟩ | ⟨n7, h7⟩
  on_goal 2 =>
    right; right; rw [h1, h2, h3, h4, h5, h6, h7]; refine ⟨?_, rfl⟩
    rintro ⟨m, hc, hr⟩; exact n7 _ hc.2.2.2.2.2.2.1 hr.2.2.2.2.2.2.1
  rcases floatNumber_cases a.t2 0 none with ⟨t2, c8, r8, h8⟩ | ⟨n8, h8⟩
  on_goal 2 =>
    right; right; rw [h1, h2, h3, h4, h5, h6, h7, h8]; refine ⟨?_, rfl⟩
    rintro ⟨m, hc, hr⟩; exact n8 _ hc.2.2.2.2.2.2.2.1 hr.2.2.2.2.2.2.2.1
  rcases floatNumber_cases a.c2 0 none with ⟨k2, c9, r9, h9⟩ | ⟨n9, h9⟩
  on_goal 2 =>
    right; right; rw [h1, h2, h3, h4, h5, h6, h7, h8, h9]; refine ⟨?_, rfl⟩
    rintro ⟨m, hc, hr⟩; exact n9 _ hc.2.2.2.2.2.2.2.2.1 hr.2.2.2.2.2.2.2.2.1
  rcases floatNumber_cases a.s 0 none with ⟨s, c10, r10, h10⟩ | ⟨n10, h10⟩
  on_goal 2 =>
    right; right; rw [h1, h2, h3, h4, h5, h6, h7, h8, h9, h10]; refine ⟨?_, rfl⟩
    rintro ⟨m, hc, hr⟩; exact n10 _ hc.2.2.2.2.2.2.2.2.2 hr.2.2.2.2.2.2.2.2.2
  rw [h1, h2, h3, h4, h5, h6, h7, h8, h9, h10]
  by_cases hz : e1 = .fin 0
  · right; left
    refine ⟨⟨e1, e2, v12, g12, th, t1, k1, t2, k2, s⟩, ⟨c1, c2, c3, c4, c5, c6, c7, c8, c9, c10⟩,
      ⟨r1, r2, r3, r4, r5, r6, r7, r8, r9, r10⟩, hz, ?_⟩
    simp [divCheck, hz]
  · left
    refine ⟨⟨e1, e2, v12, g12, th, t1, k1, t2, k2, s⟩, ⟨c1, c2, c3, c4, c5, c6, c7, c8, c9, c10⟩,
      ⟨r1, r2, r3, r4, r5, r6, r7, r8, r9, r10⟩, hz, ?_⟩
    simp [divCheck, hz]

theorem iso_init_cases (a : IsoMat PyVal) :
    (∃ m, IsoConverts a m ∧ IsoRanges m ∧ a.init = .ok m) ∨
    ((¬ ∃ m, IsoConverts a m ∧ IsoRanges m) ∧ a.init = .error .valueError) := by
  unfold IsoMat.init
  simp only [half_neg, half_pos']
  rcases floatNumber_cases a.e 0 none with ⟨e, c1, r1, h1⟩ | ⟨n1, h1⟩
  on_goal 2 =>
    right; rw [h1]; refine ⟨?_, rfl⟩; rintro ⟨m, hc, hr⟩; exact n1 _ hc.1 hr.1
  rcases floatNumber_cases a.v (-(1/2)) (some (1/2)) with ⟨v, c2, r2, h2⟩ | ⟨n2, h2⟩
  on_goal 2 =>
    right; rw [h1, h2]; refine ⟨?_, rfl⟩; rintro ⟨m, hc, hr⟩; exact n2 _ hc.2.1 hr.2.1
  rcases floatNumber_cases a.g 0 none with ⟨g, c3, r3, h3⟩ | ⟨n3, h3⟩
  on_goal 2 =>
    right; rw [h1, h2, h3]; refine ⟨?_, rfl⟩
    rintro ⟨m, hc, hr⟩; exact n3 _ hc.2.2.1 hr.2.2.1
  rcases floatNumber_cases a.thickness 0 none with ⟨th, c4, r4, h4⟩ | ⟨n4, h4⟩
  on_goal 2 =>
    right; rw [h1, h2, h3, h4]; refine ⟨?_, rfl⟩
    rintro ⟨m, hc, hr⟩; exact n4 _ hc.2.2.2.1 hr.2.2.2.1
  rcases floatNumber_cases a.t 0 none with ⟨t, c5, r5, h5⟩ | ⟨n5, h5⟩
  on_goal 2 =>
    right; rw [h1, h2, h3, h4, h5]; refine ⟨?_, rfl⟩
    rintro ⟨m, hc, hr⟩; exact n5 _ hc.2.2.2.2.1 hr.2.2.2.2.1
  rcases floatNumber_cases a.c 0 none with ⟨c, c6, r6, h6⟩ | ⟨n6, h6⟩
  on_goal 2 =>
    right; rw [h1, h2, h3, h4, h5, h6]; refine ⟨?_, rfl⟩
    rintro ⟨m, hc, hr⟩; exact n6 _ hc.2.2.2.2.2.1 hr.2.2.2.2.2.1
  rcases floatNumber_cases a.s 0 none with ⟨s, c7, r7, h7⟩ | ⟨n7, h7⟩
  on_goal 2 =>
    right; rw [h1, h2, h3, h4, h5, h6, h7]; refine ⟨?_, rfl⟩
    rintro ⟨m, hc, hr⟩; exact n7 _ hc.2.2.2.2.2.2 hr.2.2.2.2.2.2
  rw [h1, h2, h3, h4, h5, h6, h7]
  left
  exact ⟨⟨e, v, g, th, t, c, s⟩, ⟨c1, c2, c3, c4, c5, c6, c7⟩, ⟨r1, r2, r3, r4, r5, r6, r7⟩, rfl⟩

/-- `integerOf?` finds the integer value. -/
theorem integerOf?_eq_some {x : PyFloat} {k : ℤ} : integerOf? x = some k ↔ x = .fin (k : ℝ) := by
  cases x with
  | fin r =>
    simp only [integerOf?, XF.fin.injEq]
    constructor
    · intro h
      split at h
      · rename_i hk
        have := Classical.choose_spec hk
        simp only [Option.some.injEq] at h
        rw [← this, h]
      · cases h
    · rintro rfl
      have hex : ∃ j : ℤ, (j : ℝ) = (k : ℝ) := ⟨k, rfl⟩
      rw [dif_pos hex]
      have := Classical.choose_spec hex
      exact congrArg some (by exact_mod_cast this)
  | _ => simp [integerOf?]

theorem intNumber_cases (v : PyVal) (lo : ℝ) :
    (∃ k : ℤ, v.toFloat = some (.fin (k : ℝ)) ∧ lo ≤ (k : ℝ) ∧ intNumber v (some lo) none = .ok k) ∨
    ((∀ k : ℤ, v.toFloat = some (.fin (k : ℝ)) → ¬ lo ≤ (k : ℝ)) ∧
      intNumber v (some lo) none = .error .valueError) := by
  unfold intNumber
  cases h : v.toFloat with
  | none => right; simp
  | some x =>
    cases h2 : integerOf? x with
    | none =>
      right; simp only [h2, and_true]
      intro k hk; cases hk
      rw [integerOf?_eq_some.mpr rfl] at h2; cases h2
    | some j =>
      have hx := integerOf?_eq_some.mp h2
      subst hx
      by_cases h1 : belowMin (.fin (j : ℝ)) (some lo)
      · right; simp only [h2, h1, if_true, and_true]
        intro k hk
        rw [Option.some.injEq, XF.fin.injEq] at hk
        rw [← hk]; exact not_le.mpr h1
      · left
        refine ⟨j, rfl, not_lt.mp h1, ?_⟩
        have h3 : ¬ aboveMax (.fin (j : ℝ)) none := fun h => h
        simp only [h2, h1, h3, if_false]

theorem floatNumber_free (v : PyVal) :
    (∃ x, v.toFloat = some x ∧ floatNumber v none none = .ok x) ∨
    (v.toFloat = none ∧ floatNumber v none none = .error .valueError) := by
  unfold floatNumber
  cases h : v.toFloat with
  | none => right; simp
  | some x => left; exact ⟨x, rfl, by simp [belowMin, aboveMax]⟩

end Composipy
