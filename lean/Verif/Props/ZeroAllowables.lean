import Verif.Props.Margins
import Verif.Props.Validation

/-!
# C117: allowables of zero, also the default ones
-/

namespace Composipy
open Spec

/-- The allowables that `OrthotropicMaterial` accepts. -/
def Spec.NonnegAllowables (m : OrthoMat ℝ) : Prop := 0 ≤ m.t1 ∧ 0 ≤ m.c1 ∧ 0 ≤ m.t2 ∧ 0 ≤ m.c2 ∧ 0 ≤ m.s

/-- Margin against an allowable of zero: -1 where the stress acts, not a number where it does not. -/
def Spec.zeroMargin (acts : Prop) [Decidable acts] : PyFloat := if acts then .fin (-1) else .nan

open Classical in
theorem margin_zero (s : ℝ) : marginT 0 s = zeroMargin (0 < s) ∧ marginC 0 s = zeroMargin (s < 0) ∧ marginS 0 s = zeroMargin (s ≠ 0) := by
  refine ⟨?_, ?_, ?_⟩
  · rcases lt_trichotomy s 0 with h | h | h
    · simp [marginT, npDiv, zeroMargin, h, subOne, not_lt.mpr h.le]
    · simp [marginT, npDiv, zeroMargin, h, subOne]
    · simp [marginT, npDiv, zeroMargin, h, h.ne', subOne, not_lt.mpr h.le]
  · rcases lt_trichotomy s 0 with h | h | h
    · simp [marginC, npDiv, zeroMargin, h, h.ne, subOne, not_lt.mpr h.le]
    · simp [marginC, npDiv, zeroMargin, h, subOne]
    · simp [marginC, npDiv, zeroMargin, h, subOne, not_lt.mpr h.le]
  · by_cases h : s = 0 <;> simp [marginS, npDiv, zeroMargin, h, subOne]

theorem negative_zero {p : Prop} [Decidable p] : Negative (zeroMargin p) ↔ p := by
  by_cases h : p <;> simp [Negative, zeroMargin, h, XF.lt]

theorem negative_T (a s : ℝ) (ha : 0 ≤ a) : Negative (marginT a s) ↔ s > a := by
  rcases ha.lt_or_eq with h | rfl
  · exact (marginT_spec a s h).1
  · rw [(margin_zero s).1, negative_zero]

theorem negative_C (a s : ℝ) (ha : 0 ≤ a) : Negative (marginC a s) ↔ s < -a := by
  rcases ha.lt_or_eq with h | rfl
  · exact (marginC_spec a s h).1
  · rw [(margin_zero s).2.1, negative_zero, neg_zero]

theorem negative_S (a s : ℝ) (ha : 0 ≤ a) : Negative (marginS a s) ↔ |s| > a := by
  rcases ha.lt_or_eq with h | rfl
  · exact (marginS_spec a s h).1
  · rw [(margin_zero s).2.2, negative_zero]
    exact abs_pos.symm

/-- **C117** with any accepted allowables, zero included: a margin is negative exactly where its allowable is exceeded, and a row without negative margins is within the
max-stress box. -/
theorem C117_negative (l : Lam) (hs : IsStack l) (N : V6) (R : List MarginRow) (hR : calculateMargin l N = .ok R) (j : Nat) (r : MarginRow)
    (hr : R[j]? = some r) : ∃ (hk : j / 2 < l.layup.length) (m : OrthoMat ℝ) (S : List Row) (s : Row), (l.layup[j / 2]).2 = .ortho m ∧
      calculateStress l N = .ok S ∧ S[j]? = some s ∧ (NonnegAllowables m →
        (Negative (r.margin 0) ↔ s.m12 0 > m.t1) ∧ (Negative (r.margin 1) ↔ s.m12 0 < -m.c1) ∧ (Negative (r.margin 2) ↔ s.m12 1 > m.t2) ∧
        (Negative (r.margin 3) ↔ s.m12 1 < -m.c2) ∧ (Negative (r.margin 4) ↔ |s.m12 2| > m.s) ∧
        ((∀ i, ¬ Negative (r.margin i)) ↔ (-m.c1 ≤ s.m12 0 ∧ s.m12 0 ≤ m.t1) ∧ (-m.c2 ≤ s.m12 1 ∧ s.m12 1 ≤ m.t2) ∧ |s.m12 2| ≤ m.s)) := by
  obtain ⟨hk, m, S, s, hm, hS, hs', -, -, -, hmar, -⟩ := margin_row hs N R hR j r hr
  refine ⟨hk, m, S, s, hm, hS, hs', fun ⟨h1, h2, h3, h4, h5⟩ => ?_⟩
  have a1 : Negative (r.margin 0) ↔ s.m12 0 > m.t1 := by rw [hmar]; exact negative_T _ _ h1
  have a2 : Negative (r.margin 1) ↔ s.m12 0 < -m.c1 := by rw [hmar]; exact negative_C _ _ h2
  have a3 : Negative (r.margin 2) ↔ s.m12 1 > m.t2 := by rw [hmar]; exact negative_T _ _ h3
  have a4 : Negative (r.margin 3) ↔ s.m12 1 < -m.c2 := by rw [hmar]; exact negative_C _ _ h4
  have a5 : Negative (r.margin 4) ↔ |s.m12 2| > m.s := by rw [hmar]; exact negative_S _ _ h5
  refine ⟨a1, a2, a3, a4, a5, ?_⟩
  rw [Fin.forall_fin_succ, Fin.forall_fin_succ, Fin.forall_fin_succ, Fin.forall_fin_succ, Fin.forall_fin_one]
  change (¬ Negative (r.margin 0) ∧ ¬ Negative (r.margin 1) ∧ ¬ Negative (r.margin 2) ∧ ¬ Negative (r.margin 3) ∧ ¬ Negative (r.margin 4)) ↔ _
  rw [a1, a2, a3, a4, a5]
  simp only [not_lt, gt_iff_lt]
  tauto

open Classical in
/-- **C117** all allowables zero: every margin is -1 where its stress acts and not a number elsewhere; no column is critical exactly in rows without stress, and a
critical column has margin -1. -/
theorem C117_zero (l : Lam) (hs : IsStack l) (hz : ∀ p ∈ l.layup, ∀ m, p.2 = .ortho m → m.t1 = 0 ∧ m.c1 = 0 ∧ m.t2 = 0 ∧ m.c2 = 0 ∧ m.s = 0) (N : V6)
    (R : List MarginRow) (hR : calculateMargin l N = .ok R) (j : Nat) (r : MarginRow) (hr : R[j]? = some r) :
    ∃ (S : List Row) (s : Row), calculateStress l N = .ok S ∧ S[j]? = some s ∧ r.margin 0 = zeroMargin (0 < s.m12 0) ∧
      r.margin 1 = zeroMargin (s.m12 0 < 0) ∧ r.margin 2 = zeroMargin (0 < s.m12 1) ∧ r.margin 3 = zeroMargin (s.m12 1 < 0) ∧
      r.margin 4 = zeroMargin (s.m12 2 ≠ 0) ∧ (r.critical = none ↔ s.m12 = 0) ∧ ∀ i, r.critical = some i → r.margin i = .fin (-1) := by
  obtain ⟨hk, m, S, s, hm, hS, hs', -, -, -, hmar, hcrit⟩ := margin_row hs N R hR j r hr
  obtain ⟨z1, z2, z3, z4, z5⟩ := hz _ (List.getElem_mem hk) m hm
  rw [z1, z2, z3, z4, z5] at hmar
  have b0 : r.margin 0 = zeroMargin (0 < s.m12 0) := by rw [hmar]; exact (margin_zero _).1
  have b1 : r.margin 1 = zeroMargin (s.m12 0 < 0) := by rw [hmar]; exact (margin_zero _).2.1
  have b2 : r.margin 2 = zeroMargin (0 < s.m12 1) := by rw [hmar]; exact (margin_zero _).1
  have b3 : r.margin 3 = zeroMargin (s.m12 1 < 0) := by rw [hmar]; exact (margin_zero _).2.1
  have b4 : r.margin 4 = zeroMargin (s.m12 2 ≠ 0) := by rw [hmar]; exact (margin_zero _).2.2
  have nan : ∀ (p : Prop) [Decidable p], zeroMargin p = .nan ↔ ¬ p := fun p _ => by by_cases h : p <;> simp [zeroMargin, h]
  obtain ⟨c1, c2⟩ := C36_critical l hs N R hR r (List.mem_of_getElem? hr)
  refine ⟨S, s, hS, hs', b0, b1, b2, b3, b4, ?_, fun i hi => ?_⟩
  · rw [c2, Fin.forall_fin_succ, Fin.forall_fin_succ, Fin.forall_fin_succ, Fin.forall_fin_succ, Fin.forall_fin_one]
    change (r.margin 0 = .nan ∧ r.margin 1 = .nan ∧ r.margin 2 = .nan ∧ r.margin 3 = .nan ∧ r.margin 4 = .nan) ↔ _
    rw [b0, b1, b2, b3, b4]
    simp only [nan, not_lt, not_not]
    constructor
    · rintro ⟨d0, d1, d2, d3, d4⟩
      ext i
      fin_cases i
      · exact le_antisymm d0 d1
      · exact le_antisymm d2 d3
      · exact d4
    · intro h
      simp [h]
  · have hn := ((c1 i).mp hi).1
    have key : ∀ (p : Prop) [Decidable p], zeroMargin p ≠ .nan → zeroMargin p = .fin (-1) := fun p _ h => by
      by_cases hp : p <;> simp [zeroMargin, hp] at h ⊢
    fin_cases i
    · exact b0 ▸ key _ (b0 ▸ hn)
    · exact b1 ▸ key _ (b1 ▸ hn)
    · exact b2 ▸ key _ (b2 ▸ hn)
    · exact b3 ▸ key _ (b3 ▸ hn)
    · exact b4 ▸ key _ (b4 ▸ hn)

/-- **C117** a material made without allowables has allowables of zero. -/
theorem C117_default (e1 e2 v12 g12 thickness : PyVal) (m : OrthoMat PyFloat) (h : (OrthoMat.args e1 e2 v12 g12 thickness).init = .ok m) :
    m.t1 = .fin 0 ∧ m.c1 = .fin 0 ∧ m.t2 = .fin 0 ∧ m.c2 = .fin 0 ∧ m.s = .fin 0 := by
  obtain ⟨⟨-, -, -, -, -, c6, c7, c8, c9, c10⟩, -, -⟩ := (C01_ortho_ok _ _).mp h
  simp only [OrthoMat.args, PyVal.toFloat, Option.some.injEq] at c6 c7 c8 c9 c10
  exact ⟨c6.symm, c7.symm, c8.symm, c9.symm, c10.symm⟩

/-- The example material without allowables. -/
noncomputable def bareCarbon : Mat := .ortho ⟨132000, 10300, 1/4, 5500, 0.127, 0, 0, 0, 0, 0⟩

/-- Non-vacuity for C117: a stack of a material without allowables has a margin table for every load. -/
example (N : V6) : ∃ l R r, Lam.init (.angles [0, 45, 30]) (.single bareCarbon) = .ok l ∧ IsStack l ∧ calculateMargin l N = .ok R ∧ R[3]? = some r ∧
    ∀ p ∈ l.layup, ∀ m, p.2 = .ortho m → (m.t1 = 0 ∧ m.c1 = 0 ∧ m.t2 = 0 ∧ m.c2 = 0 ∧ m.s = 0) ∧ NonnegAllowables m := by
  obtain ⟨l, hl, hlay⟩ := C10_single [0, 45, 30] bareCarbon
  have hs : IsStack l := ⟨_, _, hl⟩
  have hmem : ∀ p ∈ l.layup, p.2 = bareCarbon := by
    intro p hp
    rw [hlay] at hp
    obtain ⟨a, -, rfl⟩ := List.mem_map.mp hp
    rfl
  have hadm : ∀ p ∈ l.layup, AdmissiblePly p := by
    intro p hp
    obtain ⟨h1, Q, h2, h3⟩ := carbon_admissible p.1
    have e := hmem p hp
    exact ⟨by rw [e]; exact h1, Q, by rw [e]; exact h2, h3⟩
  have hall : HasAllowables l := fun p hp => ⟨_, hmem p hp⟩
  obtain ⟨e, he⟩ := C29_admissible l N hs (by simp [hlay]) hadm
  obtain ⟨R, hR⟩ := (C35_computable l hs N).1.mpr ⟨hall, _, by rw [hs.stress_eq, he]; rfl⟩
  obtain ⟨-, S, hS, h1, -⟩ := margin_rows hs N R hR
  have hlen : R.length = 6 := by rw [h1, hlay]; rfl
  refine ⟨l, R, R[3], hl, hs, hR, by simp [hlen], fun p hp m hm => ?_⟩
  rw [hmem p hp, bareCarbon] at hm
  cases hm
  norm_num [NonnegAllowables]

/-- Non-vacuity for C117_default. -/
example : ∃ m, (OrthoMat.args (.num (.fin 132000)) (.num (.fin 10300)) (.num (.fin (1/4))) (.num (.fin 5500)) (.num (.fin 0.127))).init = .ok m := by
  refine ⟨⟨.fin 132000, .fin 10300, .fin (1/4), .fin 5500, .fin 0.127, .fin 0, .fin 0, .fin 0, .fin 0, .fin 0⟩, (C01_ortho_ok _ _).mpr ⟨?_, ?_, ?_⟩⟩
  · simp [OrthoConverts, OrthoMat.args, PyVal.toFloat]
  · simp [OrthoRanges, InRange]; norm_num
  · simp

end Composipy
