import Mathlib.Data.List.GetD
import Verif.Props.ExactStacks

/-!
# C120: the tables printed in the notebook on strains and stresses

Exact strains and stresses of the laminate of `doc/notebooks/Stress_strain_of_laminate.ipynb`, compared with the numbers printed there.
-/

namespace Composipy
open Spec Matrix

/-- `p.1 * 10 ^ p.2` is what is printed for `x`: right to half a unit of the last printed digit, where rounding noise below `1e-15` stands for zero. -/
def Spec.Prints (x : ℝ) (p : ℤ × ℤ) : Prop := |x - p.1 * (10 : ℝ) ^ p.2| ≤ max ((10 : ℝ) ^ p.2 / 2) (1 / 10 ^ 15)

/-- One printed line of a table of strains or stresses. -/
structure Spec.PrintedRow where
  ply : ℕ
  z : ℤ × ℤ
  position : Pos
  angle : ℤ
  xy : Fin 3 → ℤ × ℤ
  m12 : Fin 3 → ℤ × ℤ

/-- The line printed for a row. -/
structure Spec.ShowsRow (r : Row) (p : PrintedRow) : Prop where
  ply : r.ply = p.ply
  z : Prints r.z p.z
  position : r.position = p.position
  angle : r.angle = p.angle
  xy : ∀ i, Prints (r.xy i) (p.xy i)
  m12 : ∀ i, Prints (r.m12 i) (p.m12 i)

/-- Output of `strength_analysis.epsilon0()`  [doc/notebooks/Stress_strain_of_laminate.ipynb:63-78] -/
def Spec.bookEpsilon : I6 → ℤ × ℤ := Sum.elim ![(152630215, -11), (-489003289, -12), (-167758599, -28)]
  ![(546178270, -11), (-299304212, -11), (-690268796, -12)]

/-- Output of `df_strain.head(10)`  [doc/notebooks/Stress_strain_of_laminate.ipynb:90-297] -/
def Spec.bookStrain : List PrintedRow := [
  ⟨1, (-610, -3), .bot, 45, ![(-180, -5), (134, -5), (421, -6)], ![(-234, -7), (-444, -6), (314, -5)]⟩,
  ⟨1, (-457, -3), .top, 45, ![(-971, -6), (879, -6), (316, -6)], ![(112, -6), (-204, -6), (185, -5)]⟩,
  ⟨2, (-457, -3), .bot, -45, ![(-971, -6), (879, -6), (316, -6)], ![(-204, -6), (112, -6), (-185, -5)]⟩,
  ⟨2, (-305, -3), .top, -45, ![(-138, -6), (423, -6), (210, -6)], ![(372, -7), (248, -6), (-562, -6)]⟩,
  ⟨3, (-305, -3), .bot, 90, ![(-138, -6), (423, -6), (210, -6)], ![(423, -6), (-138, -6), (-210, -6)]⟩,
  ⟨3, (-152, -3), .top, 90, ![(694, -6), (-329, -7), (105, -6)], ![(-329, -7), (694, -6), (-105, -6)]⟩,
  ⟨4, (-152, -3), .bot, 0, ![(694, -6), (-329, -7), (105, -6)], ![(694, -6), (-329, -7), (105, -6)]⟩,
  ⟨4, (-555, -19), .top, 0, ![(153, -5), (-489, -6), (215, -22)], ![(153, -5), (-489, -6), (215, -22)]⟩,
  ⟨5, (-555, -19), .bot, 0, ![(153, -5), (-489, -6), (215, -22)], ![(153, -5), (-489, -6), (215, -22)]⟩,
  ⟨5, (152, -3), .top, 0, ![(236, -5), (-945, -6), (-105, -6)], ![(236, -5), (-945, -6), (-105, -6)]⟩]

/-- Output of `df_stress.head(30)`  [doc/notebooks/Stress_strain_of_laminate.ipynb:340-645] -/
def Spec.bookStress : List PrintedRow := [
  ⟨1, (-610, -3), .bot, 45, ![(-2023, -2), (1003, -2), (222, -3)], ![(-488, -2), (-533, -2), (151, -1)]⟩,
  ⟨1, (-457, -3), .top, 45, ![(-249, -2), (1534, -2), (842, -2)], ![(1484, -2), (-199, -2), (892, -2)]⟩,
  ⟨2, (-457, -3), .bot, -45, ![(-2257, -2), (-473, -2), (142, -1)], ![(-2788, -2), (58, -2), (-892, -2)]⟩,
  ⟨2, (-305, -3), .top, -45, ![(186, -2), (728, -2), (-151, -2)], ![(608, -2), (306, -2), (-271, -2)]⟩,
  ⟨3, (-305, -3), .bot, 90, ![(-9, -2), (5834, -2), (101, -2)], ![(5834, -2), (-9, -2), (-101, -2)]⟩,
  ⟨3, (-152, -3), .top, 90, ![(807, -2), (-203, -2), (507, -3)], ![(-203, -2), (807, -2), (-507, -3)]⟩,
  ⟨4, (-152, -3), .bot, 0, ![(9636, -2), (215, -2), (507, -3)], ![(9636, -2), (215, -2), (507, -3)]⟩,
  ⟨4, (-555, -19), .top, 0, ![(21042, -2), (-19, -2), (104, -18)], ![(21042, -2), (-19, -2), (104, -18)]⟩,
  ⟨5, (-555, -19), .bot, 0, ![(21042, -2), (-19, -2), (104, -18)], ![(21042, -2), (-19, -2), (104, -18)]⟩,
  ⟨5, (152, -3), .top, 0, ![(32448, -2), (-252, -2), (-507, -3)], ![(32448, -2), (-252, -2), (-507, -3)]⟩,
  ⟨6, (152, -3), .bot, 90, ![(2437, -2), (-12278, -2), (-507, -3)], ![(-12278, -2), (2437, -2), (507, -3)]⟩,
  ⟨6, (305, -3), .top, 90, ![(3252, -2), (-18316, -2), (-101, -2)], ![(-18316, -2), (3252, -2), (101, -2)]⟩,
  ⟨7, (305, -3), .bot, -45, ![(9959, -2), (5532, -2), (-645, -1)], ![(14193, -2), (1297, -2), (221, -1)]⟩,
  ⟨7, (457, -3), .top, -45, ![(12402, -2), (6733, -2), (-802, -1)], ![(17590, -2), (1545, -2), (283, -1)]⟩,
  ⟨8, (457, -3), .bot, 45, ![(10394, -2), (4725, -2), (576, -1)], ![(13317, -2), (1802, -2), (-283, -1)]⟩,
  ⟨8, (610, -3), .top, 45, ![(12168, -2), (5257, -2), (658, -1)], ![(15289, -2), (2136, -2), (-346, -1)]⟩]

/-- The material of the notebook. -/
def Spec.bookMat : OrthoMat ℚ := mat 137900 11700 (31 / 100) 4820 (1524 / 10000)

/-- The laminate of the notebook. -/
def Spec.bookLam : List ExactPly := [1, -1, 2, 0, 0, 2, -1, 1].map fun k => (k, bookMat)

/-- Its exact mid-plane strains and curvatures. -/
def bookE : I6 → ℚ := Sum.elim ![28007751237574156975 / 18350069968650768072144, -2991081519641772675 / 6116689989550256024048, 0]
  ![26995049557993573632623046681640625 / 4942534525003100828290751665625686032,
    -11505833136836801589548864408203125 / 3844193519446856199781695739931089136,
    -481059976664818965447998046875 / 696916881698124764282395891938196]

theorem bookE_load : exactLoad bookLam bookE = Sum.elim (![100, 0, 0] : Fin 3 → ℚ) (![20, 0, 0] : Fin 3 → ℚ) := by
  funext i
  revert i
  decide +kernel

/-- The test of `Prints` for fractions. -/
def printsQ (x : ℚ) (p : ℤ × ℤ) : Bool := decide (|x - p.1 * (10 : ℚ) ^ p.2| ≤ max ((10 : ℚ) ^ p.2 / 2) (1 / 10 ^ 15))

theorem prints_of {x : ℚ} {p : ℤ × ℤ} (h : printsQ x p = true) : Prints (x : ℝ) p := by
  have h' := of_decide_eq_true h
  have : ((|x - p.1 * (10 : ℚ) ^ p.2| : ℚ) : ℝ) ≤ ((max ((10 : ℚ) ^ p.2 / 2) (1 / 10 ^ 15) : ℚ) : ℝ) := by exact_mod_cast h'
  push_cast at this
  exact this

/-- The test of one printed line against exact values. -/
def rowQ (P : List ExactPly) (n : ℕ) (xy m12 : Fin 3 → ℚ) (p : PrintedRow) : Bool :=
  decide (n / 2 + 1 = p.ply) && printsQ (exactZ P (n / 2 + n % 2)) p.z && decide ((if n % 2 = 0 then Pos.bot else Pos.top) = p.position) &&
    decide (45 * (P.getD (n / 2) (0, bookMat)).1 = p.angle) && decide (∀ i, printsQ (xy i) (p.xy i) = true) &&
    decide (∀ i, printsQ (m12 i) (p.m12 i) = true)

theorem shows_of {P : List ExactPly} {n : ℕ} {xy m12 : Fin 3 → ℚ} {p : PrintedRow} (h : rowQ P n xy m12 p = true) (hn : n / 2 < P.length) {r : Row}
    (h1 : r.ply = n / 2 + 1) (h2 : r.z = (exactZ P (n / 2 + n % 2) : ℝ)) (h3 : r.position = if n % 2 = 0 then Pos.bot else Pos.top)
    (h4 : r.angle = 45 * P[n / 2].1) (h5 : r.xy = fun i => (xy i : ℝ)) (h6 : r.m12 = fun i => (m12 i : ℝ)) : ShowsRow r p := by
  simp only [rowQ, Bool.and_eq_true, decide_eq_true_eq] at h
  obtain ⟨⟨⟨⟨⟨g1, g2⟩, g3⟩, g4⟩, g5⟩, g6⟩ := h
  refine ⟨h1.trans g1, h2 ▸ prints_of g2, h3.trans g3, ?_, fun i => ?_, fun i => ?_⟩
  · rw [h4, ← g4, List.getD_eq_getElem _ _ hn]
    push_cast
    rfl
  · rw [h5]
    exact prints_of (g5 i)
  · rw [h6]
    exact prints_of (g6 i)

/-- Row `n` of the strain table, in exact arithmetic. -/
def strainQ (n : ℕ) : Fin 3 → ℚ := exactStrain bookLam bookE (n / 2) (n % 2)

/-- The ply of row `n`. -/
def bookPly (n : ℕ) : ExactPly := bookLam.getD (n / 2) (0, bookMat)

theorem bookStrain_ok : ∀ n < 10, ∀ p, bookStrain[n]? = some p → rowQ bookLam n (strainQ n) (exactTurn (bookPly n) (strainQ n)) p = true := by
  have : ∀ n < 10, (bookStrain[n]?.all fun p => rowQ bookLam n (strainQ n) (exactTurn (bookPly n) (strainQ n)) p) = true := by decide +kernel
  intro n hn p hp
  have h := this n hn
  rw [hp] at h
  exact h

theorem bookStress_ok : ∀ n < 16, ∀ p, bookStress[n]? = some p →
    rowQ bookLam n (exactQ (bookPly n) *ᵥ strainQ n) (exactHooke (bookPly n).2 (exactTurn (bookPly n) (strainQ n))) p = true := by
  have : ∀ n < 16, (bookStress[n]?.all fun p => rowQ bookLam n (exactQ (bookPly n) *ᵥ strainQ n)
      (exactHooke (bookPly n).2 (exactTurn (bookPly n) (strainQ n))) p) = true := by decide +kernel
  intro n hn p hp
  have h := this n hn
  rw [hp] at h
  exact h

/-- **C120** the mid-plane strains and the strain and stress tables of `Stress_strain_of_laminate.ipynb` round to the printed ones, and the
stress table has no further rows  [doc/notebooks/Stress_strain_of_laminate.ipynb] -/
theorem C120_tables : ∃ (l : Lam) (e : V6) (S T : List Row),
    Lam.init (.angles [45, -45, 90, 0, 0, 90, -45, 45]) (.single (realMat bookMat)) = .ok l ∧
    epsilon0 l (Sum.elim (![100, 0, 0] : V3) (![20, 0, 0] : V3) : V6) = .ok e ∧
    calculateStrain l (Sum.elim (![100, 0, 0] : V3) (![20, 0, 0] : V3) : V6) = .ok S ∧
    calculateStress l (Sum.elim (![100, 0, 0] : V3) (![20, 0, 0] : V3) : V6) = .ok T ∧
    (∀ i, Prints (e i) (bookEpsilon i)) ∧ List.Forall₂ ShowsRow (S.take 10) bookStrain ∧ List.Forall₂ ShowsRow T bookStress := by
  obtain ⟨l, hl, hs, hlay⟩ := (C101_built [1, -1, 2, 0, 0, 2, -1, 1] bookMat []).1
  have hload : (fun i => ((exactLoad bookLam bookE i : ℚ) : ℝ)) = (Sum.elim (![100, 0, 0] : V3) (![20, 0, 0] : V3) : V6) := by
    rw [bookE_load]
    funext i
    rcases i with i | i <;> fin_cases i <;> simp
  have he := C101_response l hs bookLam hlay (by decide) (by decide +kernel) bookE
  obtain ⟨S, T, hS, hT, lS, lT, hrow⟩ := C101_tables l hs bookLam hlay (by decide) (by decide +kernel) bookE
  rw [hload] at he hS hT
  have hlen : bookLam.length = 8 := rfl
  refine ⟨l, _, S, T, ?_, he, hS, hT, ?_, ?_, ?_⟩
  · rw [← hl]; norm_num
  · intro i
    exact prints_of (by revert i; decide +kernel)
  · refine List.forall₂_iff_get.mpr ⟨by rw [List.length_take, lS, hlen]; rfl, fun n hn hm => ?_⟩
    have hn10 : n < 10 := hm
    obtain ⟨s, t, g1, g2, g3, g4, g5, g6, g7, g8, g9, g10, g11, g12, g13, g14⟩ := hrow (n / 2) (by rw [hlen]; omega) (n % 2) (by omega)
    rw [show 2 * (n / 2) + n % 2 = n by omega] at g1
    have hget : (S.take 10).get ⟨n, hn⟩ = s := by
      rw [List.get_eq_getElem, List.getElem_take]
      exact (List.getElem?_eq_some_iff.mp g1).2
    rw [hget]
    have hply : bookLam[n / 2]'(by rw [hlen]; omega) = bookPly n := (List.getD_eq_getElem _ _ _).symm
    rw [hply] at g10
    exact shows_of (bookStrain_ok n hn10 _ (List.getElem?_eq_getElem hm)) (by rw [hlen]; omega) g3 g5 g13 g7 g9 g10
  · refine List.forall₂_iff_get.mpr ⟨by rw [lT, hlen]; rfl, fun n hn hm => ?_⟩
    have hn16 : n < 16 := hm
    obtain ⟨s, t, g1, g2, g3, g4, g5, g6, g7, g8, g9, g10, g11, g12, g13, g14⟩ := hrow (n / 2) (by rw [hlen]; omega) (n % 2) (by omega)
    rw [show 2 * (n / 2) + n % 2 = n by omega] at g2
    have hget : T.get ⟨n, hn⟩ = t := (List.getElem?_eq_some_iff.mp g2).2
    rw [hget]
    have hply : bookLam[n / 2]'(by rw [hlen]; omega) = bookPly n := (List.getD_eq_getElem _ _ _).symm
    rw [hply] at g11 g12
    exact shows_of (bookStress_ok n hn16 _ (List.getElem?_eq_getElem hm)) (by rw [hlen]; omega) g4 g6 g14 g8 g11 g12

/-- **C120** the tables are not empty, and a table with another sign of a shear stress would be refuted. -/
example : bookStrain.length = 10 ∧ bookStress.length = 16 ∧ printsQ (exactHooke (bookPly 15).2 (exactTurn (bookPly 15) (strainQ 15)) 2) (346, -1) = false := by
  decide +kernel

end Composipy
