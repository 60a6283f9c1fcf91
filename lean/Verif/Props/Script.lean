import Verif.Props.BucklingOutcome
import Verif.Props.EulerBound
import Verif.Props.Validation
import Verif.Props.Strength

/-!
# C94: the documented workflow from the constructor arguments to the buckling factors

The script of the documentation builds an `OrthotropicMaterial`, a `LaminateProperty` from a list of angles, a `PlateStructure` and
calls `buckling_analysis` (or hands the laminate to `LaminateStrength`).  The theorems here chain the separate constructors.
-/

namespace Composipy
open Spec

/-! ## Finite attributes -/

/-- The attributes of a constructed material when all of them are finite numbers. -/
def Spec.finOrtho (m : OrthoMat ℝ) : OrthoMat PyFloat :=
  ⟨.fin m.e1, .fin m.e2, .fin m.v12, .fin m.g12, .fin m.thickness, .fin m.t1, .fin m.c1, .fin m.t2, .fin m.c2, .fin m.s⟩

/-- The attributes of a constructed plate when all of them are finite numbers. -/
def Spec.finPlate (p : PlateNum) : PlateData :=
  ⟨.fin p.a, .fin p.b, .fin p.Nxx, .fin p.Nyy, .fin p.Nxy, p.m, p.n⟩

/-- A physically sensible ply: nothing that the range checks of the constructors accept may be zero, and the Poisson ratios are
compatible with the two moduli. -/
structure Spec.SoundPly (m : OrthoMat ℝ) : Prop where
  e2 : m.e2 ≠ 0
  g12 : m.g12 ≠ 0
  thickness : m.thickness ≠ 0
  poisson : m.v12 ^ 2 * m.e2 < m.e1

theorem ortho_positive {am : OrthoMat PyVal} {m : OrthoMat ℝ} (hm : am.init = .ok (finOrtho m)) (hs : SoundPly m) :
    0 < m.e1 ∧ 0 < m.e2 ∧ 0 < m.g12 ∧ 0 < m.thickness := by
  obtain ⟨-, ⟨r1, r2, -, r4, r5, -⟩, h0⟩ := (C01_ortho_ok am _).mp hm
  refine ⟨lt_of_le_of_ne r1.1 fun h => h0 ?_, lt_of_le_of_ne r2.1 hs.e2.symm, lt_of_le_of_ne r4.1 hs.g12.symm,
    lt_of_le_of_ne r5.1 hs.thickness.symm⟩
  show XF.fin m.e1 = XF.fin 0
  rw [← h]

theorem ortho_admissible {am : OrthoMat PyVal} {m : OrthoMat ℝ} (hm : am.init = .ok (finOrtho m)) (hs : SoundPly m) (t : ℝ) :
    AdmissiblePly (t, .ortho m) := by
  obtain ⟨h1, h2, h3, h4⟩ := ortho_positive hm hs
  exact ⟨h4, (C05_Q0_posDef_iff m h1 h2 h3).mpr hs.poisson⟩

/-- **C94** the laminate of a script: for a sound ply accepted by the constructor and a non-empty list of angles, `LaminateProperty`
is constructed and `A`, `D` and `ABD` can be read, are symmetric and positive definite, and `ABD` is invertible. -/
theorem C94_laminate (am : OrthoMat PyVal) (m : OrthoMat ℝ) (hm : am.init = .ok (finOrtho m)) (hs : SoundPly m)
    (stack : List ℝ) (hne : stack ≠ []) :
    ∃ l A D M, Lam.init (.angles stack) (.single (.ortho m)) = .ok l ∧ l.A = .ok A ∧ l.D = .ok D ∧ l.ABD = .ok M ∧
      IsPD A ∧ IsPD D ∧ IsPD M ∧ M.det ≠ 0 := by
  obtain ⟨l, hl, hlay⟩ := C10_single stack (.ortho m)
  obtain ⟨A, D, M, h⟩ := C15_posDef l ⟨_, _, hl⟩ (by simp [hlay, hne]) (by
    intro p hp
    rw [hlay] at hp
    obtain ⟨a, -, rfl⟩ := List.mem_map.mp hp
    exact ortho_admissible hm hs a)
  exact ⟨l, A, D, M, hl, h⟩

/-- **C94** for a material accepted by the constructor with finite attributes, `D` of a non-empty stack cannot be read exactly when
`1 - v12 v21` vanishes, and then `ZeroDivisionError` is raised. -/
theorem C94_laminate_fails (am : OrthoMat PyVal) (m : OrthoMat ℝ) (hm : am.init = .ok (finOrtho m))
    (stack : List ℝ) (hne : stack ≠ []) (l : Lam) (hl : Lam.init (.angles stack) (.single (.ortho m)) = .ok l) (e : PyErr) :
    l.D = .error e ↔ e = .zeroDivisionError ∧ m.v12 ^ 2 * m.e2 = m.e1 := by
  obtain ⟨-, -, h0⟩ := (C01_ortho_ok am _).mp hm
  have h1 : m.e1 ≠ 0 := fun h => h0 (by show XF.fin m.e1 = XF.fin 0; rw [h])
  obtain ⟨l', hl', hlay⟩ := C10_single stack (.ortho m)
  obtain rfl : l' = l := Except.ok.inj (hl'.symm.trans hl)
  have hst : IsStack l' := ⟨_, _, hl⟩
  rw [hst.D_eq, ← C05_Q0_raises_iff m h1]
  have hall : AllOk l'.layup ↔ ∃ Q, m.Q0 = .ok Q := by
    rw [hlay]
    constructor
    · intro h
      obtain ⟨a, ha⟩ := List.exists_mem_of_ne_nil stack hne
      exact (plyQ_ok_iff _).mp (h (a, .ortho m) (List.mem_map.mpr ⟨a, ha, rfl⟩))
    · rintro h q hq
      obtain ⟨a, -, rfl⟩ := List.mem_map.mp hq
      exact (plyQ_ok_iff _).mpr h
  by_cases h : AllOk l'.layup
  · obtain ⟨Q, hQ⟩ := hall.mp h
    simp [l'.loopMatrix_ok _ h, hQ]
  · rw [l'.loopMatrix_err _ h]
    cases hQ : m.Q0 with
    | ok Q => exact absurd (hall.mpr ⟨Q, hQ⟩) h
    | error x =>
      rw [C05_Q0_only_zeroDiv m x hQ]
      simp [eq_comm]

/-- A plate accepted by the constructor with finite attributes has non-negative sides and at least one term in each direction. -/
theorem plate_accepted {ap : PlateArgs} {p : PlateNum} (hp : ap.init = .ok (finPlate p)) :
    0 ≤ p.a ∧ 0 ≤ p.b ∧ 1 ≤ p.m ∧ 1 ≤ p.n := by
  obtain ⟨-, ⟨-, ha⟩, ⟨-, hb⟩, -, -, -, ⟨-, h1⟩, -, h2⟩ := (C03_plate_ok ap _).mp hp
  refine ⟨ha.1, hb.1, ?_, ?_⟩
  · have : (1 : ℤ) ≤ p.m := h1
    omega
  · have : (1 : ℤ) ≤ p.n := h2
    omega

/-- **C94** the whole script: with a sound ply, a non-empty stack, a plate with non-zero sides, understood constraints, term numbers
within the tables, at least three shapes and at least one eigenvalue asked for, every step up to the eigensolver succeeds; the
matrices handed to it are symmetric, and the result of `buckling_analysis` is the solver's answer. -/
theorem C94_script (S : EigSolver) (am : OrthoMat PyVal) (m : OrthoMat ℝ) (hm : am.init = .ok (finOrtho m)) (hs : SoundPly m)
    (stack : List ℝ) (hne : stack ≠ []) (ap : PlateArgs) (p : PlateNum) (hp : ap.init = .ok (finPlate p)) (ha : p.a ≠ 0)
    (hb : p.b ≠ 0) (c : Constraints) (e : Edges) (he : chooseEdges c = .ok e)
    (hx : p.m + removed (e.x0.has TZ) (e.x0.has RZ) (e.xa.has TZ) (e.xa.has RZ) ≤ 30)
    (hy : p.n + removed (e.y0.has TX) (e.y0.has RX) (e.yb.has TX) (e.yb.has RX) ≤ 30) (hN : 3 ≤ p.m * p.n)
    (numEig : ℤ) (hk : 1 ≤ numEig) (st : PlateState (p.m * p.n)) :
    ∃ l K KG, Lam.init (.angles stack) (.single (.ortho m)) = .ok l ∧ calcKKGD shipped l.D c p = .ok (K, KG) ∧
      K.IsSymm ∧ KG.IsSymm ∧ (bucklingAnalysis S l.D c p numEig st).1 =
        (S _ KG K (min numEig (p.m * p.n - 2)).toNat).map fun out => (out.map fun q => npDiv (-1) q.1, out.map Prod.snd) := by
  obtain ⟨-, -, h1, h2⟩ := plate_accepted hp
  obtain ⟨l, A, D, M, hl, -, hD, -⟩ := C94_laminate am m hm hs stack hne
  obtain ⟨K, KG, hK, -, h⟩ := (((C93_outcome S l.D c p h1 h2 numEig st).2 D hD).2 e he).2.2 ha hb hx hy
  obtain ⟨s1, s2⟩ := C48_symmetric _ _ p h1 h2 K KG hK
  exact ⟨l, K, KG, hl, hK, s1, s2, h (by omega) (by omega)⟩

/-- **C94** the clamped script: up to 26 by 26 terms `K` is positive definite, and with an honest solver and a single compressive load
`Nxx` not above the Euler load of the plate, the smallest positive value returned is the critical one and lies between the Euler and
Rayleigh bounds of the laminate built by the script. -/
theorem C94_clamped_script (S : EigSolver) (am : OrthoMat PyVal) (m : OrthoMat ℝ) (hm : am.init = .ok (finOrtho m))
    (hs : SoundPly m) (stack : List ℝ) (hne : stack ≠ []) (ap : PlateArgs) (p : PlateNum) (hp : ap.init = .ok (finPlate p))
    (ha : p.a ≠ 0) (hb : p.b ≠ 0) (hm' : p.m ≤ 26) (hn' : p.n ≤ 26) (hx : p.Nxx < 0) (hy : p.Nyy = 0) (hxy : p.Nxy = 0) :
    ∃ l D K KG, Lam.init (.angles stack) (.single (.ortho m)) = .ok l ∧ l.D = .ok D ∧
      calcKKGD shipped l.D (.str wCLAMPED) p = .ok (K, KG) ∧ D.PosDef ∧ K.PosDef ∧
      (-p.Nxx ≤ 4 * Real.pi ^ 2 / (D⁻¹ 0 0 * p.a ^ 2) → Honest S KG K → ∀ numEig st vals vecs,
        (bucklingAnalysis S l.D (.str wCLAMPED) p numEig st).1 = .ok (vals, vecs) →
        ∃ lam0, XF.fin lam0 ∈ vals ∧ (∀ lam, 0 < lam → XF.fin lam ∈ vals → lam0 ≤ lam) ∧ PosMult K KG lam0 ∧
          (∀ lam, PosMult K KG lam → lam0 ≤ lam) ∧ 4 * Real.pi ^ 2 / (D⁻¹ 0 0 * p.a ^ 2) / -p.Nxx ≤ lam0 ∧
          lam0 ≤ rayleigh D p.a p.b (-p.Nxx) 0) := by
  obtain ⟨ha0, hb0, h1, h2⟩ := plate_accepted hp
  have ha' := lt_of_le_of_ne ha0 ha.symm
  have hb' := lt_of_le_of_ne hb0 hb.symm
  obtain ⟨l, A, D, M, hl, -, hD, -, -, hpd, -⟩ := C94_laminate am m hm hs stack hne
  have hpd : D.PosDef := by
    refine Matrix.PosDef.of_dotProduct_mulVec_pos ?_ fun x hx => by simpa using hpd.2 x hx
    rw [Matrix.IsHermitian, Matrix.conjTranspose_eq_transpose_of_trivial, hpd.1.eq]
  obtain ⟨⟨K, KG⟩, hK⟩ := (C93_named_limits S D p h1 h2 ha hb 1 (.fresh _)).2.2.2 hm' hn'
  refine ⟨l, D, K, KG, hl, hD, by rw [hD, hK], hpd, clamped_posDef hpd ha' hb' h1 h2 hm' hn' hK, ?_⟩
  intro hload hS numEig st vals vecs h
  rw [hD] at h
  exact C89_reported S D hpd p ha' hb' h1 h2 hm' hn' hx hy hxy hload K KG hK hS numEig st vals vecs h

/-- **C94** the strength script: for every load the midplane strains exist, and the tables of strains and stresses have two rows per
ply. -/
theorem C94_strength_script (am : OrthoMat PyVal) (m : OrthoMat ℝ) (hm : am.init = .ok (finOrtho m)) (hs : SoundPly m)
    (stack : List ℝ) (hne : stack ≠ []) (N : V6) :
    ∃ l e rows, Lam.init (.angles stack) (.single (.ortho m)) = .ok l ∧ epsilon0 l N = .ok e ∧
      calculateStrain l N = .ok rows ∧ rows.length = 2 * stack.length ∧
      ∃ stresses, calculateStress l N = .ok stresses ∧ stresses.length = 2 * stack.length := by
  obtain ⟨l, hl, hlay⟩ := C10_single stack (.ortho m)
  obtain ⟨e, he⟩ := C29_admissible l N ⟨_, _, hl⟩ (by simp [hlay, hne]) (by
    intro p hp
    rw [hlay] at hp
    obtain ⟨a, -, rfl⟩ := List.mem_map.mp hp
    exact ortho_admissible hm hs a)
  have hst : IsStack l := ⟨_, _, hl⟩
  refine ⟨l, e, strainRows l e, hl, he, by rw [hst.strain_eq, he]; rfl, ?_, stressRows l e, by rw [hst.stress_eq, he]; rfl, ?_⟩
  all_goals
    rw [show stack.length = l.layup.length by simp [hlay]]
    exact flatMap_pair_length _ _ _

/-- Non-vacuity of C94: a carbon ply given partly as text, a `[0, 45, -45, 90]` stack and a 360 by 360 clamped plate. -/
example : ∃ (am : OrthoMat PyVal) (m : OrthoMat ℝ) (ap : PlateArgs) (p : PlateNum), am.init = .ok (finOrtho m) ∧ SoundPly m ∧
    ap.init = .ok (finPlate p) ∧ p.a ≠ 0 ∧ p.b ≠ 0 ∧ p.Nxx < 0 ∧ p.Nyy = 0 ∧ p.Nxy = 0 ∧ p.m = 10 ∧ p.n = 10 ∧
    ∀ S, ∃ l K KG, Lam.init (.angles [0, 45, -45, 90]) (.single (.ortho m)) = .ok l ∧
      calcKKGD shipped l.D (.str wCLAMPED) p = .ok (K, KG) ∧
      (bucklingAnalysis S l.D (.str wCLAMPED) p 5 (.fresh _)).1 =
        (S _ KG K (min 5 (p.m * p.n - 2 : ℤ)).toNat).map fun out => (out.map fun q => npDiv (-1) q.1, out.map Prod.snd) := by
  have hp : parseFloat "132e3".toList = some (.fin 132000) := by decide +kernel
  have hm : (OrthoMat.args (.str "132e3".toList) (.num (.fin 10300)) (.num (.fin 0.25)) (.num (.fin 5500)) (.num (.fin 0.127))).init =
      .ok (finOrtho ⟨132000, 10300, 0.25, 5500, 0.127, 0, 0, 0, 0, 0⟩) := by
    rw [C01_ortho_ok]
    refine ⟨?_, ?_, ?_⟩
    · simp only [OrthoConverts, OrthoMat.args, PyVal.toFloat, hp, Option.map, XF.toReal, finOrtho]
      norm_num
    · simp only [OrthoRanges, InRange, finOrtho]; norm_num; simp
    · intro h; norm_num [XF.fin.injEq, finOrtho] at h
  have hpl : (PlateArgs.args true (.num (.fin 360)) (.num (.fin 360)) (.num (.fin (-1)))).init =
      .ok (finPlate ⟨360, 360, -1, 0, 0, 10, 10⟩) := by
    rw [C03_plate_ok]
    simp [PlateAccepts, PlateArgs.args, PyVal.toFloat, finPlate, InRange]
  have hs : SoundPly ⟨132000, 10300, 0.25, 5500, 0.127, 0, 0, 0, 0, 0⟩ := by
    constructor <;> norm_num
  refine ⟨_, _, _, _, hm, hs, hpl, by norm_num, by norm_num, by norm_num, rfl, rfl, rfl, rfl, fun S => ?_⟩
  obtain ⟨l, K, KG, hl, hK, -, -, h⟩ := C94_script S _ _ hm hs [0, 45, -45, 90] (by simp) _ _ hpl (by norm_num) (by norm_num)
    (.str wCLAMPED) _ rfl (by decide) (by decide) (by norm_num) 5 (by norm_num) (.fresh _)
  exact ⟨l, K, KG, hl, hK, h⟩

end Composipy
