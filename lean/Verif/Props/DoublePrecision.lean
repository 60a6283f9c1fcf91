import Verif.Gen.RoundPlates
import Verif.Model.RoundedBuckling
import Verif.Props.Documented
import Verif.Props.Sensitivity

/-!
# C122: the printed multipliers when everything is computed with doubles
-/

namespace Composipy
open Spec Matrix

/-! ## The stiffness -/

theorem stack_growth {u : ℝ} (hu0 : 0 ≤ u) (hu : u ≤ double) {n : ℕ} (hn : n ≤ 20) :
    denErr u (1 / 100) < 1 ∧ 36 * (rotGrowth (8 / 5) u - 1) ≤ 1 / 2 ∧ 100 * u * 144 ≤ 1 ∧
      plyGrowth u (1 / 100) (8 / 5) (rotInvGrowth 100 (8 / 5) u) * (1 + u) ^ (7 * n + 8) - 1 ≤ 22 / 10 ^ 12 := by
  have hd : denErr u (1 / 100) ≤ 2 / 10 ^ 15 := by
    have : denErr u (1 / 100) ≤ denErr double (1 / 100) := by unfold denErr; gcongr
    refine this.trans ?_
    norm_num [denErr, double]
  have ht : trigGrowth u (8 / 5) ≤ 1 + 13 / 10 ^ 16 := by
    have : trigGrowth u (8 / 5) ≤ trigGrowth double (8 / 5) := by unfold trigGrowth; gcongr
    refine this.trans ?_
    norm_num [trigGrowth, double]
  have ht1 : 0 ≤ trigGrowth u (8 / 5) := by
    have : 1 ≤ (1 + u) ^ 3 := one_le_pow₀ (by linarith)
    unfold trigGrowth
    nlinarith
  have hone : 1 + u ≤ 1 + 23 / 10 ^ 17 := by
    have : double ≤ 23 / 10 ^ 17 := by norm_num [double]
    linarith
  have hr : rotGrowth (8 / 5) u ≤ 1 + 31 / 10 ^ 16 := by
    have : rotGrowth (8 / 5) u ≤ (1 + 13 / 10 ^ 16) ^ 2 * (1 + 23 / 10 ^ 17) ^ 2 := by unfold rotGrowth; gcongr
    refine this.trans ?_
    norm_num
  have hi : rotInvGrowth 100 (8 / 5) u ≤ 1 + 21 / 10 ^ 12 := by
    unfold rotInvGrowth
    linarith
  have hi0 : 0 ≤ rotInvGrowth 100 (8 / 5) u := by
    have := rotInvGrowth_ge (c := 100) (a := 8 / 5) (by norm_num) hu0 (by norm_num)
    linarith
  have hm : matGrowth u (1 / 100) ≤ 1 + 3 / 10 ^ 15 := by
    have : matGrowth u (1 / 100) ≤ (1 + 23 / 10 ^ 17) ^ 2 / (1 - 2 / 10 ^ 15) := by
      unfold matGrowth
      apply div_le_div₀
      · positivity
      · gcongr
      · norm_num
      · linarith
    refine this.trans ?_
    norm_num
  have hm0 : 0 ≤ matGrowth u (1 / 100) := div_nonneg (by positivity) (by linarith)
  refine ⟨by linarith, by linarith, by linarith, ?_⟩
  have hp : (1 + u) ^ (7 * n + 8) ≤ (1 + 23 / 10 ^ 17) ^ 148 :=
    (pow_le_pow_right₀ (by linarith) (by omega)).trans (pow_le_pow_left₀ (by linarith) hone _)
  have : plyGrowth u (1 / 100) (8 / 5) (rotInvGrowth 100 (8 / 5) u) * (1 + u) ^ (7 * n + 8)
      ≤ (1 + 21 / 10 ^ 12) * (1 + 3 / 10 ^ 15) * ((1 + 13 / 10 ^ 16) ^ 2 * (1 + 23 / 10 ^ 17) ^ 2) * (1 + 23 / 10 ^ 17) ^ 6 * (1 + 23 / 10 ^ 17) ^ 148 := by
    unfold plyGrowth
    gcongr
  have h2 : (1 + 21 / 10 ^ 12) * (1 + 3 / 10 ^ 15) * ((1 + 13 / 10 ^ 16) ^ 2 * (1 + 23 / 10 ^ 17) ^ 2) * (1 + 23 / 10 ^ 17) ^ 6 * (1 + 23 / 10 ^ 17) ^ 148
      ≤ (1 : ℝ) + 22 / 10 ^ 12 := by norm_num
  linarith

/-- `D` computed with doubles from the data as they are. -/
theorem stack_computed (F : FloatLib) (hu : F.u ≤ double) (hinv : StableInv F.u 100 F.inv) (l : Lam) (hs : IsStack l) (ht : NonnegThick l.layup)
    (hp : ∀ p ∈ l.layup, 0 ≤ poissonProduct p.2 ∧ poissonProduct p.2 ≤ 1 / 100 ∧ |p.1| ≤ 90) (hn : l.layup.length ≤ 20) (S : ℝ)
    (hS : ∀ p ∈ l.layup, ∀ Q, p.2.Q0 = .ok Q → entrySum Q ≤ S) (hS0 : 0 ≤ S) :
    ∃ D D', l.D = .ok D ∧ F.stiffness l.layup F.wD = .ok D' ∧ ∀ i j, |D' i j - D i j| ≤ 22 / 10 ^ 12 * (height l.layup ^ 3 / 12 * (l.layup.length * (4 * S))) := by
  obtain ⟨g1, g2, g3, g4⟩ := stack_growth F.u_nonneg hu hn
  obtain ⟨A, A', B, B', D, D', -, -, d1, -, -, d2, hE⟩ := C111_stack F (1 / 100) (8 / 5) _ S (by norm_num) (by norm_num) g1 (by norm_num)
    (rotInvGrowth_ge (c := 100) (by norm_num) F.u_nonneg (by norm_num)) l hs ht
    (fun p h => plyOk_of_stable F (by norm_num) hinv p (hp p h).1 (hp p h).2.1 (by
      have h1 := (hp p h).2.2
      rw [abs_div, abs_mul, abs_of_pos Real.pi_pos, abs_of_pos (by norm_num : (0 : ℝ) < 180)]
      have := Real.pi_lt_d2
      rw [div_le_iff₀ (by norm_num)]
      nlinarith [Real.pi_pos, abs_nonneg p.1]) g2 g3) hS
  refine ⟨D, D', d1, d2, fun i j => (hE i j).2.2.trans ?_⟩
  have := height_nonneg ht
  exact mul_le_mul_of_nonneg_right g4 (by positivity)

theorem double_le : double ≤ 23 / 10 ^ 17 ∧ (0 : ℝ) ≤ double := by norm_num [double]

/-- **C122** `D` computed with doubles, for a stack with angles of at most 90 degrees; the data of the materials are rounded too (`l'` is the stack with the rounded data). -/
theorem C122_stack (F : FloatLib) (hu : F.u ≤ double) (hinv : StableInv F.u 100 F.inv) (l l' : Lam) (hs : IsStack l) (hs' : IsStack l')
    (hl : List.Forall₂ (NearPly double 0) l.layup l'.layup) (ht : NonnegThick l.layup)
    (hp : ∀ p ∈ l.layup, 0 ≤ poissonProduct p.2 ∧ poissonProduct p.2 ≤ 99 / 10000 ∧ |p.1| ≤ 90) (hn : l.layup.length ≤ 20) (S : ℝ)
    (hS : ∀ p ∈ l.layup, ∀ Q, p.2.Q0 = .ok Q → entrySum Q ≤ S) (hS0 : 0 ≤ S) :
    ∃ D D', l.D = .ok D ∧ F.stiffness l'.layup F.wD = .ok D' ∧ ∀ i j, |D' i j - D i j| ≤ 3 / 10 ^ 11 * (height l.layup ^ 3 / 12 * (l.layup.length * (4 * S))) := by
  obtain ⟨u1, u0⟩ := double_le
  have ue : double < 1 := by linarith
  have hh := height_nonneg ht
  obtain ⟨hd, hch⟩ := C125_small (al := 0) (r := 99 / 10000) u0 (by linarith) le_rfl (by norm_num) (by norm_num) hS0 hh 2
  obtain ⟨_, _, _, _, D, D1, -, -, -, -, d1, d2, hE⟩ := C125_stack u0 ue (by norm_num) hd l l' hs hs' hl ht (fun p h => ⟨(hp p h).1, (hp p h).2.1⟩) hS
  have hlen := hl.length_eq
  have pair : ∀ p' ∈ l'.layup, ∃ p ∈ l.layup, NearPly double 0 p p' := fun p' hp' => by
    obtain ⟨n, hn, rfl⟩ := List.mem_iff_getElem.mp hp'
    exact ⟨l.layup[n]'(by omega), List.getElem_mem _, (List.forall₂_iff_get.mp hl).2 n (by omega) (by omega)⟩
  have hk : (1 + double) ^ 3 * (1 / (1 - double)) - 1 ≤ 1 / 100 := by norm_num [double]
  have hg : dataGrowth double (99 / 10000) ≤ 1 + 1 / 10 ^ 10 := by norm_num [dataGrowth, dataErr, double]
  have thick : ∀ p p', 0 ≤ p.2.thickness → NearPly double 0 p p' → 0 ≤ p'.2.thickness ∧ p'.2.thickness ≤ (1 + 1 / 10 ^ 10) * p.2.thickness := fun p p' h0 h => by
    have h1 := h.2.thickness
    rw [RelTol, abs_of_nonneg h0] at h1
    have := abs_le.mp h1
    have := mul_le_mul_of_nonneg_right u1 h0
    constructor <;> linarith
  have hhl : height l'.layup ≤ (1 + 1 / 10 ^ 10) * height l.layup := by
    have main : ∀ L L' : List (ℝ × Mat), NonnegThick L → List.Forall₂ (NearPly double 0) L L' → height L' ≤ (1 + 1 / 10 ^ 10) * height L := by
      intro L L' h0 hf
      induction hf with
      | nil => simp [height]
      | @cons p p' L L' h hL ih =>
        have h1 := ih fun q hq => h0 q (List.mem_cons_of_mem _ hq)
        have h2 := (thick p p' (h0 p (by simp)) h).2
        simp only [height, List.map_cons, List.sum_cons] at h1 ⊢
        linarith
    exact main _ _ ht hl
  have ht' : NonnegThick l'.layup := fun p' hp' => by
    obtain ⟨p, hp1, h⟩ := pair p' hp'
    exact (thick p p' (ht p hp1) h).1
  obtain ⟨D2, D', d3, d4, hE'⟩ := stack_computed F hu hinv l' hs' ht' (fun p' hp' => by
      obtain ⟨p, hp1, h⟩ := pair p' hp'
      obtain ⟨a0, a1, a2⟩ := hp p hp1
      have h1 := abs_le.mp (poisson_near u0 ue h.2 a0)
      have h2 := mul_le_mul_of_nonneg_right hk a0
      have h3 : |p'.1 - p.1| = 0 := by
        have := h.1
        have h4 := abs_nonneg (p'.1 - p.1)
        have : |p'.1 - p.1| * Real.pi ≤ 0 := by linarith
        nlinarith [Real.pi_pos, Real.pi_gt_three]
      have h4 : p'.1 = p.1 := sub_eq_zero.mp (abs_eq_zero.mp h3)
      exact ⟨by linarith, by linarith, by rw [h4]; exact a2⟩) (by omega) ((1 + 1 / 10 ^ 10) * S) (fun p' hp' Q hQ => by
      obtain ⟨p, hp1, h⟩ := pair p' hp'
      obtain ⟨a0, a1, a2⟩ := hp p hp1
      obtain ⟨Q0, Q0', q1, q2, q3⟩ := C125_Q0 u0 ue (by norm_num) hd p.2 p'.2 h.2 a0 a1
      obtain rfl := Except.ok.inj (q2.symm.trans hQ)
      refine (entrySum_rel q3).2.trans ?_
      exact mul_le_mul hg (hS p hp1 _ q1) (entrySum_nonneg _) (by norm_num)) (by positivity)
  obtain rfl := Except.ok.inj (d2.symm.trans d3)
  refine ⟨D, D', d1, d4, fun i j => ?_⟩
  have e1 : D' i j - D i j = (D' i j - D1 i j) + (D1 i j - D i j) := by ring
  rw [e1]
  refine (abs_add_le _ _).trans ?_
  have b1 := hE' i j
  have b2 := ((hE i j).2.2).trans hch
  have b3 : height l'.layup ^ 3 ≤ ((1 + 1 / 10 ^ 10) * height l.layup) ^ 3 := pow_le_pow_left₀ (height_nonneg ht') hhl 3
  rw [← hlen] at b1
  have b4 : height l'.layup ^ 3 / 12 * (l.layup.length * (4 * ((1 + 1 / 10 ^ 10) * S))) ≤ ((1 + 1 / 10 ^ 10) * height l.layup) ^ 3 / 12 * (l.layup.length * (4 * ((1 + 1 / 10 ^ 10) * S))) :=
    mul_le_mul_of_nonneg_right (by linarith) (by positivity)
  have b5 : ((1 + 1 / 10 ^ 10) * height l.layup) ^ 3 / 12 * (l.layup.length * (4 * ((1 + 1 / 10 ^ 10) * S))) = (1 + 1 / 10 ^ 10) ^ 4 * (height l.layup ^ 3 / 12 * (l.layup.length * (4 * S))) := by ring
  set X := height l.layup ^ 3 / 12 * (l.layup.length * (4 * S)) with hX
  have hX0 : 0 ≤ X := by positivity
  have b6 : 22 / 10 ^ 12 * (height l'.layup ^ 3 / 12 * (l.layup.length * (4 * ((1 + 1 / 10 ^ 10) * S)))) ≤ 23 / 10 ^ 12 * X := by
    have : (22 / 10 ^ 12 : ℝ) * (1 + 1 / 10 ^ 10) ^ 4 ≤ 23 / 10 ^ 12 := by norm_num
    have := mul_le_mul_of_nonneg_right this hX0
    linarith
  have b7 : S * height l.layup ^ 3 ≤ 3 * X := by
    cases hL : l.layup with
    | nil => simp [hX, hL, height]
    | cons q L =>
      have : (1 : ℝ) ≤ l.layup.length := by rw [hL]; simp
      have h0 : 0 ≤ S * height l.layup ^ 3 := by positivity
      rw [← hL, hX]
      nlinarith
  have b8 : (((2 : ℕ) : ℝ) + 8) * double + 5 * 0 ≤ 1 / 10 ^ 12 := by push_cast; linarith
  have b9 : ((((2 : ℕ) : ℝ) + 8) * double + 5 * 0) * S * height l.layup * (51 / 100 * height l.layup) ^ 2 ≤ 1 / 10 ^ 12 * (S * height l.layup ^ 3) := by
    have h0 : 0 ≤ S * height l.layup ^ 3 := by positivity
    have := mul_le_mul_of_nonneg_right b8 h0
    have e2 : ((((2 : ℕ) : ℝ) + 8) * double + 5 * 0) * S * height l.layup * (51 / 100 * height l.layup) ^ 2 = (51 / 100) ^ 2 * (((((2 : ℕ) : ℝ) + 8) * double + 5 * 0) * (S * height l.layup ^ 3)) := by ring
    rw [e2]
    have h1 : 0 ≤ ((((2 : ℕ) : ℝ) + 8) * double + 5 * 0) * (S * height l.layup ^ 3) := by positivity
    nlinarith
  linarith

/-! ## The values reported -/

/-- The values reported for a plate when the stiffness, the matrices and the last division are computed in the arithmetic `F` agree with the printed ones, in order, to within
`tol`; and with some solver that keeps the contract the call with the default number of values returns. -/
def Spec.DocumentsIn (F : FloatArith) (D : Except PyErr M3) (cs : Constraints) (p : PlateNum) (printed : List ℝ) (tol : ℝ) : Prop :=
  ∃ K KG, F.calcKKGD shipped D cs p = .ok (K, KG) ∧ K.PosDef ∧ KG.IsSymm ∧
    (∀ S : EigSolver, (∀ k out, S _ KG K k = .ok out → EigshFull KG K k out ∧ CayleySorted out) → ∀ numEig st vals vecs,
      (F.bucklingAnalysis S D cs p numEig st).1 = .ok (vals, vecs) → (vals.length : ℤ) = min numEig ((p.m * p.n : ℕ) - 2) ∧
      ∀ (i : ℕ) (v : PyFloat) (d : ℝ), vals[i]? = some v → printed[i]? = some d → ∃ x : ℝ, v = .fin x ∧ |x - d| ≤ tol) ∧
    ∃ S : EigSolver, (∀ k out, S _ KG K k = .ok out → EigshFull KG K k out ∧ CayleySorted out) ∧
      ∃ vals vecs, (F.bucklingAnalysis S D cs p 5 (PlateState.fresh _)).1 = .ok (vals, vecs)

theorem bucklingIn_inv {F : FloatArith} {S : EigSolver} {D : Except PyErr M3} {c : Constraints} {p : PlateNum} {numEig : ℤ}
    {st : PlateState (p.m * p.n)} {vals : List PyFloat} {vecs : List (Fin (p.m * p.n) → ℝ)}
    (h : (F.bucklingAnalysis S D c p numEig st).1 = .ok (vals, vecs)) :
    ∃ K KG out, F.calcKKGD shipped D c p = .ok (K, KG) ∧ 0 < min numEig ((p.m * p.n : ℕ) - 2 : ℤ) ∧
      S _ KG K (min numEig ((p.m * p.n : ℕ) - 2 : ℤ)).toNat = .ok out ∧ vals = out.map (fun q => F.recip q.1) := by
  unfold FloatArith.bucklingAnalysis at h
  cases D with
  | error e => simp at h
  | ok M =>
  cases hs : computeIdx c p.m p.n with
  | error e => simp [hs] at h
  | ok s =>
  cases hK : F.calcKKGD shipped (.ok M) c p with
  | error e => simp [hs, hK] at h
  | ok KK =>
  obtain ⟨K, KG⟩ := KK
  by_cases hk : min numEig ((p.m * p.n : ℕ) - 2 : ℤ) ≤ 0
  · simp only [hs, hK, eigshCall, if_pos hk] at h; cases h
  · cases hS : S _ KG K (min numEig ((p.m * p.n : ℕ) - 2 : ℤ)).toNat with
    | error e => simp only [hs, hK, eigshCall, if_neg hk, hS] at h; cases h
    | ok out =>
      simp only [hs, hK, eigshCall, if_neg hk, hS] at h
      cases h
      exact ⟨K, KG, out, rfl, not_le.mp hk, hS, rfl⟩

/-- From brackets of the multipliers of the computed matrices to the values reported. -/
theorem documentsIn_of (F : FloatArith) (hu : F.u ≤ double) (D' : M3) (cs : Constraints) (p : PlateNum) (hmn : 7 ≤ p.m * p.n) {s : ShapeIdx}
    (hs : computeIdx cs p.m p.n = .ok s) (K KG : SqMat (p.m * p.n))
    (hK : F.calcKKGD shipped (.ok D') cs p = .ok (K, KG)) (hpd : K.PosDef) (hsym : KG.IsSymm) {brs : List (ℚ × ℚ)} {eta delta : ℚ}
    (hall : ∀ i x, brs[i]? = some x → ∃ lam, IsKth K KG (i + 1) lam ∧ (lowEnd eta delta x : ℝ) ≤ lam ∧ lam ≤ highEnd eta delta x)
    (h1 : ∃ x, brs[0]? = some x ∧ 1 ≤ lowEnd eta delta x) {printed : List ℝ} {tol : ℝ}
    (hpr : List.Forall₂ (fun (d : ℝ) (x : ℚ × ℚ) => d - tol ≤ (lowEnd eta delta x : ℝ) * (1 - 1 / 2 ^ 52) ∧
      (highEnd eta delta x : ℝ) * (1 + 1 / 2 ^ 52) ≤ d + tol) printed brs) : DocumentsIn F (.ok D') cs p printed tol := by
  refine ⟨K, KG, hK, hpd, hsym, fun S hS numEig st vals vecs hrun => ?_, ?_⟩
  · obtain ⟨K₁, KG₁, out, hK₁, hk, hout, rfl⟩ := bucklingIn_inv hrun
    rw [hK] at hK₁
    obtain ⟨rfl, rfl⟩ := Prod.mk.inj (Except.ok.inj hK₁)
    obtain ⟨hf, hso⟩ := hS _ _ hout
    refine ⟨by rw [List.length_map, hf.len, Int.toNat_of_nonneg hk.le], fun i v d hv hd => ?_⟩
    obtain ⟨x, hx, hlo, hhi⟩ := forall₂_some hpr i d hd
    obtain ⟨x0, hx0', hx1⟩ := h1
    have hone : ∀ mu, PosMult K KG mu → 1 ≤ mu := fun mu hmu => by
      obtain ⟨lam, e1, e2, -⟩ := hall 0 x0 hx0'
      have e3 : (1 : ℝ) ≤ lowEnd eta delta x0 := by exact_mod_cast hx1
      refine le_trans (e3.trans e2) (e1.2 ?_)
      obtain ⟨m0, w, hw⟩ := hmu
      refine Nat.pos_of_ne_zero fun e4 => ?_
      have e5 : Module.finrank ℝ (modes K KG mu) = 0 := e4
      rw [Submodule.finrank_eq_zero] at e5
      have e6 : w ∈ modes K KG mu := Submodule.subset_span ⟨mu, m0, le_rfl, hw⟩
      rw [e5, Submodule.mem_bot] at e6
      exact hw.1 e6
    have hi : i < out.length := by
      by_contra hge
      rw [List.getElem?_eq_none (by rw [List.length_map]; omega)] at hv
      cases hv
    obtain ⟨lam, e1, e2, e3⟩ := hall i x hx
    obtain ⟨lam', f1, f2, f3⟩ := full_ordered hpd hsym hf hso hone i hi e1.1
    have hll : lam' = lam := le_antisymm (f1.2 e1.1) (e1.2 f1.1)
    subst hll
    have hl := f2.1
    refine ⟨F.fl lam', ?_, ?_⟩
    · rw [List.getElem?_map, List.getElem?_eq_getElem hi, Option.map_some] at hv
      rw [← Option.some.inj hv, f3, FloatArith.recip, npDiv, if_neg (div_ne_zero (by norm_num) hl.ne')]
      field_simp
    · have g1 := F.near lam'
      rw [abs_of_pos hl] at g1
      have g2 := mul_le_mul_of_nonneg_right hu hl.le
      rw [double] at g2
      obtain ⟨g3, g4⟩ := abs_le.mp g1
      have g5 := mul_le_mul_of_nonneg_right e2 (show (0 : ℝ) ≤ 1 - 1 / 2 ^ 52 by norm_num)
      have g6 := mul_le_mul_of_nonneg_right e3 (show (0 : ℝ) ≤ 1 + 1 / 2 ^ 52 by norm_num)
      rw [abs_le]
      constructor <;> linarith
  · obtain ⟨S, hS⟩ := exists_full
    obtain ⟨e1, e2⟩ := hS _ KG K hsym hpd
    obtain ⟨out, hout⟩ := e2 5 (by omega)
    refine ⟨S, e1, out.map (fun q => F.recip q.1), out.map Prod.snd, ?_⟩
    have hmin : min (5 : ℤ) ((p.m * p.n : ℕ) - 2) = 5 := by omega
    have hc : eigshCall S KG K 5 = .ok out := by
      rw [eigshCall, if_neg (by norm_num)]
      exact hout
    unfold FloatArith.bucklingAnalysis
    simp only [hs, hK, hmin]
    rw [hc]

/-! ## The stacks of the notebooks -/

/-- Check of a stack of one material: bounds of its data, of the error `d` of the computed `D`, and of `d` against the entries. -/
def stackOk (ks : List ℤ) (m : OrthoMat ℚ) (S d : ℚ) : Bool :=
  ks.all (fun k => Nat.ble k.natAbs 2) && Nat.ble ks.length 20 && decide (0 ≤ m.thickness ∧ poisson m ≠ 0 ∧ 0 ≤ 1 - poisson m ∧ 1 - poisson m ≤ 99 / 10000) &&
  decide (|m.e1 / poisson m| + 2 * |m.v12 * m.e2 / poisson m| + |m.e2 / poisson m| + |m.g12| ≤ S) &&
  decide (3 / 10 ^ 11 * (exactH (ks.map fun k => (k, m)) ^ 3 / 12 * (ks.length * (4 * S))) ≤ d) &&
  (List.finRange 3).all fun i => (List.finRange 3).all fun j => decide (100 * d ≤ exactD (ks.map fun k => (k, m)) i j)

theorem height_real (P : List ExactPly) : height (P.map realPly) = exactH P := by
  induction P with
  | nil => simp [height, exactH]
  | cons p P ih =>
    simp only [height, exactH, List.map_cons, List.sum_cons] at ih ⊢
    rw [ih]
    push_cast
    rfl

/-- The computed `D` of such a stack. -/
theorem stack_double {ks : List ℤ} {m : OrthoMat ℚ} {S d : ℚ} (h : stackOk ks m S d = true) : ∀ m' : Mat, NearMat double (Spec.realMat m) m' → ∃ l, Lam.init (.angles (ks.map fun k : ℤ => 45 * (k : ℝ))) (.single m') = .ok l ∧
    ∀ F : FloatLib, F.u ≤ double → StableInv F.u 100 F.inv → ∃ D', F.stiffness l.layup F.wD = .ok D' ∧
      (∀ i j, |D' i j - (exactD (ks.map fun k => (k, m))).map ((↑) : ℚ → ℝ) i j| ≤ d) ∧ ∀ i j, 100 * (d : ℝ) ≤ (exactD (ks.map fun k => (k, m))).map ((↑) : ℚ → ℝ) i j := by
  simp only [stackOk, Bool.and_eq_true, decide_eq_true_eq, List.all_eq_true, Nat.ble_eq] at h
  obtain ⟨⟨⟨⟨⟨h1, h2⟩, h3, h4, h5, h6⟩, h7⟩, h8⟩, h9⟩ := h
  intro m' hm'
  obtain ⟨l, hl, hs, hlay⟩ := (C101_built ks m []).1
  obtain ⟨l', hl', hlay'⟩ := C10_single (ks.map fun k : ℤ => 45 * (k : ℝ)) m'
  refine ⟨l', hl', fun F hu hinv => ?_⟩
  have hnear : List.Forall₂ (NearPly double 0) l.layup l'.layup := by
    rw [hlay, hlay', List.map_map, List.map_map, List.forall₂_map_left_iff, List.forall₂_map_right_iff]
    exact List.forall₂_same.mpr fun k _ => ⟨by simp [realPly], hm'⟩
  have hmem : ∀ p ∈ l.layup, ∃ k ∈ ks, p = (45 * (k : ℝ), Spec.realMat m) := fun p hp => by
    rw [hlay, List.map_map] at hp
    obtain ⟨k, hk, rfl⟩ := List.mem_map.mp hp
    exact ⟨k, hk, rfl⟩
  have hlen : l.layup.length = ks.length := by rw [hlay]; simp
  have hpo : poissonProduct (Spec.realMat m) = ((1 - poisson m : ℚ) : ℝ) := by
    simp only [poissonProduct, Spec.realMat, poisson]
    push_cast
    ring
  have hD := ((C101_stiffness l hs (ks.map fun k => (k, m)) hlay).1 (fun p hp => by
    obtain ⟨k, -, rfl⟩ := List.mem_map.mp hp
    exact h4)).2.2
  obtain ⟨D, D', d1, d2, d3⟩ := C122_stack F hu hinv l l' hs ⟨_, _, hl'⟩ hnear (fun p hp => by
      obtain ⟨k, -, rfl⟩ := hmem p hp
      change (0 : ℝ) ≤ (m.thickness : ℝ)
      exact_mod_cast h3) (fun p hp => by
      obtain ⟨k, hk, rfl⟩ := hmem p hp
      have hk2 := h1 k hk
      refine ⟨by rw [hpo]; exact_mod_cast h5, by
        have : ((1 - poisson m : ℚ) : ℝ) ≤ ((99 / 10000 : ℚ) : ℝ) := by exact_mod_cast h6
        rw [hpo]; exact this.trans (by norm_num), ?_⟩
      have hk3 : |k| ≤ 2 := by rw [Int.abs_eq_natAbs]; exact_mod_cast hk2
      have hk4 : |(k : ℝ)| ≤ 2 := by exact_mod_cast hk3
      rw [abs_mul, abs_of_pos (by norm_num : (0 : ℝ) < 45)]
      linarith) (by rw [hlen]; exact h2) S (fun p hp Q hQ => by
      obtain ⟨k, -, rfl⟩ := hmem p hp
      rw [realMat_Q0 m h4] at hQ
      obtain rfl := Except.ok.inj hQ
      have : ((|m.e1 / poisson m| + 2 * |m.v12 * m.e2 / poisson m| + |m.e2 / poisson m| + |m.g12| : ℚ) : ℝ) ≤ S := by exact_mod_cast h7
      push_cast at this
      refine le_trans (le_of_eq ?_) this
      simp [entrySum, Fin.sum_univ_three]
      ring) (by
      have : 0 ≤ S := le_trans (by positivity) h7
      exact_mod_cast this)
  rw [hD] at d1
  obtain rfl := Except.ok.inj d1
  refine ⟨D', d2, fun i j => (d3 i j).trans ?_, fun i j => ?_⟩
  · rw [hlay, height_real, List.length_map, List.length_map]
    have : ((3 / 10 ^ 11 * (exactH (ks.map fun k => (k, m)) ^ 3 / 12 * (ks.length * (4 * S))) : ℚ) : ℝ) ≤ d := Rat.cast_le.mpr h8
    push_cast at this
    exact this
  · rw [Matrix.map_apply]
    exact_mod_cast h9 i (List.mem_finRange i) j (List.mem_finRange j)

theorem documents_double {ks : List ℤ} {m : OrthoMat ℚ} {S d : ℚ} (hst : stackOk ks m S d = true) (I : IntPlate) (hIq : I.Dq = exactD (ks.map fun k => (k, m)))
    (cs : Constraints) (p : PlateNum) (hp : p = I.num) {s : ShapeIdx} (hs : computeIdx cs I.xs.length I.ys.length = .ok s) (hw : s.w = I.xs.product I.ys)
    (ha : 0 < I.a) (hb : 0 < I.b) (hmn : 7 ≤ p.m * p.n) (e : Edges) (he : chooseEdges cs = .ok e) (hh : EdgesHeld e)
    {den : ℕ} {c : Coef9} {C : Cert} (h0 : I.lowOk 0 den c C 0 = true) {kap dK mK dG mG : ℕ} {cK cG : Coef9} {eta2 delta : ℚ}
    (hr : I.roundOk den C kap dK cK mK dG cG mG eta2 delta = true) {mu M : ℝ} (hD : Between I.D mu M) {eta1 : ℝ}
    (h1 : bendErr I.num mu M < 1 ∧ stiffErr I.num mu M d ≤ eta1 ∧ 0 ≤ eta1) (h2 : 0 ≤ eta2 ∧ 0 ≤ delta) {eta : ℚ} (heta : eta1 + eta2 ≤ eta) (heta1 : eta < 1)
    {brs : List (ℚ × ℚ)} (hbr : I.Brackets 0 brs) (hends : ∀ x ∈ brs, endsOk eta delta x = true) (hfirst : ∃ x, brs[0]? = some x ∧ 1 ≤ lowEnd eta delta x)
    {printed : List ℝ} {tol : ℝ} (hpr : List.Forall₂ (fun (d : ℝ) (x : ℚ × ℚ) => d - tol ≤ (lowEnd eta delta x : ℝ) * (1 - 1 / 2 ^ 52) ∧
      (highEnd eta delta x : ℝ) * (1 + 1 / 2 ^ 52) ≤ d + tol) printed brs) :
    ∀ m' : Mat, NearMat double (Spec.realMat m) m' → ∃ l, Lam.init (.angles (ks.map fun k : ℤ => 45 * (k : ℝ))) (.single m') = .ok l ∧
      ∀ F : FloatLib, F.u ≤ double → StableInv F.u 100 F.inv → DocumentsIn F.toFloatArith (F.stiffness l.layup F.wD) cs p printed tol := by
  subst hp
  intro m' hm'
  obtain ⟨l, hl, h⟩ := stack_double hst m' hm'
  refine ⟨l, hl, fun F hu hinv => ?_⟩
  obtain ⟨D', d1, d2, d3⟩ := h F hu hinv
  have hmn' : 7 ≤ I.xs.length * I.ys.length := hmn
  have hm : 1 ≤ I.xs.length := Nat.pos_of_ne_zero fun h => by rw [h] at hmn'; omega
  have hn : 1 ≤ I.ys.length := Nat.pos_of_ne_zero fun h => by rw [h] at hmn'; omega
  have hDq : I.D = (exactD (ks.map fun k => (k, m))).map ((↑) : ℚ → ℝ) := by rw [IntPlate.D, hIq]
  obtain ⟨K', KG', k1, k2, k3, k4⟩ := I.double cs s hs hw ha hb hm hn e he hh h0 hr hD h1.1 h1.2.1 h1.2.2 h2.1 h2.2 heta heta1 hbr hends F.toFloatArith hu D'
    (by rw [hDq]; exact d2) (by rw [hDq]; exact d3)
  rw [d1]
  exact documentsIn_of F.toFloatArith hu D' cs I.num hmn hs K' KG' k1 k2 k3 k4 hfirst hpr

/-- Angles of `testBuckling`, in units of 45 degrees. -/
def testAngles : List ℤ := [1, -1, 0, 2, 1, -1, 0, 2, 1, -1, -1, 1, 2, 0, -1, 1, 2, 0, -1, 1]

/-- Angles of `studyStack`, in units of 45 degrees. -/
def studyAngles : List ℤ := [1, -1, 1, -1, 0, 0, 2, 2, 2, 2, 0, 0, -1, 1, -1, 1]

theorem test_ok : stackOk testAngles (mat 60800 58250 (7/100) 4550 (21/100)) 133000 (2/1000) = true := by decide +kernel
theorem study_ok : stackOk studyAngles (mat 137900 11700 (31/100) 4820 (1524/10000)) 163500 (4/10000) = true := by decide +kernel

theorem test_between : Between ((exactD testBuckling).map ((↑) : ℚ → ℝ)) 120000 276500 :=
  testBuckling_box.between (by norm_num) (by norm_num) (by norm_num) (by norm_num) (by norm_num) (by norm_num) (by norm_num) (by norm_num)

theorem studyStack_box : Box ((exactD studyStack).map ((↑) : ℚ → ℝ)) 51000 65500 37253 5405 38600 38700 := by
  have := box_of studyStack (d := 51000) (d' := 65500) (c := 37253) (e := 5405) (g := 38600) (g' := 38700) (by decide +kernel)
  norm_num at this
  exact this

theorem study_between : Between ((exactD studyStack).map ((↑) : ℚ → ℝ)) 8000 65500 :=
  studyStack_box.between (by norm_num) (by norm_num) (by norm_num) (by norm_num) (by norm_num) (by norm_num) (by norm_num) (by norm_num)

theorem test_err (p : PlateNum) (hm : p.m ≤ 10) (hn : p.n ≤ 10) : bendErr p 120000 276500 < 1 ∧ stiffErr p 120000 276500 ((2/1000 : ℚ) : ℝ) ≤ 51 / 10 ^ 9 ∧ (0 : ℝ) ≤ 51 / 10 ^ 9 := by
  norm_num [bendErr, stiffErr, tableAcc, hm, hn]

theorem study_err (p : PlateNum) (hm : p.m ≤ 10) (hn : p.n ≤ 10) : bendErr p 8000 65500 < 1 ∧ stiffErr p 8000 65500 ((4/10000 : ℚ) : ℝ) ≤ 151 / 10 ^ 9 ∧ (0 : ℝ) ≤ 151 / 10 ^ 9 := by
  norm_num [bendErr, stiffErr, tableAcc, hm, hn]

theorem held_pinned : EdgesHeld ⟨.flags pinnedFlags, .flags pinnedFlags, .flags pinnedFlags, .flags pinnedFlags⟩ := by
  simp [EdgesHeld, Edge.has, pinnedFlags]

theorem held_clamped : EdgesHeld ⟨.flags clampedFlags, .flags clampedFlags, .flags clampedFlags, .flags clampedFlags⟩ := by
  simp [EdgesHeld, Edge.has, clampedFlags]

/-- **C122** `panel_SSSS`, computed with doubles  [doc/notebooks/Critical_buckling_varying_BCs.ipynb:80-104] -/
theorem C122_ssss (m' : Mat) (hm' : NearMat double (Spec.realMat (mat 60800 58250 (7/100) 4550 (21/100))) m') :
    ∃ l, Lam.init (.angles [45, -45, 0, 90, 45, -45, 0, 90, 45, -45, -45, 45, 90, 0, -45, 45, 90, 0, -45, 45]) (.single m') = .ok l ∧
    ∀ F : FloatLib, F.u ≤ double → StableInv F.u 100 F.inv → DocumentsIn F.toFloatArith (F.stiffness l.layup F.wD) (.str wPINNED) ⟨360, 360, -1, 0, 0, 10, 10⟩
      [97.04915682, 144.47730786, 246.83882036, 388.19669784, 393.21258067] 5e-5 := by
  obtain ⟨l, hl, h⟩ := documents_double (printed := [97.04915682, 144.47730786, 246.83882036, 388.19669784, 393.21258067]) (tol := 5e-5) (eta := 74/10^9) test_ok ssssPlate rfl (.str wPINNED) ⟨360, 360, -1, 0, 0, 10, 10⟩ (by simp [IntPlate.num, ssssPlate]) rfl rfl
    (by decide) (by decide) (by norm_num) _ rfl held_pinned ssssZero_ok ssss_round test_between (test_err _ (by decide) (by decide)) (by norm_num) (by norm_num) (by norm_num)
    ssss_brackets (by decide +kernel) ⟨_, rfl, by norm_num [lowEnd, highEnd]⟩
    (.cons ⟨by norm_num [lowEnd, highEnd], by norm_num [highEnd]⟩ <| .cons ⟨by norm_num [lowEnd, highEnd], by norm_num [highEnd]⟩ <| .cons ⟨by norm_num [lowEnd, highEnd], by norm_num [highEnd]⟩ <| .cons ⟨by norm_num [lowEnd, highEnd], by norm_num [highEnd]⟩ <| .cons ⟨by norm_num [lowEnd, highEnd], by norm_num [highEnd]⟩ <| .nil) m' hm'
  exact ⟨l, by rw [← hl]; norm_num [testAngles], h⟩

/-- **C122** `panel_CCCC`, computed with doubles  [doc/notebooks/Critical_buckling_varying_BCs.ipynb:147-159] -/
theorem C122_cccc (m' : Mat) (hm' : NearMat double (Spec.realMat (mat 60800 58250 (7/100) 4550 (21/100))) m') :
    ∃ l, Lam.init (.angles [45, -45, 0, 90, 45, -45, 0, 90, 45, -45, -45, 45, 90, 0, -45, 45, 90, 0, -45, 45]) (.single m') = .ok l ∧
    ∀ F : FloatLib, F.u ≤ double → StableInv F.u 100 F.inv → DocumentsIn F.toFloatArith (F.stiffness l.layup F.wD) (.str wCLAMPED) ⟨360, 540, 0, -1, -1, 10, 10⟩
      [138.79310181, 146.27293322, 214.40196835, 235.95368935, 345.90300267] 2e-5 := by
  obtain ⟨l, hl, h⟩ := documents_double (printed := [138.79310181, 146.27293322, 214.40196835, 235.95368935, 345.90300267]) (tol := 2e-5) (eta := 521/10^10) test_ok ccccPlate rfl (.str wCLAMPED) ⟨360, 540, 0, -1, -1, 10, 10⟩ (by simp [IntPlate.num, ccccPlate]) rfl rfl
    (by decide) (by decide) (by norm_num) _ rfl held_clamped ccccZero_ok cccc_round test_between (test_err _ (by decide) (by decide)) (by norm_num) (by norm_num) (by norm_num)
    cccc_brackets (by decide +kernel) ⟨_, rfl, by norm_num [lowEnd, highEnd]⟩
    (.cons ⟨by norm_num [lowEnd, highEnd], by norm_num [highEnd]⟩ <| .cons ⟨by norm_num [lowEnd, highEnd], by norm_num [highEnd]⟩ <| .cons ⟨by norm_num [lowEnd, highEnd], by norm_num [highEnd]⟩ <| .cons ⟨by norm_num [lowEnd, highEnd], by norm_num [highEnd]⟩ <| .cons ⟨by norm_num [lowEnd, highEnd], by norm_num [highEnd]⟩ <| .nil) m' hm'
  exact ⟨l, by rw [← hl]; norm_num [testAngles], h⟩

/-- **C122** `panel_CCCC_nxy`, computed with doubles  [doc/notebooks/Critical_buckling_varying_BCs.ipynb:668-680] -/
theorem C122_shear (m' : Mat) (hm' : NearMat double (Spec.realMat (mat 60800 58250 (7/100) 4550 (21/100))) m') :
    ∃ l, Lam.init (.angles [45, -45, 0, 90, 45, -45, 0, 90, 45, -45, -45, 45, 90, 0, -45, 45, 90, 0, -45, 45]) (.single m') = .ok l ∧
    ∀ F : FloatLib, F.u ≤ double → StableInv F.u 100 F.inv → DocumentsIn F.toFloatArith (F.stiffness l.layup F.wD) (.str wCLAMPED) ⟨360, 360, 0, 0, -1, 10, 10⟩
      [338.84283307, 389.26571459, 776.82143839, 824.28455938, 882.94931083] 5e-5 := by
  obtain ⟨l, hl, h⟩ := documents_double (printed := [338.84283307, 389.26571459, 776.82143839, 824.28455938, 882.94931083]) (tol := 5e-5) (eta := 532/10^10) test_ok shearPlate rfl (.str wCLAMPED) ⟨360, 360, 0, 0, -1, 10, 10⟩ (by simp [IntPlate.num, shearPlate]) rfl rfl
    (by decide) (by decide) (by norm_num) _ rfl held_clamped shearZero_ok shear_round test_between (test_err _ (by decide) (by decide)) (by norm_num) (by norm_num) (by norm_num)
    shear_brackets (by decide +kernel) ⟨_, rfl, by norm_num [lowEnd, highEnd]⟩
    (.cons ⟨by norm_num [lowEnd, highEnd], by norm_num [highEnd]⟩ <| .cons ⟨by norm_num [lowEnd, highEnd], by norm_num [highEnd]⟩ <| .cons ⟨by norm_num [lowEnd, highEnd], by norm_num [highEnd]⟩ <| .cons ⟨by norm_num [lowEnd, highEnd], by norm_num [highEnd]⟩ <| .cons ⟨by norm_num [lowEnd, highEnd], by norm_num [highEnd]⟩ <| .nil) m' hm'
  exact ⟨l, by rw [← hl]; norm_num [testAngles], h⟩

/-- **C122** the pinned plate of `Critical_buckling_verification_study.ipynb`, computed with doubles  [doc/notebooks/Critical_buckling_verification_study.ipynb:57-94] -/
theorem C122_kasP (m' : Mat) (hm' : NearMat double (Spec.realMat (mat 137900 11700 (31/100) 4820 (1524/10000))) m') :
    ∃ l, Lam.init (.angles [45, -45, 45, -45, 0, 0, 90, 90, 90, 90, 0, 0, -45, 45, -45, 45]) (.single m') = .ok l ∧
    ∀ F : FloatLib, F.u ≤ double → StableInv F.u 100 F.inv → DocumentsIn F.toFloatArith (F.stiffness l.layup F.wD) (.str wPINNED) ⟨100, 100, -1, -1/2, 0, 7, 7⟩
      [225.9] 0.0501 := by
  obtain ⟨l, hl, h⟩ := documents_double (printed := [225.9]) (tol := 0.0501) (eta := 1526/10^10) study_ok kasPPlate rfl (.str wPINNED) ⟨100, 100, -1, -1/2, 0, 7, 7⟩ (by simp [IntPlate.num, kasPPlate]) rfl rfl
    (by decide) (by decide) (by norm_num) _ rfl held_pinned kasPZero_ok kasP_round study_between (study_err _ (by decide) (by decide)) (by norm_num) (by norm_num) (by norm_num)
    kasP_brackets (by decide +kernel) ⟨_, rfl, by norm_num [lowEnd, highEnd]⟩
    (.cons ⟨by norm_num [lowEnd, highEnd], by norm_num [highEnd]⟩ <| .nil) m' hm'
  exact ⟨l, by rw [← hl]; norm_num [studyAngles], h⟩

/-- **C122** the clamped plate of `Critical_buckling_verification_study.ipynb`, computed with doubles  [doc/notebooks/Critical_buckling_verification_study.ipynb:123-142] -/
theorem C122_kasC (m' : Mat) (hm' : NearMat double (Spec.realMat (mat 137900 11700 (31/100) 4820 (1524/10000))) m') :
    ∃ l, Lam.init (.angles [45, -45, 45, -45, 0, 0, 90, 90, 90, 90, 0, 0, -45, 45, -45, 45]) (.single m') = .ok l ∧
    ∀ F : FloatLib, F.u ≤ double → StableInv F.u 100 F.inv → DocumentsIn F.toFloatArith (F.stiffness l.layup F.wD) (.str wCLAMPED) ⟨100, 100, -1, -1/2, 0, 7, 7⟩
      [495.0] 0.0501 := by
  obtain ⟨l, hl, h⟩ := documents_double (printed := [495.0]) (tol := 0.0501) (eta := 1515/10^10) study_ok kasCPlate rfl (.str wCLAMPED) ⟨100, 100, -1, -1/2, 0, 7, 7⟩ (by simp [IntPlate.num, kasCPlate]) rfl rfl
    (by decide) (by decide) (by norm_num) _ rfl held_clamped kasCZero_ok kasC_round study_between (study_err _ (by decide) (by decide)) (by norm_num) (by norm_num) (by norm_num)
    kasC_brackets (by decide +kernel) ⟨_, rfl, by norm_num [lowEnd, highEnd]⟩
    (.cons ⟨by norm_num [lowEnd, highEnd], by norm_num [highEnd]⟩ <| .nil) m' hm'
  exact ⟨l, by rw [← hl]; norm_num [studyAngles], h⟩

/-- **C122** `verification_plates.ipynb`, computed with doubles  [doc/notebooks/verification_plates.ipynb:50-82] -/
theorem C122_testP (m' : Mat) (hm' : NearMat double (Spec.realMat (mat 60800 58250 (7/100) 4550 (21/100))) m') :
    ∃ l, Lam.init (.angles [45, -45, 0, 90, 45, -45, 0, 90, 45, -45, -45, 45, 90, 0, -45, 45, 90, 0, -45, 45]) (.single m') = .ok l ∧
    ∀ F : FloatLib, F.u ≤ double → StableInv F.u 100 F.inv → DocumentsIn F.toFloatArith (F.stiffness l.layup F.wD) (.dict (some (.flags pinnedFlags)) (some (.flags pinnedFlags)) (some (.flags pinnedFlags)) (some (.flags pinnedFlags))) ⟨360, 360, -1, -1, 0, 10, 10⟩
      [48.52457849227318] 5e-6 := by
  obtain ⟨l, hl, h⟩ := documents_double (printed := [48.52457849227318]) (tol := 5e-6) (eta := 74/10^9) test_ok testPPlate rfl (.dict (some (.flags pinnedFlags)) (some (.flags pinnedFlags)) (some (.flags pinnedFlags)) (some (.flags pinnedFlags))) ⟨360, 360, -1, -1, 0, 10, 10⟩ (by simp [IntPlate.num, testPPlate]) rfl rfl
    (by decide) (by decide) (by norm_num) _ rfl held_pinned testPZero_ok testP_round test_between (test_err _ (by decide) (by decide)) (by norm_num) (by norm_num) (by norm_num)
    testP_brackets (by decide +kernel) ⟨_, rfl, by norm_num [lowEnd, highEnd]⟩
    (.cons ⟨by norm_num [lowEnd, highEnd], by norm_num [highEnd]⟩ <| .nil) m' hm'
  exact ⟨l, by rw [← hl]; norm_num [testAngles], h⟩

/-- **C122** the clamped plate of `tests/test_plate_buckling.py`, computed with doubles  [tests/test_plate_buckling.py:16-55] -/
theorem C122_testC (m' : Mat) (hm' : NearMat double (Spec.realMat (mat 60800 58250 (7/100) 4550 (21/100))) m') :
    ∃ l, Lam.init (.angles [45, -45, 0, 90, 45, -45, 0, 90, 45, -45, -45, 45, 90, 0, -45, 45, 90, 0, -45, 45]) (.single m') = .ok l ∧
    ∀ F : FloatLib, F.u ≤ double → StableInv F.u 100 F.inv → DocumentsIn F.toFloatArith (F.stiffness l.layup F.wD) (.str wCLAMPED) ⟨360, 360, -1, -1, 0, 10, 10⟩
      [119.7607275] 7e-6 := by
  obtain ⟨l, hl, h⟩ := documents_double (printed := [119.7607275]) (tol := 7e-6) (eta := 532/10^10) test_ok testCPlate rfl (.str wCLAMPED) ⟨360, 360, -1, -1, 0, 10, 10⟩ (by simp [IntPlate.num, testCPlate]) rfl rfl
    (by decide) (by decide) (by norm_num) _ rfl held_clamped testCZero_ok testC_round test_between (test_err _ (by decide) (by decide)) (by norm_num) (by norm_num) (by norm_num)
    testC_brackets (by decide +kernel) ⟨_, rfl, by norm_num [lowEnd, highEnd]⟩
    (.cons ⟨by norm_num [lowEnd, highEnd], by norm_num [highEnd]⟩ <| .nil) m' hm'
  exact ⟨l, by rw [← hl]; norm_num [testAngles], h⟩

theorem Spec.StableInv.mono {ι : Type} [Fintype ι] [DecidableEq ι] {u c c' : ℝ} {inv : Matrix ι ι ℝ → Except PyErr (Matrix ι ι ℝ)} (h : StableInv u c inv) (hu : 0 ≤ u)
    (hc : c ≤ c') : StableInv u c' inv := fun A mu nu hA hmu hnu hle => by
  rcases isEmpty_or_nonempty ι with he | ⟨⟨i⟩⟩
  · exact ⟨_, (h A 0 0 hA (fun i => (he.false i).elim) (fun i => (he.false i).elim) (by simp)).choose_spec.1, fun i => (he.false i).elim⟩
  have m0 : 0 ≤ mu := (Finset.sum_nonneg fun j _ => abs_nonneg _).trans (hmu i)
  have n0 : 0 ≤ nu := (Finset.sum_nonneg fun j _ => abs_nonneg _).trans (hnu i)
  have hm : c * u * (mu * nu) ≤ c' * u * (mu * nu) := by gcongr
  obtain ⟨R, r1, r2⟩ := h A mu nu hA hmu hnu (hm.trans hle)
  exact ⟨R, r1, fun i j => (r2 i j).trans (by gcongr)⟩

/-- The material of a list of literals rounded to 53 bits. -/
noncomputable def Spec.roundedMat (m : OrthoMat ℚ) : Mat :=
  .ortho ⟨nearest 52 m.e1, nearest 52 m.e2, nearest 52 m.v12, nearest 52 m.g12, nearest 52 m.thickness, nearest 52 m.t1, nearest 52 m.c1, nearest 52 m.t2, nearest 52 m.c2, nearest 52 m.s⟩

theorem roundedMat_near (m : OrthoMat ℚ) : NearMat double (Spec.realMat m) (roundedMat m) := by
  have h : ∀ x : ℚ, RelTol double x (nearest 52 x) := fun x => by
    refine (nearest_near 52 (x : ℝ)).trans (mul_le_mul_of_nonneg_right ?_ (abs_nonneg _))
    norm_num [double]
  exact ⟨h _, h _, h _, h _, h _⟩

/-- Non-vacuity for C121 and C122: the arithmetic of 53 bits with rounding to nearest, literals included, and a solver that returns; the value is within `5·10^-6` of the printed
one. -/
example : ∃ l, Lam.init (.angles [45, -45, 0, 90, 45, -45, 0, 90, 45, -45, -45, 45, 90, 0, -45, 45, 90, 0, -45, 45])
      (.single (roundedMat (mat 60800 58250 (7/100) 4550 (21/100)))) = .ok l ∧
    let F := (stableClt 52).toFloatLib
    ∃ (S : EigSolver) (vals : List PyFloat) (vecs : List (Fin (10 * 10) → ℝ)), (F.toFloatArith.bucklingAnalysis S (F.stiffness l.layup F.wD)
      (.dict (some (.flags pinnedFlags)) (some (.flags pinnedFlags)) (some (.flags pinnedFlags)) (some (.flags pinnedFlags)))
      ⟨360, 360, -1, -1, 0, 10, 10⟩ 5 (PlateState.fresh _)).1 = .ok (vals, vecs) ∧ vals.length = 5 ∧
      ∃ x : ℝ, vals[0]? = some (.fin x) ∧ |x - 48.52457849227318| ≤ 5e-6 := by
  obtain ⟨l, hl, h⟩ := C122_testP _ (roundedMat_near _)
  have hu : (stableClt 52).u = 1 / 2 ^ 53 := by rw [stableClt_u]; norm_num
  obtain ⟨K, KG, hK, -, -, hall, S, hS, vals, vecs, hrun⟩ := h (stableClt 52).toFloatLib (by rw [hu]; norm_num [double])
    ((stableClt_inv 52).mono (by rw [hu]; norm_num) (by norm_num))
  obtain ⟨hlen, hval⟩ := hall S hS 5 _ vals vecs hrun
  have h5 : vals.length = 5 := by
    norm_num at hlen
    exact_mod_cast hlen
  obtain ⟨x, hx, hd⟩ := hval 0 _ _ (List.getElem?_eq_getElem (by omega)) rfl
  exact ⟨l, hl, S, vals, vecs, hrun, h5, x, by rw [List.getElem?_eq_getElem (by omega), hx], hd⟩

/-- Non-vacuity for C125: the plate `panel_SSSS` with the modulus 60805 in place of 60800 and every angle off by a two-hundredth of a degree; the critical multiplier of the plate as
given is at most 97.05, so that of the other plate is between nine and eleven tenths of it. -/
example : ∃ l l' : Lam, Lam.init (.angles (testAngles.map fun k : ℤ => 45 * (k : ℝ))) (.single (Spec.realMat (mat 60800 58250 (7/100) 4550 (21/100)))) = .ok l ∧
    Lam.init (.angles (testAngles.map fun k : ℤ => 45 * (k : ℝ) + 1/200)) (.single (Spec.realMat (mat 60805 58250 (7/100) 4550 (21/100)))) = .ok l' ∧
    ∃ p : PlateNum, p = ⟨360, 360, -1, 0, 0, 10, 10⟩ ∧ ∃ K KG K' : SqMat (p.m * p.n), calcKKGD shipped l.D (.str wPINNED) p = .ok (K, KG) ∧
      calcKKGD shipped l'.D (.str wPINNED) p = .ok (K', KG) ∧
      ∃ lam lam', IsKth K KG 1 lam ∧ IsKth K' KG 1 lam' ∧ lam ≤ 97.05 ∧ 0.9 * lam ≤ lam' ∧ lam' ≤ 1.1 * lam := by
  set m := mat 60800 58250 (7/100) 4550 (21/100) with hm
  have hst := test_ok
  simp only [stackOk, Bool.and_eq_true, decide_eq_true_eq, List.all_eq_true, Nat.ble_eq] at hst
  obtain ⟨⟨⟨⟨-, h3, h4, h5, h6⟩, h7⟩, -⟩, -⟩ := hst
  obtain ⟨l, hl, hs, hlay⟩ := (C101_built testAngles m []).1
  obtain ⟨l', hl', hlay'⟩ := C10_single (testAngles.map fun k : ℤ => 45 * (k : ℝ) + 1/200) (Spec.realMat (mat 60805 58250 (7/100) 4550 (21/100)))
  have hD := ((C101_stiffness l hs (testAngles.map fun k => (k, m)) hlay).1 (fun p hp => by
    obtain ⟨k, -, rfl⟩ := List.mem_map.mp hp
    exact h4)).2.2
  have hmem : ∀ p ∈ l.layup, ∃ k ∈ testAngles, p = (45 * (k : ℝ), Spec.realMat m) := fun p hp => by
    rw [hlay, List.map_map] at hp
    obtain ⟨k, hk, rfl⟩ := List.mem_map.mp hp
    exact ⟨k, hk, rfl⟩
  have hpo : poissonProduct (Spec.realMat m) = ((1 - poisson m : ℚ) : ℝ) := by
    simp only [poissonProduct, Spec.realMat, poisson]
    push_cast
    ring
  have hnear : List.Forall₂ (NearPly (1/10^4) (1/10^4)) l.layup l'.layup := by
    rw [hlay, hlay', List.map_map, List.map_map, List.forall₂_map_left_iff, List.forall₂_map_right_iff]
    refine List.forall₂_same.mpr fun k _ => ⟨?_, ?_⟩
    · simp only [realPly, Function.comp]
      rw [show (45 * (k : ℝ) + 1/200) - 45 * (k : ℝ) = 1/200 by ring, abs_of_pos (by norm_num)]
      linarith [Real.pi_lt_d2]
    · norm_num [NearMat, RelTol, realPly, Spec.realMat, hm, mat, abs_of_pos]
  have hI : ssssPlate.D = (exactD (testAngles.map fun k => (k, m))).map ((↑) : ℚ → ℝ) := rfl
  have hnum : ssssPlate.num = ⟨360, 360, -1, 0, 0, 10, 10⟩ := by simp [IntPlate.num, ssssPlate]
  have hK := ssssPlate.built (by decide +kernel) (.str wPINNED) _ rfl rfl (by decide) (by decide)
  have hh : height l.layup = 4.2 := by
    rw [hlay, height_real]
    norm_num [exactH, testAngles, hm, mat]
  obtain ⟨hde, hch⟩ := C125_small (e := 1/10^4) (al := 1/10^4) (r := 99/10000) (S := 133000) (h := height l.layup) (by norm_num) (by norm_num) (by norm_num) (by norm_num)
    (by norm_num) (by norm_num) (by rw [hh]; norm_num) 2
  have hbe : bendErr ssssPlate.num 120000 276500 < 1 := by
    rw [hnum]; norm_num [bendErr, tableAcc]
  have hstiff : stiffErr ssssPlate.num 120000 276500 (dataChange (1/10^4) (1/10^4) (99/10000) 133000 (height l.layup) 2) ≤ 1/10 := by
    have h1 : dataChange (1/10^4) (1/10^4) (99/10000) 133000 (height l.layup) 2 ≤ 3850 := by
      refine hch.trans ?_
      rw [hh]; norm_num
    have hden : 0 < 120000 * (1 - bendErr ssssPlate.num 120000 276500) := by linarith
    rw [stiffErr, div_le_iff₀ hden]
    rw [hnum]
    norm_num [bendErr, tableAcc] at h1 ⊢
    linarith
  obtain ⟨K', k1, k2, k3, k4⟩ := C125_multipliers (e := 1/10^4) (al := 1/10^4) (r := 99/10000) (S := 133000) (by norm_num) (by norm_num) (by norm_num) hde l l' hs ⟨_, _, hl'⟩ hnear
    (fun p hp => by
      obtain ⟨k, -, rfl⟩ := hmem p hp
      change (0 : ℝ) ≤ (m.thickness : ℝ)
      exact_mod_cast h3)
    (fun p hp => by
      obtain ⟨k, hk, rfl⟩ := hmem p hp
      refine ⟨by rw [hpo]; exact_mod_cast h5, ?_⟩
      have : ((1 - poisson m : ℚ) : ℝ) ≤ ((99 / 10000 : ℚ) : ℝ) := by exact_mod_cast h6
      rw [hpo]; exact this.trans (by norm_num))
    (fun p hp Q hQ => by
      obtain ⟨k, -, rfl⟩ := hmem p hp
      rw [realMat_Q0 m h4] at hQ
      obtain rfl := Except.ok.inj hQ
      have : ((|m.e1 / poisson m| + 2 * |m.v12 * m.e2 / poisson m| + |m.e2 / poisson m| + |m.g12| : ℚ) : ℝ) ≤ ((133000 : ℚ) : ℝ) := by exact_mod_cast h7
      push_cast at this
      refine le_trans (le_of_eq ?_) this
      simp [entrySum, Fin.sum_univ_three]
      ring)
    _ hD 120000 276500 (1/10) test_between (.str wPINNED) ssssPlate.num (by rw [hnum]; norm_num) (by rw [hnum]; norm_num) (by decide) (by decide) _ rfl held_pinned hbe hstiff
    (by norm_num) (by norm_num) ssssPlate.K ssssPlate.KG (by rw [hD, ← hI]; exact hK)
  have hG := (C48_symmetric _ _ ssssPlate.num (by decide) (by decide) _ _ hK).2
  obtain ⟨lam, j1, -, j2⟩ := exists_kth k2 hG le_rfl ((ssss_brackets 0 _ rfl).2 k2 hG)
  obtain ⟨lam', j3⟩ := (k4 1 le_rfl).1.mp ⟨lam, j1⟩
  obtain ⟨j4, j5⟩ := (k4 1 le_rfl).2 lam lam' j1 j3
  exact ⟨l, l', hl, hl', ssssPlate.num, hnum, ssssPlate.K, ssssPlate.KG, K', by rw [hD, ← hI]; exact hK, k1, lam, lam', j1, j3, j2.trans (by norm_num), by linarith, by linarith⟩

end Composipy
