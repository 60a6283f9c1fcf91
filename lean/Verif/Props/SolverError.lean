import Verif.Props.RoundedOptimize

/-!
# Errors of the solver (C129)

Until here the solver is exact for the matrices it receives.  Two weaker assumptions cover its own roundings: a small residual of a returned pair, and
backward stability, that is, the output belongs to a pencil near the given one.
-/

namespace Composipy
open Spec Matrix

/-! ## Specification -/

/-- Sum of the sizes of the entries. -/
def Spec.entrySize {N : ℕ} (A : SqMat N) : ℝ := ∑ r, ∑ c, |A r c|

/-- Backward stability with error `d`: the output is, up to the fraction `d` of the values, an output for symmetric matrices whose entries differ from the given
ones by at most the fraction `d` of the size of the matrix. -/
def Spec.StableAt (d : ℝ) (S : EigSolver) {N : ℕ} (A M : SqMat N) : Prop :=
  ∀ k out, S N A M k = .ok out → ∃ (A' M' : SqMat N) (out' : List (ℝ × (Fin N → ℝ))), A'.IsSymm ∧ M'.IsSymm ∧
    (∀ r c, |A' r c - A r c| ≤ d * entrySize A) ∧ (∀ r c, |M' r c - M r c| ≤ d * entrySize M) ∧ EigshFull A' M' k out' ∧ CayleySorted out' ∧
    List.Forall₂ (fun q q' => |q.1 - q'.1| ≤ d * |q'.1|) out out'

/-- An exact solver is backward stable with any error. -/
theorem FullSolver.stable {S : EigSolver} (hS : FullSolver S) {d : ℝ} (hd : 0 ≤ d) {N : ℕ} {A M : SqMat N} (hA : A.IsSymm) (hM : M.PosDef) : StableAt d S A M := by
  intro k out h
  obtain ⟨e1, e2⟩ := (hS N A M hA hM).1 k out h
  have s0 : ∀ B : SqMat N, 0 ≤ d * entrySize B := fun B => mul_nonneg hd (Finset.sum_nonneg fun _ _ => Finset.sum_nonneg fun _ _ => abs_nonneg _)
  refine ⟨A, M, out, hA, hM.isHermitian, fun r c => by simpa using s0 A, fun r c => by simpa using s0 M, e1, e2, ?_⟩
  exact List.forall₂_same.mpr fun q _ => by simpa using mul_nonneg hd (abs_nonneg _)

theorem entrySize_nonneg {N : ℕ} (A : SqMat N) : 0 ≤ entrySize A := Finset.sum_nonneg fun _ _ => Finset.sum_nonneg fun _ _ => abs_nonneg _

theorem Spec.StableAt.mono {d d' : ℝ} (h : d ≤ d') {S : EigSolver} {N : ℕ} {A M : SqMat N} (hS : StableAt d S A M) : StableAt d' S A M := by
  intro k out ho
  obtain ⟨A', M', out', e1, e2, e3, e4, e5, e6, e7⟩ := hS k out ho
  exact ⟨A', M', out', e1, e2, fun r c => (e3 r c).trans (mul_le_mul_of_nonneg_right h (entrySize_nonneg _)),
    fun r c => (e4 r c).trans (mul_le_mul_of_nonneg_right h (entrySize_nonneg _)), e5, e6,
    e7.imp fun _ _ hq => hq.trans (mul_le_mul_of_nonneg_right h (abs_nonneg _))⟩

/-! ## Small residuals -/

/-- **C129** a posteriori: whatever pair the solver returns, if its residual is small then the value computed from it is near a load at which the discretised
plate buckles.  `kap` bounds the bending energy from below. -/
theorem C129_residual {N : ℕ} (K KG : SqMat N) (hK : K.PosDef) (hG : KG.IsSymm) (kap : ℝ) (hkap : 0 < kap) (hlow : ∀ x, kap * (x ⬝ᵥ x) ≤ x ⬝ᵥ K.mulVec x)
    (w : ℝ) (v : Fin N → ℝ) (hv : v ≠ 0) (rho : ℝ) (hrho : 0 ≤ rho)
    (hres : (KG.mulVec v - w • K.mulVec v) ⬝ᵥ (KG.mulVec v - w • K.mulVec v) ≤ (rho * kap) ^ 2 * (v ⬝ᵥ v)) :
    (∃ mu u, u ≠ 0 ∧ KG.mulVec u = mu • K.mulVec u ∧ |mu - w| ≤ rho) ∧
    (rho < |w| → ∃ lam u, Buckles K KG lam u ∧ |lam - -1 / w| * (|w| - rho) ≤ rho * |-1 / w|) := by
  classical
  obtain ⟨P, z, hP, hz⟩ := exists_diag hK hG
  set y := (Pᵀ * K).mulVec v with hy
  have hyv : P.mulVec y = v := diag_coord hP v
  set r := KG.mulVec v - w • K.mulVec v with hr
  -- coordinates of the residual
  have hPr : Pᵀ.mulVec r = fun j => (z j - w) * y j := by
    rw [hr, mulVec_sub, mulVec_smul, ← hyv]
    simp only [mulVec_mulVec, ← Matrix.mul_assoc]
    rw [hz, hP, one_mulVec]
    ext j
    simp only [Pi.sub_apply, Pi.smul_apply, smul_eq_mul, mulVec_diagonal]
    ring
  set q := P.mulVec (Pᵀ.mulVec r) with hq
  have hqK : K.mulVec q = r := by
    have h1 : K * P * Pᵀ = 1 := mul_eq_one_comm.mp (by rw [← Matrix.mul_assoc]; exact hP)
    rw [hq, mulVec_mulVec, mulVec_mulVec, h1, one_mulVec]
  have hrq : r ⬝ᵥ q = ∑ j, ((z j - w) * y j) ^ 2 := by
    rw [hq, dotProduct_mulVec, ← mulVec_transpose, hPr, dotProduct]
    exact Finset.sum_congr rfl fun j _ => by ring
  have hqr : q ⬝ᵥ K.mulVec q = r ⬝ᵥ q := by rw [hqK, dotProduct_comm]
  have h1 := hlow q
  rw [hqr] at h1
  have hcs : (r ⬝ᵥ q) ^ 2 ≤ (r ⬝ᵥ r) * (q ⬝ᵥ q) := by
    have := Finset.sum_mul_sq_le_sq_mul_sq Finset.univ r q
    simpa [dotProduct, sq] using this
  have hrr : 0 ≤ r ⬝ᵥ r := Finset.sum_nonneg fun i _ => mul_self_nonneg _
  have hqq : 0 ≤ q ⬝ᵥ q := Finset.sum_nonneg fun i _ => mul_self_nonneg _
  have hrq0 : 0 ≤ r ⬝ᵥ q := by rw [hrq]; exact Finset.sum_nonneg fun j _ => sq_nonneg _
  have hb : kap * (r ⬝ᵥ q) ≤ r ⬝ᵥ r := by
    rcases hrq0.eq_or_lt with h0 | h0
    · rw [← h0, mul_zero]; exact hrr
    · have : kap * (r ⬝ᵥ q) ^ 2 ≤ (r ⬝ᵥ r) * (r ⬝ᵥ q) :=
        (mul_le_mul_of_nonneg_left hcs hkap.le).trans (by nlinarith)
      nlinarith
  have hvK : v ⬝ᵥ K.mulVec v = ∑ j, y j ^ 2 := by
    rw [← hyv, diag_dot hP, dotProduct]
    exact Finset.sum_congr rfl fun j _ => by ring
  have hvv := hlow v
  rw [hvK] at hvv
  have hsum : ∑ j, ((z j - w) * y j) ^ 2 ≤ rho ^ 2 * ∑ j, y j ^ 2 := by
    rw [← hrq]
    have e1 : kap * (r ⬝ᵥ q) ≤ kap * (rho ^ 2 * ∑ j, y j ^ 2) := by
      have e2 := mul_le_mul_of_nonneg_left hvv (show 0 ≤ rho ^ 2 * kap by positivity)
      nlinarith
    exact le_of_mul_le_mul_left e1 hkap
  have hy0 : ∃ j, y j ≠ 0 := by
    by_contra hno
    push Not at hno
    exact hv (by rw [← hyv, show y = 0 from funext hno, mulVec_zero])
  obtain ⟨j, hj, hjw⟩ : ∃ j, y j ≠ 0 ∧ |z j - w| ≤ rho := by
    by_contra hno
    push Not at hno
    obtain ⟨j0, hj0⟩ := hy0
    have : rho ^ 2 * ∑ j, y j ^ 2 < ∑ j, ((z j - w) * y j) ^ 2 := by
      rw [Finset.mul_sum]
      refine Finset.sum_lt_sum (fun j _ => ?_) ⟨j0, Finset.mem_univ _, ?_⟩
      · by_cases hj : y j = 0
        · simp [hj]
        · have := hno j hj
          rw [mul_pow, ← sq_abs (z j - w)]
          exact mul_le_mul_of_nonneg_right (pow_le_pow_left₀ hrho this.le 2) (sq_nonneg _)
      · have := hno j0 hj0
        rw [mul_pow, ← sq_abs (z j0 - w)]
        exact mul_lt_mul_of_pos_right (pow_lt_pow_left₀ this hrho two_ne_zero) (by positivity)
    linarith
  have hu0 : P.mulVec (Pi.single j 1) ≠ 0 := fun h => by
    have h2 := diag_dot hP (Pi.single j 1) (Pi.single j (1 : ℝ))
    rw [h, mulVec_zero, dotProduct_zero] at h2
    simp at h2
  have hpair : KG.mulVec (P.mulVec (Pi.single j 1)) = z j • K.mulVec (P.mulVec (Pi.single j 1)) := (diag_pair hP hz _ _).mpr fun i => by
    by_cases hi : i = j
    · subst hi; rfl
    · simp [hi]
  refine ⟨⟨z j, _, hu0, hpair, hjw⟩, fun hw => ?_⟩
  have hw0 : w ≠ 0 := fun h => by rw [h, abs_zero] at hw; linarith
  have hzw : |w| - rho ≤ |z j| := by
    have := abs_sub_abs_le_abs_sub w (z j)
    rw [abs_sub_comm] at this
    linarith
  have hz0 : z j ≠ 0 := fun h => by rw [h, abs_zero] at hzw; linarith
  refine ⟨-1 / z j, _, (buckles_pencil (div_ne_zero (by norm_num) hz0)).mpr ⟨hu0, ?_⟩, ?_⟩
  · rw [hpair]; congr 1; field_simp
  · have e : -1 / z j - -1 / w = (z j - w) * (1 / z j) * (1 / w) := by field_simp; ring
    rw [e, abs_mul, abs_mul, abs_div, abs_div, abs_div, abs_one, abs_neg, abs_one]
    have e1 : 1 / |z j| * (|w| - rho) ≤ 1 := by
      rw [div_mul_eq_mul_div, one_mul, div_le_one (abs_pos.mpr hz0)]
      exact hzw
    have e2 : 0 ≤ 1 / |w| := by positivity
    calc |z j - w| * (1 / |z j|) * (1 / |w|) * (|w| - rho) = |z j - w| * (1 / |z j| * (|w| - rho)) * (1 / |w|) := by ring
      _ ≤ rho * 1 * (1 / |w|) := by
        refine mul_le_mul_of_nonneg_right (mul_le_mul hjw e1 ?_ hrho) e2
        exact mul_nonneg (by positivity) (by linarith)
      _ = rho * (1 / |w|) := by ring

/-! ## Backward stability -/

/-- The last division of a slightly wrong eigenvalue. -/
theorem recip_near (F : FloatArith) {d : ℝ} (hd : d ≤ 1 / 2) {w w' lam : ℝ} (hl : 0 < lam) (hw' : w' = -1 / lam) (hw : |w - w'| ≤ d * |w'|) :
    ∃ e, F.recip w = .fin e ∧ |e - lam| ≤ (2 * d + 2 * F.u) * lam := by
  have hu0 := F.u_nonneg
  have hw1 : |w'| = 1 / lam := by rw [hw', abs_div, abs_neg, abs_one, abs_of_pos hl]
  rw [hw1] at hw
  obtain ⟨a1, a2⟩ := abs_le.mp hw
  have hL : 0 < 1 / lam := by positivity
  have hd0 : 0 ≤ d := by
    have := (abs_nonneg _).trans hw
    by_contra h
    nlinarith
  have hneg : w ≤ -(1 / 2 * (1 / lam)) := by
    rw [hw', neg_div] at a2
    nlinarith
  have hw0 : w < 0 := by linarith
  set c := -1 / w with hc
  have hc0 : 0 < c := div_pos_of_neg_of_neg (by norm_num) hw0
  have hcw : c * w = -1 := by rw [hc, div_mul_cancel₀ _ hw0.ne]
  have hc2 : c ≤ 2 * lam := by
    rw [hc, div_le_iff_of_neg hw0]
    have := mul_le_mul_of_nonneg_left hneg (show 0 ≤ 2 * lam by linarith)
    have e : 2 * lam * -(1 / 2 * (1 / lam)) = -1 := by field_simp
    rw [e] at this
    exact this
  have hcl : |c - lam| ≤ d * c := by
    have e : c - lam = c * lam * (w - w') := by
      rw [hw']
      have : c * lam * (w - -1 / lam) = lam * (c * w) + c := by field_simp; ring
      rw [this, hcw]; ring
    rw [e, abs_mul, abs_mul, abs_of_pos hc0, abs_of_pos hl]
    calc c * lam * |w - w'| ≤ c * lam * (d * (1 / lam)) := mul_le_mul_of_nonneg_left hw (by positivity)
      _ = d * c := by field_simp
  have hr : F.recip w = .fin (F.fl c) := by rw [FloatArith.recip, npDiv, if_neg hw0.ne]
  refine ⟨F.fl c, hr, ?_⟩
  have n1 := F.near c
  rw [abs_of_pos hc0] at n1
  have n2 := abs_sub_le (F.fl c) c lam
  nlinarith

/-- Values computed by a backward stable solver from slightly wrong matrices. -/
theorem stable_values {N : ℕ} {K G : SqMat N} (hpd : K.PosDef) (hG : G.IsSymm) (SK SG : SqMat N) (hSK : SK.IsSymm) (hSG : SG.IsSymm)
    (h1 : ∀ mu, PosMult K G mu → 1 < mu) {eps : ℝ} (heps : 0 < eps) :
    ∃ t : ℝ, 0 < t ∧ ∀ d, 0 ≤ d → d ≤ t → ∀ F : FloatArith, F.u ≤ t → ∀ K' G' : SqMat N, (∀ r c, |K' r c - K r c| ≤ d * SK r c) →
      (∀ r c, |G' r c - G r c| ≤ d * SG r c) → ∀ S, StableAt d S G' K' → ∀ k out, S N G' K' k = .ok out → out.length = k ∧
      ∀ i lam, i < k → IsKth K G (i + 1) lam → ∃ e, (out.map fun q => F.recip q.1)[i]? = some (.fin e) ∧ |e - lam| ≤ eps * lam := by
  -- room below the first multiplier
  obtain ⟨e1, he1, hroom⟩ : ∃ e1 : ℝ, 0 < e1 ∧ ∀ lam, IsKth K G 1 lam → 1 ≤ lam - e1 * lam := by
    by_cases hex : ∃ lam, IsKth K G 1 lam
    · obtain ⟨lam, hl⟩ := hex
      obtain ⟨l, hle, hpl, hcnt⟩ := numModes_jump hpd hG hl.1
      have hll : l = lam := le_antisymm hle (hl.2 (show 1 ≤ numModes K G l by rw [hcnt]; exact hl.1))
      subst hll
      have h2 := h1 l hpl
      have h3 : 1 / l < 1 := by rw [div_lt_one (by linarith)]; exact h2
      refine ⟨1 - 1 / l, by linarith, fun m hm => ?_⟩
      obtain rfl := hm.unique hl
      rw [sub_mul, div_mul_cancel₀ _ (by linarith)]
      linarith
    · exact ⟨1, one_pos, fun lam hl => absurd ⟨lam, hl⟩ hex⟩
  set e0 := min (eps / 4) (min e1 1)
  have he0 : 0 < e0 := lt_min (by positivity) (lt_min he1 one_pos)
  have q1 : e0 ≤ eps / 4 := min_le_left _ _
  have q2 : e0 ≤ e1 := (min_le_right _ _).trans (min_le_left _ _)
  have q3 : e0 ≤ 1 := (min_le_right _ _).trans (min_le_right _ _)
  set BK := entrySize K + entrySize SK
  set BG := entrySize G + entrySize SG
  obtain ⟨t, ht, hall⟩ := pencil_precision hpd hG (SK + Matrix.of fun _ _ => BK) (SG + Matrix.of fun _ _ => BG)
    (hSK.add (Matrix.IsSymm.ext fun _ _ => rfl)) (hSG.add (Matrix.IsSymm.ext fun _ _ => rfl)) he0
  refine ⟨min t (min (eps / 16) (1 / 2)), by positivity, fun d hd0 hd F hF K' G' hK' hG' S hS k out hout => ?_⟩
  have d1 : d ≤ t := hd.trans (min_le_left _ _)
  have d2 : d ≤ eps / 16 := hd.trans ((min_le_right _ _).trans (min_le_left _ _))
  have d3 : d ≤ 1 / 2 := hd.trans ((min_le_right _ _).trans (min_le_right _ _))
  have u2 : F.u ≤ eps / 16 := hF.trans ((min_le_right _ _).trans (min_le_left _ _))
  obtain ⟨A', M', out', sA, sM, hA, hM, hf, hso, hfa⟩ := hS k out hout
  have size : ∀ B B' SB : SqMat N, (∀ r c, |B' r c - B r c| ≤ d * SB r c) → entrySize B' ≤ entrySize B + entrySize SB := fun B B' SB h => by
    unfold entrySize
    rw [← Finset.sum_add_distrib]
    refine Finset.sum_le_sum fun r _ => ?_
    rw [← Finset.sum_add_distrib]
    refine Finset.sum_le_sum fun c _ => ?_
    have a1 := abs_sub_abs_le_abs_sub (B' r c) (B r c)
    have a2 := h r c
    have a3 : d * SB r c ≤ |SB r c| := by
      have := le_abs_self (SB r c)
      have := abs_nonneg (SB r c)
      nlinarith
    linarith
  have close : ∀ B B' B'' SB : SqMat N, (∀ r c, |B' r c - B r c| ≤ d * SB r c) → (∀ r c, |B'' r c - B' r c| ≤ d * entrySize B') → ∀ r c,
      |B'' r c - B r c| ≤ d * (SB + Matrix.of fun _ _ => entrySize B + entrySize SB : SqMat N) r c := fun B B' B'' SB h h' r c => by
    have a1 := abs_sub_le (B'' r c) (B' r c) (B r c)
    have a2 := mul_le_mul_of_nonneg_left (size B B' SB h) hd0
    have a3 := h r c
    have a4 := h' r c
    simp only [Matrix.add_apply, Matrix.of_apply]
    linarith
  obtain ⟨pd', hk⟩ := hall d hd0 d1 M' A' sM sA (close K K' M' SK hK' hM) (close G G' A' SG hG' hA)
  have hlen : out.length = k := by rw [hfa.length_eq, hf.len]
  refine ⟨hlen, fun i lam hi hl => ?_⟩
  obtain ⟨l1, hl1⟩ : ∃ l1, IsKth K G 1 l1 := by
    obtain ⟨l1, hl1, -⟩ := exists_kth hpd hG le_rfl ((Nat.le_add_left 1 i).trans hl.1)
    exact ⟨l1, hl1⟩
  obtain ⟨m1, hm1, hm1'⟩ := hk 1 l1 le_rfl hl1
  have hl10 : 0 < l1 := by
    obtain ⟨l, hle, hpl, -⟩ := numModes_jump hpd hG hl1.1
    exact hpl.1.trans_le hle
  have hone : ∀ mu, PosMult M' A' mu → 1 ≤ mu := fun mu hmu => by
    refine le_trans ?_ (first_le_mult hm1 hmu)
    have := (abs_le.mp hm1').1
    have := hroom l1 hl1
    have := mul_le_mul_of_nonneg_right q2 hl10.le
    linarith
  obtain ⟨lam', i1, i2⟩ := hk (i + 1) lam (by omega) hl
  have hi' : i < out'.length := by rw [hf.len]; exact hi
  have hio : i < out.length := by rw [hlen]; exact hi
  obtain ⟨lam2, f1, f2, f3⟩ := full_ordered pd' sA hf hso hone i hi' i1.1
  obtain rfl := f1.unique i1
  have hpair := (List.forall₂_iff_get.mp hfa).2 i hio hi'
  obtain ⟨e, g1, g2⟩ := recip_near F d3 f2.1 f3 hpair
  refine ⟨e, ?_, ?_⟩
  · rw [List.getElem?_map, List.getElem?_eq_getElem hio, Option.map_some]
    exact congrArg some g1
  · have hlam : 0 < lam := by
      obtain ⟨l, hle, hpl, -⟩ := numModes_jump hpd hG ((Nat.le_add_left 1 i).trans hl.1)
      exact hpl.1.trans_le hle
    have n1 := abs_sub_le e lam2 lam
    have n2 : lam2 ≤ 2 * lam := by
      have := (abs_le.mp i2).2
      nlinarith
    have n3 : (2 * d + 2 * F.u) * lam2 ≤ eps / 4 * (2 * lam) := mul_le_mul (by linarith) n2 f2.1.le (by positivity)
    have n4 : e0 * lam ≤ eps / 4 * lam := mul_le_mul_of_nonneg_right q1 hlam.le
    have n5 : 0 < eps * lam := by positivity
    linarith

/-- **C129** plates: for every accuracy asked for there is a precision such that all the values reported by `buckling_analysis` have it, if the matrices are
computed with that precision, from a `D` of that accuracy, and the solver is backward stable with that error. -/
theorem C129_plate (D X : M3) (cs : Constraints) (p : PlateNum) (ha : 0 < p.a) (hb : 0 < p.b) (hm : 1 ≤ p.m) (hn : 1 ≤ p.n)
    (K KG : SqMat (p.m * p.n)) (h : calcKKGD shipped (.ok D) cs p = .ok (K, KG)) (hpd : K.PosDef) (h1 : ∀ mu, PosMult K KG mu → 1 < mu)
    (eps : ℝ) (heps : 0 < eps) :
    ∃ t : ℝ, 0 < t ∧ ∀ F : FloatArith, F.u ≤ t → ∀ D' : M3, (∀ i j, Within (1 + t) (D' i j) (D i j) (X i j)) →
      ∃ K' KG' : SqMat (p.m * p.n), F.calcKKGD shipped (.ok D') cs p = .ok (K', KG') ∧ ∀ S, StableAt t S KG' K' → ∀ numEig st vals vecs,
        (F.bucklingAnalysis S (.ok D') cs p numEig st).1 = .ok (vals, vecs) → (vals.length : ℤ) = min numEig ((p.m * p.n : ℕ) - 2) ∧
        ∀ i < vals.length, ∀ lam, IsKth K KG (i + 1) lam → ∃ e, vals[i]? = some (.fin e) ∧ |e - lam| ≤ eps * lam := by
  obtain ⟨M, s, hM, hs, -, -, hlt, -, -⟩ := calcKKGD_inv hm hn h
  have hG := (C48_symmetric _ _ p hm hn K KG h).2
  obtain ⟨t, ht, hall⟩ := stable_values hpd hG (kMat (RTables.sizes shippedV) p.a p.b X s.w (p.m * p.n))
    (gMat (RTables.sizes shippedV) p.a p.b |p.Nxx| |p.Nyy| |p.Nxy| s.w (p.m * p.n)) (sizes_symm _ _ _ _ _) (sizesG_symm _ _ _ _ _ _ _) h1 heps
  refine ⟨min (1 / 26) (t / 28), lt_min (by norm_num) (by positivity), fun F hF D' hD => ?_⟩
  set t' := min (1 / 26) (t / 28)
  have ht'0 : 0 < t' := lt_min (by norm_num) (by positivity)
  have ht'1 : t' ≤ 1 / 26 := min_le_left _ _
  have ht'2 : 28 * t' ≤ t := by
    have : t' ≤ t / 28 := min_le_right _ _
    linarith
  have hu : F.u < 1 := by linarith
  obtain ⟨K', KG', e1, e2, e3, e4⟩ := C112_matrices F hu D' D X (1 + t') (by linarith) hD cs p ha hb hm hn K KG h s hs
  obtain ⟨q1, q2⟩ := growth_small ht'0.le ht'1 hF F.u_nonneg (le_refl (1 + t'))
  have hK0 : ∀ r c, |K' r c - K r c| ≤ 28 * t' * kMat (RTables.sizes shippedV) p.a p.b X s.w (p.m * p.n) r c := fun r c =>
    (e4 r c).1.trans (mul_le_mul_of_nonneg_right q1 ((abs_nonneg _).trans (C112_bending F hu shippedV p.a p.b ha hb D' D X (1 + t') (by linarith) hD _ _).1))
  have hG0 : ∀ r c, |KG' r c - KG r c| ≤ 28 * t' * gMat (RTables.sizes shippedV) p.a p.b |p.Nxx| |p.Nyy| |p.Nxy| s.w (p.m * p.n) r c := fun r c =>
    (e4 r c).2.trans (mul_le_mul_of_nonneg_right q2 ((abs_nonneg _).trans (C112_geometric F hu shippedV p.a p.b ha hb p.Nxx p.Nyy p.Nxy _ _).1))
  refine ⟨K', KG', e1, fun S hS numEig st vals vecs hrun => ?_⟩
  obtain ⟨K₁, KG₁, out, hK₁, hk, hout, rfl⟩ := bucklingIn_inv hrun
  rw [e1] at hK₁
  obtain ⟨rfl, rfl⟩ := Prod.mk.inj (Except.ok.inj hK₁)
  obtain ⟨g1, g2⟩ := hall (28 * t') (by positivity) ht'2 F (by linarith) K' KG' hK0 hG0 S (hS.mono (by linarith)) _ _ hout
  refine ⟨by rw [List.length_map, g1, Int.toNat_of_nonneg hk.le], fun i hi lam hl => g2 i lam ?_ hl⟩
  rwa [List.length_map, g1] at hi

/-- **C129** stacks: the same through the whole chain from the plies to the reported values. -/
theorem C129_stack (l : Lam) (hs : IsStack l) (ht : NonnegThick l.layup) (hp : ∀ p ∈ l.layup, 0 ≤ poissonProduct p.2 ∧ poissonProduct p.2 < 1)
    (cs : Constraints) (p : PlateNum) (ha : 0 < p.a) (hb : 0 < p.b) (hm : 1 ≤ p.m) (hn : 1 ≤ p.n)
    (K KG : SqMat (p.m * p.n)) (h : calcKKGD shipped l.D cs p = .ok (K, KG)) (hpd : K.PosDef) (h1 : ∀ mu, PosMult K KG mu → 1 < mu)
    {c : ℝ} (hc : 0 ≤ c) {eps : ℝ} (heps : 0 < eps) :
    ∃ t, 0 < t ∧ ∀ F : FloatLib, F.u ≤ t → StableInv F.u c F.inv →
      ∃ K' KG' : SqMat (p.m * p.n), F.calcKKGD shipped (F.stiffness l.layup F.wD) cs p = .ok (K', KG') ∧ ∀ S, StableAt t S KG' K' → ∀ numEig st vals vecs,
        (F.bucklingAnalysis S (F.stiffness l.layup F.wD) cs p numEig st).1 = .ok (vals, vecs) → (vals.length : ℤ) = min numEig ((p.m * p.n : ℕ) - 2) ∧
        ∀ i < vals.length, ∀ lam, IsKth K KG (i + 1) lam → ∃ e, vals[i]? = some (.fin e) ∧ |e - lam| ≤ eps * lam := by
  obtain ⟨r, a, S, hr0, hr1, ha0, hS0, hbd⟩ := exists_bounds l.layup fun p h => (hp p h).2
  obtain ⟨D, hD⟩ : ∃ D, l.D = .ok D := by
    cases hd : l.D with
    | ok D => exact ⟨D, rfl⟩
    | error e => rw [hd] at h; simp [calcKKGD] at h
  rw [hD] at h
  obtain ⟨b, hb0, hbD⟩ := exists_rows D
  set C := height l.layup ^ 3 / 12 * (l.layup.length * (4 * S))
  have hC0 : 0 ≤ C := by
    have := height_nonneg ht
    positivity
  obtain ⟨t, ht0, hT⟩ := C129_plate D (fun _ _ => b + C) cs p ha hb hm hn K KG h hpd h1 eps heps
  have cst := continuousAt_stack c r a
  have t0 : Tiny fun u => u ≤ t := ⟨t, ht0, fun u _ h => h⟩
  have t1 : Tiny fun u => denErr u r ≤ 1 / 2 := Tiny.le (continuousAt_den r) (by rw [denErr_zero]; norm_num)
  have t2 : Tiny fun u => 36 * (rotGrowth a u - 1) ≤ 1 / 2 :=
    Tiny.le (by have := continuousAt_rot a; fun_prop) (by rw [rotGrowth_zero]; norm_num)
  have t3 : Tiny fun u => c * u * 144 ≤ 1 := Tiny.le (by fun_prop) (by norm_num)
  have t4 : Tiny fun u => stackGrowth c r a u * (1 + u) ^ (7 * l.layup.length + 8) - 1 ≤ t :=
    Tiny.le (by fun_prop) (by simpa [stackGrowth_zero] using ht0)
  obtain ⟨t', ht'0, h'⟩ := t0.and (t1.and (t2.and (t3.and t4)))
  refine ⟨min t t', lt_min ht0 ht'0, fun F hF hi3 => ?_⟩
  obtain ⟨s0, s1, s2, s3, s4⟩ := h' F.u F.u_nonneg (hF.trans (min_le_right _ _))
  have hI := rotInvGrowth_ge ha0 F.u_nonneg hc
  have he : denErr F.u r < 1 := by linarith
  have hok : ∀ p ∈ l.layup, PlyOk F r a (rotInvGrowth c a F.u) p := fun p h =>
    plyOk_of_stable F hc hi3 p (hp p h).1 (hbd p h).1 (hbd p h).2.1 s2 s3
  obtain ⟨A, A', B, B', D₁, D', -, -, d1, -, -, d2, hE⟩ := C111_stack F r a _ S hr0 hr1 he ha0 hI l hs ht hok (fun p h => (hbd p h).2.2)
  rw [hD] at d1
  obtain rfl : D = D₁ := by cases d1; rfl
  rw [d2]
  obtain ⟨K', KG', k1, k2⟩ := hT F.toFloatArith s0 D' fun i j => by
    refine ⟨?_, ?_⟩
    · have := (Finset.single_le_sum (f := fun j => |D i j|) (fun _ _ => abs_nonneg _) (Finset.mem_univ j)).trans (hbD i)
      linarith
    · refine (hE i j).2.2.trans ?_
      calc _ ≤ t * C := mul_le_mul_of_nonneg_right s4 hC0
        _ ≤ (1 + t - 1) * (b + C) := by nlinarith
  exact ⟨K', KG', k1, fun S hS => k2 S (hS.mono (min_le_left _ _))⟩

/-- **C129** the optimisers: with enough precision and a solver of that stability the objective of `maximize_buckling_load`, where it returns, is near minus the
critical multiplier of the normalised loads, or 1 where the solver did not converge. -/
theorem C129_maximize (g : Panel) (hg : PanelOk g) (ha : 0 < g.a) (hb : 0 < g.b) (hr : g.v12 ^ 2 * g.E2 < g.E1) (T Nxx Nyy Nxy : ℝ)
    (x y s M : ℝ) (hN : normalizeCriticalLoad Nxx Nyy Nxy = .ok (x, y, s, M)) (xi1 xi3 : ℝ) (b1 : |xi1| ≤ 1) (b3 : |xi3| ≤ 1) (K KG : SqMat (g.m * g.n))
    (h : calcKKGD shipped (panelD g T xi1 xi3) g.c (panelPlate g x y s) = .ok (K, KG)) (hpd : K.PosDef) (lam : ℝ) (hl : IsKth K KG 1 lam) (h1 : 1 < lam)
    (eps : ℝ) (heps : 0 < eps) :
    ∃ t : ℝ, 0 < t ∧ ∀ F : FloatArith, F.u ≤ t → ∀ S : EigSolver, (∀ (N : ℕ) (A M : SqMat N), A.IsSymm → M.PosDef → StableAt t S A M) →
      ∀ pen prob v, F.maximizeBucklingLoad S g T Nxx Nyy Nxy pen = .ok prob → prob.obj [xi1, xi3] = .ok v →
        v = .fin 1 ∨ ∃ e, v = .fin e ∧ |e - (-lam)| ≤ eps * lam := by
  obtain ⟨hm, hn⟩ := hg.2.2.2.2.2.2
  obtain ⟨D, hD⟩ : ∃ D, panelD g T xi1 xi3 = .ok D := by
    cases hd : panelD g T xi1 xi3 with
    | ok D => exact ⟨D, rfl⟩
    | error e => rw [hd] at h; simp [calcKKGD] at h
  obtain ⟨X, hX⟩ := panelD_near g hg hr T xi1 xi3 b1 b3 hD
  rw [hD] at h
  have hG := (C48_symmetric _ _ (panelPlate g x y s) hm hn _ _ h).2
  obtain ⟨t0, ht0, hall0⟩ := C128_panel D X g ha hb hm hn x y s K KG h hpd 1 one_pos
  obtain ⟨M', sh, hM', hs, -, -, hlt, rfl, rfl⟩ := calcKKGD_inv (p := panelPlate g x y s) hm hn h
  obtain rfl := Except.ok.inj hM'
  obtain ⟨t, ht, hall⟩ := stable_values hpd hG (kMat (RTables.sizes shippedV) g.a g.b X sh.w (g.m * g.n))
    (gMat (RTables.sizes shippedV) g.a g.b |x| |y| |s| sh.w (g.m * g.n)) (sizes_symm _ _ _ _ _) (sizesG_symm _ _ _ _ _ _ _)
    (fun mu hmu => h1.trans_le (first_le_mult hl hmu)) heps
  set t' := min t0 (min (1 / 26) (t / 28))
  have ht'0 : 0 < t' := by positivity
  have ht'1 : t' ≤ 1 / 26 := (min_le_right _ _).trans (min_le_left _ _)
  have ht'2 : 28 * t' ≤ t := by
    have : t' ≤ t / 28 := (min_le_right _ _).trans (min_le_right _ _)
    linarith
  have ht'3 : t' ≤ t0 := min_le_left _ _
  obtain ⟨t2, ht2, hall2⟩ := hX t' ht'0
  refine ⟨min t' t2, lt_min ht'0 ht2, fun F hF S hS pen prob v hp hv => ?_⟩
  have hF' : F.u ≤ t' := hF.trans (min_le_left _ _)
  have hu : F.u < 1 := by linarith
  obtain ⟨D', hD', hw⟩ := hall2 F (hF.trans (min_le_right _ _))
  obtain ⟨x', y', s', hN', hx, hy, hs'⟩ := (C128_normalised F Nxx Nyy Nxy).2 x y s M hN
  have e1 := FloatArith.calcKKGD_ok (F := F) shipped_ok hu D' g.c (panelPlate g x' y' s') sh hs ha.ne' hb.ne' hlt
  obtain ⟨K', KG', k1, pd', sG, -⟩ := hall0 F (by linarith) D' x' y' s' (fun i j => (hw i j).mono (by linarith) (by linarith) le_rfl) hx hy hs'
  rw [e1] at k1
  obtain ⟨rfl, rfl⟩ := Prod.mk.inj (Except.ok.inj k1)
  obtain ⟨q1, -⟩ := growth_small ht'0.le ht'1 hF' F.u_nonneg (le_refl (1 + t'))
  have q2 := growth_loads ht'0.le ht'1 hF' F.u_nonneg
  have hK0 : ∀ r c, |F.k33v shippedV g.a g.b D' r c - k33v shippedV g.a g.b D r c| ≤ 28 * t' * k33v (RTables.sizes shippedV) g.a g.b X r c := fun r c => by
    obtain ⟨w1, w2⟩ := C112_bending F hu shippedV g.a g.b ha hb D' D X (1 + t') (by linarith) hw r c
    exact w2.trans (mul_le_mul_of_nonneg_right q1 ((abs_nonneg _).trans w1))
  have hG0 : ∀ r c, |F.g33v shippedV g.a g.b x' y' s' r c - g33v shippedV g.a g.b x y s r c| ≤
      28 * t' * g33v (RTables.sizes shippedV) g.a g.b |x| |y| |s| r c := fun r c =>
    (loads_near F hu g.a g.b ha hb hx hy hs' r c).trans
      (mul_le_mul_of_nonneg_right q2 ((abs_nonneg _).trans (C112_geometric F hu shippedV g.a g.b ha hb x y s r c).1))
  simp only [FloatArith.maximizeBucklingLoad, hN', ok_bind, pure_eq_ok, Except.ok.injEq] at hp
  subst hp
  simp only [FloatArith.maxCriticalLoad] at hv
  cases hr' : F.ncrFromLp S g T xi1 xi3 x' y' s' with
  | error e =>
    rw [hr'] at hv
    cases e <;> simp [guardedNcr, negF] at hv
    left; rw [← hv]
  | ok v' =>
    rw [hr'] at hv
    simp only [guardedNcr, ok_bind, pure_eq_ok, Except.ok.injEq] at hv
    right
    rw [ncrIn_eq F hu.le S g hg, hD'] at hr'
    rcases hb' : (F.bucklingAnalysis S (.ok D') g.c (panelPlate g x' y' s') 5 (.fresh _)).1 with e | ⟨vals, vecs⟩
    · rw [hb'] at hr'; cases hr'
    rw [hb', ok_bind] at hr'
    obtain ⟨K₁, KG₁, out, hK₁, hk, hout, rfl⟩ := bucklingIn_inv hb'
    rw [e1] at hK₁
    obtain ⟨rfl, rfl⟩ := Prod.mk.inj (Except.ok.inj hK₁)
    obtain ⟨g1, g2⟩ := hall (28 * t') (by positivity) ht'2 F (by linarith) _ _ (fun r c => hK0 _ _) (fun r c => hG0 _ _) S
      ((hS _ _ _ sG pd').mono ((min_le_left _ _).trans (by linarith))) _ _ hout
    obtain ⟨e, i1, i2⟩ := g2 0 lam (by omega) hl
    have key : ∀ L : List PyFloat, L[0]? = some (.fin e) → pyIdx L 0 = .ok v' → v' = .fin e := fun L a b => by
      simp only [pyIdx, a] at b
      exact (Except.ok.inj b).symm
    obtain rfl := key _ i1 hr'
    refine ⟨-1 * e, hv.symm, ?_⟩
    rw [show -1 * e - -lam = -(e - lam) by ring, abs_neg]
    exact i2

/-! ## Concrete cases -/

/-- Non-vacuity for C129: a wrong pair of a diagonal pencil, with residual 1/10. -/
example : ∃ lam u, Buckles (1 : SqMat 2) (diagonal ![-1, -2]) lam u ∧ |lam - -1 / (-11 / 10)| * (|(-11 / 10 : ℝ)| - 1 / 10) ≤ 1 / 10 * |(-1 / (-11 / 10) : ℝ)| := by
  refine (C129_residual (1 : SqMat 2) (diagonal ![-1, -2]) PosDef.one ?_ 1 one_pos (fun x => by simp) (-11 / 10) ![1, 0] ?_ (1 / 10) (by norm_num) ?_).2 ?_
  · exact isSymm_diagonal _
  · intro h
    have := congrFun h 0
    simp at this
  · simp [dotProduct, Fin.sum_univ_two, mulVec_diagonal]
    norm_num
  · norm_num [abs_of_pos]

/-- A solver that is stable but not exact: every value of an exact solver is too large by the fraction `d`. -/
noncomputable def Spec.offBy (d : ℝ) (S : EigSolver) : EigSolver := fun N A M k => (S N A M k).map fun out => out.map fun q => ((1 + d) * q.1, q.2)

theorem offBy_stable {S : EigSolver} (hS : FullSolver S) {d : ℝ} (hd : 0 ≤ d) {N : ℕ} {A M : SqMat N} (hA : A.IsSymm) (hM : M.PosDef) :
    StableAt d (offBy d S) A M := by
  intro k out h
  cases ho : S N A M k with
  | error e => simp [offBy, ho, Except.map] at h
  | ok out' =>
    simp only [offBy, ho, Except.map, Except.ok.injEq] at h
    subst h
    obtain ⟨e1, e2⟩ := (hS N A M hA hM).1 k out' ho
    have s0 : ∀ B : SqMat N, 0 ≤ d * entrySize B := fun B => mul_nonneg hd (entrySize_nonneg B)
    refine ⟨A, M, out', hA, hM.isHermitian, fun r c => by simpa using s0 A, fun r c => by simpa using s0 M, e1, e2, ?_⟩
    rw [List.forall₂_map_left_iff]
    refine List.forall₂_same.mpr fun q _ => ?_
    rw [show (1 + d) * q.1 - q.1 = d * q.1 by ring, abs_mul, abs_of_nonneg hd]

/-- Non-vacuity for C129: with enough bits, rounding to nearest and an inexact solver report a first value of the clamped demonstration plate that is right to six
digits, and they do report one. -/
example : ∃ (p0 : ℕ) (S : EigSolver) (d : ℝ), FullSolver S ∧ 0 < d ∧ ∀ p ≥ p0, ∃ vals vecs,
    ((nearestArith p).bucklingAnalysis (offBy d S) (.ok (demoD 2 1)) (.str wCLAMPED) (demoPlate 1) 5 (.fresh _)).1 = .ok (vals, vecs) ∧
    ∃ e, vals[0]? = some (.fin e) ∧ |e - 216| ≤ 1 / 10 ^ 6 * 216 := by
  obtain ⟨K, KG, hK, hpd, hsym, hm, -⟩ := demo_matrices 2 1 1 (by norm_num) one_pos one_pos
  have h1 : ∀ mu, PosMult K KG mu → 216 ≤ mu := fun mu h => by
    obtain ⟨r, rfl⟩ := (hm mu).mp h
    fin_cases r <;> norm_num [demoLoads]
  have hl : IsKth K KG 1 216 := (kth_one hpd hsym _).mpr ⟨(hm _).mpr ⟨0, by norm_num [demoLoads]⟩, fun lam h => h1 lam h⟩
  obtain ⟨S, hS⟩ := exists_full
  obtain ⟨t, ht, hall⟩ := C129_plate (demoD 2 1) (Matrix.of fun i j => |demoD 2 1 i j|) (.str wCLAMPED) (demoPlate 1) (by norm_num [demoPlate])
    (by norm_num [demoPlate]) (by norm_num [demoPlate]) (by norm_num [demoPlate]) K KG hK hpd (fun mu h => by linarith [h1 mu h]) (1 / 10 ^ 6) (by norm_num)
  obtain ⟨t2, ht2, hall2⟩ := C112_precision (demoD 2 1) (Matrix.of fun i j => |demoD 2 1 i j|) (.str wCLAMPED) (demoPlate 1) (by norm_num [demoPlate])
    (by norm_num [demoPlate]) (by norm_num [demoPlate]) (by norm_num [demoPlate]) K KG hK hpd 1 one_pos
  obtain ⟨p1, hp1⟩ := enough_bits ht
  obtain ⟨p2, hp2⟩ := enough_bits ht2
  refine ⟨max p1 p2, S, t, hS, ht, fun p hp => ?_⟩
  have ex : ∀ t : ℝ, 0 < t → ∀ i j, Within (1 + t) (demoD 2 1 i j) (demoD 2 1 i j) ((Matrix.of fun i j => |demoD 2 1 i j| : M3) i j) :=
    fun t ht i j => (Within.exact _).mono le_rfl (by linarith) le_rfl
  obtain ⟨K', KG', k1, k2⟩ := hall (nearestArith p) (hp1 p ((le_max_left _ _).trans hp)) (demoD 2 1) (ex t ht)
  obtain ⟨K₁, KG₁, j1, j2, -, j3, -⟩ := hall2 (nearestArith p) (hp2 p ((le_max_right _ _).trans hp)) (demoD 2 1) (ex t2 ht2)
  rw [k1] at j1
  obtain ⟨rfl, rfl⟩ := Prod.mk.inj (Except.ok.inj j1)
  have hst := offBy_stable hS ht.le j3 j2
  obtain ⟨out, hout⟩ := (hS _ KG' K' j3 j2).2 2 (by norm_num [demoPlate])
  obtain ⟨sx, hs, -⟩ := clamped_idx 2 2
  have hs' : computeIdx (.str wCLAMPED) (demoPlate 1).m (demoPlate 1).n = .ok sx := hs
  have hcall : eigshCall (offBy t S) KG' K' (min (5 : ℤ) (((demoPlate 1).m * (demoPlate 1).n : ℕ) - 2 : ℤ)) = .ok (out.map fun q => ((1 + t) * q.1, q.2)) := by
    unfold eigshCall
    rw [show min (5 : ℤ) (((demoPlate 1).m * (demoPlate 1).n : ℕ) - 2 : ℤ) = 2 by norm_num [demoPlate], if_neg (by norm_num), show (2 : ℤ).toNat = 2 from rfl]
    simp only [offBy, hout, Except.map]
  obtain ⟨vals, vecs, hrun⟩ : ∃ vals vecs,
      ((nearestArith p).bucklingAnalysis (offBy t S) (.ok (demoD 2 1)) (.str wCLAMPED) (demoPlate 1) 5 (.fresh _)).1 = .ok (vals, vecs) := by
    unfold FloatArith.bucklingAnalysis
    simp only [hs', k1]
    rw [hcall]
    exact ⟨_, _, rfl⟩
  obtain ⟨g1, g2⟩ := k2 _ hst 5 (.fresh _) vals vecs hrun
  refine ⟨vals, vecs, hrun, g2 0 ?_ 216 hl⟩
  have : (vals.length : ℤ) = 2 := by rw [g1]; norm_num [demoPlate]
  omega

end Composipy
