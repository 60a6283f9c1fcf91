import Verif.Props.RoundedPlate
import Verif.Props.Accuracy

/-!
# C121: an error of the stiffness enters relative to the smallest stiffness

`C112_multipliers` compares the error of the computed `D` with the smallest energy of the plate matrix. On plates whose edges cannot deflect
the comparison with the smallest stiffness is enough, so that only the roundings of the plate matrices see the condition of the plate matrix.
-/

namespace Composipy
open Spec Matrix

/-- The entries of a stiffness that the plate matrix reads. -/
def Spec.lowerSym (D : M3) : M3 := !![D 0 0, D 1 0, D 2 0; D 1 0, D 1 1, D 2 1; D 2 0, D 2 1, D 2 2]

theorem lowerSym_symm (D : M3) : (lowerSym D).IsSymm := by
  refine Matrix.IsSymm.ext fun i j => ?_
  fin_cases i <;> fin_cases j <;> rfl

theorem k33v_sub (V : RTables) (a b : ℝ) (D D' : M3) (r c : ℕ × ℕ) :
    k33v V a b (lowerSym (D' - D)) r c = k33v V a b D' r c - k33v V a b D r c := by
  simp [k33v, lowerSym]
  ring

theorem kMat_sub (V : RTables) (a b : ℝ) (D D' : M3) (w : List (ℕ × ℕ)) (N : ℕ) :
    kMat V a b (lowerSym (D' - D)) w N = kMat V a b D' w N - kMat V a b D w N := by
  ext r c
  simp [kMat, k33v_sub]

/-- Small symmetric matrices are below a multiple of the unit matrix. -/
theorem small_dom {E : M3} (hE : E.IsSymm) {d : ℝ} (hd : ∀ i j, |E i j| ≤ d) : ((3 * d) • (1 : M3) - E).PosSemidef := by
  refine Matrix.PosSemidef.of_dotProduct_mulVec_nonneg ?_ fun x => ?_
  · rw [Matrix.IsHermitian, Matrix.conjTranspose_eq_transpose_of_trivial]
    exact (Matrix.isSymm_one.smul _).sub hE
  · have h1 := smallForm_le (N := 3) (E := E) (S := fun _ _ => 1) (e := d) (m := 3) ((abs_nonneg _).trans (hd 0 0)) (fun r c => by simpa using hd r c)
      (Matrix.IsSymm.ext fun _ _ => rfl) (fun r => by simp) x
    rw [star_trivial, Matrix.sub_mulVec, dotProduct_sub, Matrix.smul_mulVec, Matrix.one_mulVec, dotProduct_smul, smul_eq_mul]
    linarith [(abs_le.mp h1).2]

theorem bendEnergy_small {a b : ℝ} (ha : 0 < a) (hb : 0 < b) {E : M3} (hE : E.IsSymm) {d : ℝ} (hd : ∀ i j, |E i j| ≤ d) (w : List (ℕ × ℕ)) {N : ℕ} (c : Fin N → ℝ) :
    |bendEnergy E a b (ritz a b w c)| ≤ 3 * d * (curvX a b (ritz a b w c) + curvY a b (ritz a b w c) + twistXY a b (ritz a b w c)) := by
  have main : ∀ E : M3, E.IsSymm → (∀ i j, |E i j| ≤ d) →
      bendEnergy E a b (ritz a b w c) ≤ 3 * d * (curvX a b (ritz a b w c) + curvY a b (ritz a b w c) + twistXY a b (ritz a b w c)) := fun E hE hd => by
    have k0 := kMat_nonneg (small_dom hE hd) ha hb w c
    obtain ⟨eX, eY, eZ⟩ := energy_unit ha.ne' hb.ne' w c
    rw [← kMat_energy ha.ne' hb.ne' E hE w N c]
    rw [kMat_pair] at k0 ⊢
    rw [eX, eY, eZ]
    simp at k0 ⊢
    linarith
  have hneg : bendEnergy (-E) a b (ritz a b w c) = -bendEnergy E a b (ritz a b w c) := by
    rw [← kMat_energy ha.ne' hb.ne' _ hE.neg w N c, ← kMat_energy ha.ne' hb.ne' _ hE w N c, kMat_pair, kMat_pair]
    simp
    ring
  have h1 := main E hE hd
  have h2 := main (-E) hE.neg fun i j => by simpa using hd i j
  rw [hneg] at h2
  exact abs_le.mpr ⟨by linarith, h1⟩

/-- The relative error of the energy due to an error `d` of the stiffness. -/
noncomputable def Spec.stiffErr (p : PlateNum) (mu M d : ℝ) : ℝ := 3 * d * (1 + tableAcc p.m p.n) / (mu * (1 - bendErr p mu M))

/-- **C121** a stiffness with errors up to `d`: the geometric matrix does not change, and the energy changes by a fraction of the order of `3 d / mu`, where `mu`
is the smallest stiffness.  The condition of the plate matrix does not matter. -/
theorem C121_stiffness (D D' : M3) (mu M d : ℝ) (hD : Between D mu M) (hd : ∀ i j, |D' i j - D i j| ≤ d) (cs : Constraints) (p : PlateNum) (ha : 0 < p.a) (hb : 0 < p.b)
    (hm : 1 ≤ p.m) (hn : 1 ≤ p.n) (e : Edges) (he : chooseEdges cs = .ok e) (hh : EdgesHeld e) (hcond : bendErr p mu M < 1) (K KG : SqMat (p.m * p.n))
    (h : calcKKGD shipped (.ok D) cs p = .ok (K, KG)) :
    ∃ K1, calcKKGD shipped (.ok D') cs p = .ok (K1, KG) ∧ ∀ c, |c ⬝ᵥ K1.mulVec c - c ⬝ᵥ K.mulVec c| ≤ stiffErr p mu M d * (c ⬝ᵥ K.mulVec c) := by
  obtain ⟨s, hs⟩ := (C40_accepted_iff cs p.m p.n).mpr ⟨_, he⟩
  have hrel := C100_relative D mu M hD cs p ha hb hm hn e he hh K KG h s hs
  obtain ⟨M', s', hM', hs', -, -, hlt, rfl, rfl⟩ := calcKKGD_inv hm hn h
  obtain rfl := Except.ok.inj hM'
  obtain rfl := Except.ok.inj (hs.symm.trans hs')
  refine ⟨_, calcKKGD_ok shipped_ok D' cs p s hs ha.ne' hb.ne' hlt, fun c => ?_⟩
  set E := lowerSym (D' - D)
  have hE : ∀ i j, |E i j| ≤ d := fun i j => by
    have h1 : ∀ i j, |(D' - D) i j| ≤ d := fun i j => by simpa using hd i j
    fin_cases i <;> fin_cases j <;> exact h1 _ _
  have hd0 : 0 ≤ d := (abs_nonneg _).trans (hd 0 0)
  have h1 := (C100_energy E (lowerSym_symm _) cs p ha hb hm hn e he hh _ _ (calcKKGD_ok shipped_ok E cs p s hs ha.ne' hb.ne' hlt) s hs c).1
  rw [show kMat shippedV p.a p.b E s.w (p.m * p.n) = _ from kMat_sub _ _ _ _ _ _ _, Matrix.sub_mulVec, dotProduct_sub] at h1
  obtain ⟨cX, cY, cZ⟩ := curv_nonneg ha hb (ritz p.a p.b s.w c)
  have h2 := bendMix_le hE cX cY cZ
  have h3 := bendEnergy_small ha hb (lowerSym_symm (D' - D)) hE s.w c
  have h4 := energy_ge_curv ha hb hD s.w c
  have h5 := (abs_le.mp (hrel c)).1
  have hacc := tableAcc_pos p.m p.n
  set T := curvX p.a p.b (ritz p.a p.b s.w c) + curvY p.a p.b (ritz p.a p.b s.w c) + twistXY p.a p.b (ritz p.a p.b s.w c)
  set B := bendEnergy D p.a p.b (ritz p.a p.b s.w c)
  set Q := c ⬝ᵥ (kMat shippedV p.a p.b D s.w (p.m * p.n)).mulVec c
  have hmu := hD.pos
  have h6 : |c ⬝ᵥ (kMat shippedV p.a p.b D' s.w (p.m * p.n)).mulVec c - Q| ≤ 3 * d * (1 + tableAcc p.m p.n) * T := by
    have h7 := mul_le_mul_of_nonneg_left h2 hacc.le
    have h8 := abs_add_le (c ⬝ᵥ (kMat shippedV p.a p.b D' s.w (p.m * p.n)).mulVec c - Q - bendEnergy E p.a p.b (ritz p.a p.b s.w c)) (bendEnergy E p.a p.b (ritz p.a p.b s.w c))
    rw [sub_add_cancel] at h8
    linarith
  refine h6.trans ?_
  have hden : 0 < mu * (1 - bendErr p mu M) := mul_pos hmu (by linarith)
  have h9 : T * (mu * (1 - bendErr p mu M)) ≤ Q := by
    have := mul_le_mul_of_nonneg_right h4 (show 0 ≤ 1 - bendErr p mu M by linarith)
    linarith
  rw [stiffErr, div_mul_eq_mul_div, le_div_iff₀ hden]
  have := mul_le_mul_of_nonneg_left h9 (show 0 ≤ 3 * d * (1 + tableAcc p.m p.n) by positivity)
  linarith

/-- **C121** all roundings on a plate whose edges cannot deflect.  `d` bounds the error of the computed `D'`, `X` bounds its entries, and `kap`, `mK`, `mG` are as in
`C112_multipliers`.  Only the 13 roundings of an entry of the plate matrix are compared with `kap`. -/
theorem C121_multipliers (F : FloatArith) (hu : F.u < 1) (D D' X : M3) (mu M d : ℝ) (hD : Between D mu M) (hd : ∀ i j, |D' i j - D i j| ≤ d) (hX : ∀ i j, |D' i j| ≤ X i j)
    (cs : Constraints) (p : PlateNum) (ha : 0 < p.a) (hb : 0 < p.b) (hm : 1 ≤ p.m) (hn : 1 ≤ p.n) (e : Edges) (he : chooseEdges cs = .ok e) (hh : EdgesHeld e)
    (hcond : bendErr p mu M < 1) (K KG : SqMat (p.m * p.n)) (h : calcKKGD shipped (.ok D) cs p = .ok (K, KG)) (s : ShapeIdx) (hs : computeIdx cs p.m p.n = .ok s)
    (kap mK mG eta delta : ℝ) (hkap : 0 < kap) (hlow : ∀ x, kap * (x ⬝ᵥ x) ≤ x ⬝ᵥ K.mulVec x)
    (hmK : ∀ r, ∑ c, kMat (RTables.sizes shippedV) p.a p.b X s.w (p.m * p.n) r c ≤ mK)
    (hmG : ∀ r, ∑ c, gMat (RTables.sizes shippedV) p.a p.b |p.Nxx| |p.Nyy| |p.Nxy| s.w (p.m * p.n) r c ≤ mG)
    (heta : stiffErr p mu M d * kap + ((1 / (1 - F.u)) ^ 13 - 1) * mK ≤ eta * kap) (hdel : ((1 / (1 - F.u)) ^ 8 - 1) * mG ≤ delta * kap) (heta0 : 0 ≤ eta) (heta1 : eta < 1)
    (hdel0 : 0 ≤ delta) :
    ∃ K' KG' : SqMat (p.m * p.n), F.calcKKGD shipped (.ok D') cs p = .ok (K', KG') ∧ K'.PosDef ∧ KG'.IsSymm ∧ ∀ k, 1 ≤ k →
      (∀ lam, IsKth K KG k lam → delta * lam < 1 → ∃ lam', IsKth K' KG' k lam' ∧ lam' * (1 - delta * lam) ≤ (1 + eta) * lam) ∧
      ∀ lam', IsKth K' KG' k lam' → eta + delta * lam' < 1 → ∃ lam, IsKth K KG k lam ∧ lam * (1 - eta - delta * lam') ≤ lam' := by
  obtain ⟨K1, h1, hE1⟩ := C121_stiffness D D' mu M d hD hd cs p ha hb hm hn e he hh hcond K KG h
  obtain ⟨K', KG', h', sK, sG, hent⟩ := C112_matrices F hu D' D' X 1 le_rfl (fun i j => ⟨hX i j, by simp⟩) cs p ha hb hm hn K1 KG h1 s hs
  obtain ⟨tK, tG⟩ := C48_symmetric _ _ p hm hn K KG h
  have hx0 : ∀ x : Fin (p.m * p.n) → ℝ, 0 ≤ x ⬝ᵥ x := fun x => Finset.sum_nonneg fun i _ => mul_self_nonneg _
  have p13 := FloatArith.gpow_ge hu 13
  have p8 := FloatArith.gpow_ge hu 8
  rw [FloatArith.gr] at p13 p8
  have hK0 : ∀ x, 0 ≤ x ⬝ᵥ K.mulVec x := fun x => (mul_nonneg hkap.le (hx0 x)).trans (hlow x)
  have hEK : ∀ x, |x ⬝ᵥ K'.mulVec x - x ⬝ᵥ K.mulVec x| ≤ eta * (x ⬝ᵥ K.mulVec x) := fun x => by
    have h2 := smallForm_le (E := K' - K1) (S := kMat (RTables.sizes shippedV) p.a p.b X s.w (p.m * p.n)) (e := (1 / (1 - F.u)) ^ 13 - 1) (by linarith)
      (fun r c => by simpa using (hent r c).1) (sizes_symm _ _ _ _ _) hmK x
    rw [Matrix.sub_mulVec, dotProduct_sub] at h2
    have h3 : ((1 / (1 - F.u)) ^ 13 - 1) * mK * (x ⬝ᵥ x) ≤ (eta - stiffErr p mu M d) * (x ⬝ᵥ K.mulVec x) := by
      by_cases hx : x ⬝ᵥ x = 0
      · rw [hx, mul_zero]
        have hz : x = 0 := dotProduct_self_eq_zero.mp hx
        simp [hz]
      · have hxp : 0 < x ⬝ᵥ x := lt_of_le_of_ne (hx0 x) (Ne.symm hx)
        have h4 : 0 ≤ ((1 / (1 - F.u)) ^ 13 - 1) * mK := by
          have := (abs_nonneg _).trans h2
          exact nonneg_of_mul_nonneg_left this hxp
        have h5 : 0 ≤ eta - stiffErr p mu M d := by
          by_contra hno
          push Not at hno
          nlinarith
        have h6 := mul_le_mul_of_nonneg_left (hlow x) h5
        have h7 := mul_le_mul_of_nonneg_right heta hxp.le
        linarith
    have h4 := abs_add_le (x ⬝ᵥ K'.mulVec x - x ⬝ᵥ K1.mulVec x) (x ⬝ᵥ K1.mulVec x - x ⬝ᵥ K.mulVec x)
    rw [sub_add_sub_cancel] at h4
    linarith [hE1 x]
  have hEG : ∀ x, |x ⬝ᵥ KG'.mulVec x - x ⬝ᵥ KG.mulVec x| ≤ delta * (x ⬝ᵥ K.mulVec x) := fun x => by
    have h2 := smallForm_le (E := KG' - KG) (e := (1 / (1 - F.u)) ^ 8 - 1) (by linarith)
      (fun r c => by simpa using (hent r c).2) (sizesG_symm _ _ _ _ _ _ _) hmG x
    rw [Matrix.sub_mulVec, dotProduct_sub] at h2
    have h3 := mul_le_mul_of_nonneg_right hdel (hx0 x)
    have h4 := mul_le_mul_of_nonneg_left (hlow x) hdel0
    linarith
  have pd : K.PosDef := posDef_of_pos tK fun x hx => by
    refine lt_of_lt_of_le (mul_pos hkap ?_) (hlow x)
    have := Matrix.dotProduct_star_self_pos_iff.mpr hx
    simpa using this
  have pd' : K'.PosDef := posDef_of_pos sK fun x hx => by
    have h1 : 0 < x ⬝ᵥ K.mulVec x := by simpa using pd.dotProduct_mulVec_pos hx
    have := (abs_le.mp (hEK x)).1
    nlinarith
  refine ⟨K', KG', h', pd', sG, fun k hk => ⟨fun lam hl hd => ?_, fun lam' hl hd => ?_⟩⟩
  · exact perturb_up pd tG pd' sG (fun c => by linarith [(abs_le.mp (hEK c)).2]) heta0 (fun c => (abs_le.mp (hEG c)).2) hk hl hd
  · exact perturb_down pd tG pd' sG (fun c => by linarith [(abs_le.mp (hEK c)).1]) (fun c => by linarith [(abs_le.mp (hEG c)).1]) hk hl hd

end Composipy
