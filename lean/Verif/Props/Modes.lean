import Verif.Props.RitzLimit

/-!
# C108: all multipliers, counted with multiplicity
-/

namespace Composipy
open Spec Matrix Polynomial MeasureTheory Verif Module

/-! ## Specification -/

/-- The span of the buckling shapes with positive multiplier at most `c`. -/
def Spec.modes {N : ℕ} (K KG : SqMat N) (c : ℝ) : Submodule ℝ (Fin N → ℝ) :=
  Submodule.span ℝ {v | ∃ lam, 0 < lam ∧ lam ≤ c ∧ Buckles K KG lam v}

/-- The number of positive multipliers at most `c`, counted with multiplicity. -/
noncomputable def Spec.numModes {N : ℕ} (K KG : SqMat N) (c : ℝ) : ℕ := finrank ℝ (modes K KG c)

/-! ## Counting by energies -/

/-- Simultaneous diagonalisation. -/
theorem exists_diag {N : ℕ} {K KG : SqMat N} (hK : K.PosDef) (hG : KG.IsSymm) :
    ∃ (P : SqMat N) (w : Fin N → ℝ), Pᵀ * K * P = 1 ∧ Pᵀ * KG * P = diagonal w := by
  obtain ⟨P, hP⟩ := exists_whiten hK
  have hB : (Pᵀ * KG * P).IsHermitian := by
    rw [IsHermitian, conjTranspose_eq_transpose_of_trivial, transpose_mul, transpose_mul, transpose_transpose, hG.eq,
      Matrix.mul_assoc]
  let U : SqMat N := hB.eigenvectorUnitary
  have hUU : Uᵀ * U = 1 := by
    have := Unitary.coe_star_mul_self hB.eigenvectorUnitary
    exact this
  have hU : Uᵀ * (Pᵀ * KG * P) * U = diagonal hB.eigenvalues := by
    have h := hB.conjStarAlgAut_star_eigenvectorUnitary
    rw [Unitary.conjStarAlgAut_star_apply] at h
    exact h
  refine ⟨P * U, hB.eigenvalues, ?_, ?_⟩
  · rw [transpose_mul, show Uᵀ * Pᵀ * K * (P * U) = Uᵀ * (Pᵀ * K * P) * U by simp only [Matrix.mul_assoc], hP, Matrix.mul_one, hUU]
  · rw [← hU, transpose_mul]
    simp only [Matrix.mul_assoc]

section Diag
variable {N : ℕ} {K KG P : SqMat N} {w : Fin N → ℝ}

theorem diag_coord (hP : Pᵀ * K * P = 1) (v : Fin N → ℝ) : P.mulVec ((Pᵀ * K).mulVec v) = v := by
  rw [mulVec_mulVec, mul_eq_one_comm.mp hP, one_mulVec]

theorem diag_form (hP : Pᵀ * K * P = 1) (hG : Pᵀ * KG * P = diagonal w) (c : ℝ) (y : Fin N → ℝ) :
    P.mulVec y ⬝ᵥ K.mulVec (P.mulVec y) + c * (P.mulVec y ⬝ᵥ KG.mulVec (P.mulVec y)) = ∑ j, (1 + c * w j) * y j ^ 2 := by
  have q : ∀ A : SqMat N, P.mulVec y ⬝ᵥ A.mulVec (P.mulVec y) = y ⬝ᵥ (Pᵀ * A * P).mulVec y := fun A => by
    rw [← mulVec_mulVec, ← mulVec_mulVec, dotProduct_mulVec y, vecMul_transpose]
  rw [q, q, hP, hG, one_mulVec]
  simp only [dotProduct, mulVec_diagonal, Finset.mul_sum, ← Finset.sum_add_distrib]
  exact Finset.sum_congr rfl fun j _ => by ring

theorem diag_mode (hP : Pᵀ * K * P = 1) (hG : Pᵀ * KG * P = diagonal w) {lam : ℝ} (hl : lam ≠ 0) (y : Fin N → ℝ) :
    Buckles K KG lam (P.mulVec y) ↔ y ≠ 0 ∧ ∀ j, w j * y j = -1 / lam * y j := by
  rw [buckles_pencil hl]
  have hinj : ∀ u v : Fin N → ℝ, Pᵀ.mulVec u = Pᵀ.mulVec v → u = v := fun u v h => by
    have h1 : (K * P) * Pᵀ = 1 := mul_eq_one_comm.mp (by rw [← Matrix.mul_assoc]; exact hP)
    have := congrArg (K * P).mulVec h
    rwa [mulVec_mulVec, mulVec_mulVec, h1, one_mulVec, one_mulVec] at this
  refine and_congr (not_congr ⟨fun h => ?_, fun h => by rw [h, mulVec_zero]⟩) ?_
  · have := congrArg (Pᵀ * K).mulVec h
    rwa [mulVec_mulVec, hP, one_mulVec, mulVec_zero] at this
  · have e : KG.mulVec (P.mulVec y) = (-1 / lam) • K.mulVec (P.mulVec y) ↔ Pᵀ.mulVec (KG.mulVec (P.mulVec y)) = Pᵀ.mulVec ((-1 / lam) • K.mulVec (P.mulVec y)) :=
      ⟨fun h => by rw [h], fun h => hinj _ _ h⟩
    rw [e, mulVec_smul, mulVec_mulVec, mulVec_mulVec, mulVec_mulVec, mulVec_mulVec, hP, hG, one_mulVec]
    rw [funext_iff]
    simp [mulVec_diagonal]

end Diag

/-- The modes up to `c` have no component with a larger multiplier. -/
theorem modes_coord {N : ℕ} {K KG P : SqMat N} {w : Fin N → ℝ} (hP : Pᵀ * K * P = 1) (hw : Pᵀ * KG * P = diagonal w) {c : ℝ} {v : Fin N → ℝ}
    (hv : v ∈ modes K KG c) (j : Fin N) (hj : 0 < 1 + c * w j) : (Pᵀ * K).mulVec v j = 0 := by
  induction hv using Submodule.span_induction with
  | mem u hu =>
    obtain ⟨lam, h0, hle, hb⟩ := hu
    rw [← diag_coord hP u, diag_mode hP hw h0.ne'] at hb
    have := hb.2 j
    by_contra hne
    have hwj := mul_right_cancel₀ hne this
    rw [hwj] at hj
    have : c * (-1 / lam) ≤ -1 := by
      rw [mul_div_assoc', div_le_iff₀ h0]
      linarith
    linarith
  | zero => simp
  | add u u' _ _ h h' => rw [mulVec_add, Pi.add_apply, h, h', add_zero]
  | smul r u _ h => rw [mulVec_smul, Pi.smul_apply, h, smul_zero]

/-- On the span of the modes up to `c` the energy at load factor `c` is not positive. -/
theorem modes_energy {N : ℕ} {K KG : SqMat N} (hK : K.PosDef) (hG : KG.IsSymm) (c : ℝ) {v : Fin N → ℝ} (hv : v ∈ modes K KG c) :
    v ⬝ᵥ K.mulVec v + c * (v ⬝ᵥ KG.mulVec v) ≤ 0 := by
  obtain ⟨P, w, hP, hw⟩ := exists_diag hK hG
  rw [← diag_coord hP v, diag_form hP hw]
  refine Finset.sum_nonpos fun j _ => ?_
  rcases lt_or_ge 0 (1 + c * w j) with h | h
  · rw [modes_coord hP hw hv j h]; simp
  · exact mul_nonpos_of_nonpos_of_nonneg h (sq_nonneg _)

/-- Every space of that kind has at most as many dimensions as there are multipliers up to `c`. -/
theorem numModes_ge {N : ℕ} {K KG : SqMat N} (hK : K.PosDef) (hG : KG.IsSymm) {c : ℝ} (hc : 0 < c) (V : Submodule ℝ (Fin N → ℝ))
    (hV : ∀ v ∈ V, v ⬝ᵥ K.mulVec v + c * (v ⬝ᵥ KG.mulVec v) ≤ 0) : finrank ℝ V ≤ numModes K KG c := by
  classical
  obtain ⟨P, w, hP, hw⟩ := exists_diag hK hG
  let J := {j : Fin N // 1 + c * w j ≤ 0}
  let f : V →ₗ[ℝ] (J → ℝ) := (LinearMap.funLeft ℝ ℝ (fun j : J => j.1)).comp ((mulVecLin (Pᵀ * K)).comp V.subtype)
  have hf : Function.Injective f := by
    rw [← LinearMap.ker_eq_bot, LinearMap.ker_eq_bot']
    rintro ⟨v, hv⟩ h0
    have hJ : ∀ j, 1 + c * w j ≤ 0 → (Pᵀ * K).mulVec v j = 0 := fun j hj => congrFun h0 ⟨j, hj⟩
    have hq := hV v hv
    rw [← diag_coord hP v, diag_form hP hw] at hq
    have hterm : ∀ j ∈ Finset.univ, 0 ≤ (1 + c * w j) * (Pᵀ * K).mulVec v j ^ 2 := fun j _ => by
      rcases lt_or_ge 0 (1 + c * w j) with h | h
      · positivity
      · rw [hJ j h]; simp
    have hz := (Finset.sum_eq_zero_iff_of_nonneg hterm).mp (le_antisymm hq (Finset.sum_nonneg hterm))
    have : (Pᵀ * K).mulVec v = 0 := funext fun j => by
      rcases lt_or_ge 0 (1 + c * w j) with h | h
      · have := hz j (Finset.mem_univ j)
        simpa [h.ne'] using this
      · exact hJ j h
    ext1
    show v = 0
    rw [← diag_coord hP v, this, mulVec_zero]
  have h1 := LinearMap.finrank_le_finrank_of_injective hf
  rw [finrank_fintype_fun_eq_card] at h1
  refine h1.trans ?_
  let x : J → Fin N → ℝ := fun j => P.mulVec (Pi.single j.1 1)
  have hmem : ∀ j, x j ∈ modes K KG c := fun j => by
    have hneg : w j.1 < 0 := by
      by_contra h
      have := mul_nonneg hc.le (not_lt.mp h)
      have := j.2
      linarith
    refine Submodule.subset_span ⟨-1 / w j.1, div_pos_of_neg_of_neg (by norm_num) hneg, ?_, ?_⟩
    · rw [div_le_iff_of_neg hneg]
      linarith [j.2]
    · rw [diag_mode hP hw (div_ne_zero (by norm_num) hneg.ne)]
      refine ⟨fun h => by simpa using congrFun h j.1, fun i => ?_⟩
      by_cases hij : i = j.1
      · subst hij
        have := hneg.ne
        field_simp
      · simp [Pi.single_eq_of_ne hij]
  have hli : LinearIndependent ℝ x := by
    have hPinj : Function.Injective (mulVecLin P) := fun u v h => by
      have := congrArg (Pᵀ * K).mulVec (show P.mulVec u = P.mulVec v from h)
      rwa [mulVec_mulVec, mulVec_mulVec, hP, one_mulVec, one_mulVec] at this
    have h0 : LinearIndependent ℝ (fun j : J => (Pi.single j.1 1 : Fin N → ℝ)) :=
      (Pi.linearIndependent_single_one (Fin N) ℝ).comp (fun j : J => j.1) Subtype.val_injective
    exact h0.map' (mulVecLin P) (LinearMap.ker_eq_bot.mpr hPinj)
  have h2 := finrank_span_eq_card hli
  rw [← h2]
  exact Submodule.finrank_mono (Submodule.span_le.mpr (by rintro _ ⟨j, rfl⟩; exact hmem j))

theorem numModes_mono {N : ℕ} {K KG K' KG' : SqMat N} (hK : K.PosDef) (hG : KG.IsSymm) (hK' : K'.PosDef) (hG' : KG'.IsSymm) {c : ℝ} (hc : 0 < c)
    (h : ∀ v, v ⬝ᵥ K'.mulVec v + c * (v ⬝ᵥ KG'.mulVec v) ≤ v ⬝ᵥ K.mulVec v + c * (v ⬝ᵥ KG.mulVec v)) : numModes K KG c ≤ numModes K' KG' c :=
  numModes_ge hK' hG' hc _ fun v hv => (h v).trans (modes_energy hK hG c hv)

theorem numModes_le_of_le {N : ℕ} {K KG : SqMat N} {c c' : ℝ} (h : c ≤ c') : numModes K KG c ≤ numModes K KG c' :=
  Submodule.finrank_mono (Submodule.span_mono fun _ ⟨lam, h0, hle, hb⟩ => ⟨lam, h0, hle.trans h, hb⟩)

/-! ## The k-th multiplier -/

theorem posMult_finite {N : ℕ} {K KG : SqMat N} (hK : K.PosDef) (hG : KG.IsSymm) : {lam | PosMult K KG lam}.Finite := by
  obtain ⟨w, x, -, hall⟩ := exists_eigenpairs hG hK
  refine (Set.finite_range fun j => -1 / w j).subset ?_
  rintro lam ⟨hl, v, hv⟩
  obtain ⟨hv0, hp⟩ := (buckles_pencil hl.ne').mp hv
  obtain ⟨j, hj⟩ := hall _ v hv0 hp
  exact ⟨j, by simp only [hj]; field_simp⟩

/-- The count jumps at multipliers only. -/
theorem numModes_jump {N : ℕ} {K KG : SqMat N} (hK : K.PosDef) (hG : KG.IsSymm) {c : ℝ} (h : 1 ≤ numModes K KG c) :
    ∃ lam ≤ c, PosMult K KG lam ∧ numModes K KG lam = numModes K KG c := by
  have hfin : {lam | PosMult K KG lam ∧ lam ≤ c}.Finite := (posMult_finite hK hG).subset fun _ hl => hl.1
  have hne : {lam | PosMult K KG lam ∧ lam ≤ c}.Nonempty := by
    by_contra hno
    have : modes K KG c = ⊥ := by
      rw [modes, Submodule.span_eq_bot]
      rintro v ⟨lam, h0, hle, hb⟩
      exact absurd ⟨lam, ⟨h0, v, hb⟩, hle⟩ hno
    rw [numModes, this, finrank_bot] at h
    omega
  obtain ⟨l, ⟨h1, h2⟩, hmax⟩ := Set.exists_max_image _ id hfin hne
  refine ⟨l, h2, h1, le_antisymm (numModes_le_of_le h2) (Submodule.finrank_mono (Submodule.span_mono ?_))⟩
  rintro v ⟨lam, h0, hle, hb⟩
  exact ⟨lam, h0, hmax lam ⟨⟨h0, v, hb⟩, hle⟩, hb⟩

/-- The `k`-th multiplier: the least load factor up to which there are `k` modes. -/
def Spec.IsKth {N : ℕ} (K KG : SqMat N) (k : ℕ) (lam : ℝ) : Prop := IsLeast {c | k ≤ numModes K KG c} lam

theorem exists_kth {N : ℕ} {K KG : SqMat N} (hK : K.PosDef) (hG : KG.IsSymm) {k : ℕ} (hk : 1 ≤ k) {c : ℝ} (h : k ≤ numModes K KG c) :
    ∃ lam, IsKth K KG k lam ∧ PosMult K KG lam ∧ lam ≤ c := by
  have hfin : {lam | PosMult K KG lam ∧ k ≤ numModes K KG lam}.Finite := (posMult_finite hK hG).subset fun _ hl => hl.1
  obtain ⟨l, hle, hl, he⟩ := numModes_jump hK hG (hk.trans h)
  obtain ⟨l0, ⟨h1, h2⟩, hmin⟩ := Set.exists_min_image _ id hfin ⟨l, hl, by rw [he]; exact h⟩
  refine ⟨l0, ⟨h2, fun c' hc' => ?_⟩, h1, (hmin l ⟨hl, by rw [he]; exact h⟩).trans hle⟩
  obtain ⟨l', hle', hl', he'⟩ := numModes_jump hK hG (hk.trans hc')
  exact (hmin l' ⟨hl', by rw [he']; exact hc'⟩).trans hle'

/-- The first multiplier is the smallest one. -/
theorem kth_one {N : ℕ} {K KG : SqMat N} (hK : K.PosDef) (hG : KG.IsSymm) (lam : ℝ) :
    IsKth K KG 1 lam ↔ PosMult K KG lam ∧ ∀ nu, PosMult K KG nu → lam ≤ nu := by
  have one : ∀ nu, PosMult K KG nu → 1 ≤ numModes K KG nu := fun nu ⟨h0, v, hv⟩ => by
    rw [numModes, Nat.one_le_iff_ne_zero, Ne, Submodule.finrank_eq_zero]
    intro hb
    have : v ∈ modes K KG nu := Submodule.subset_span ⟨nu, h0, le_rfl, hv⟩
    rw [hb, Submodule.mem_bot] at this
    exact hv.1 this
  constructor
  · rintro ⟨h1, h2⟩
    obtain ⟨l, hle, hl, -⟩ := numModes_jump hK hG h1
    have := h2 (one l hl)
    obtain rfl := le_antisymm hle this
    exact ⟨hl, fun nu hnu => h2 (one nu hnu)⟩
  · rintro ⟨h1, h2⟩
    refine ⟨one lam h1, fun c hc => ?_⟩
    obtain ⟨l, hle, hl, -⟩ := numModes_jump hK hG hc
    exact (h2 l hl).trans hle

/-! ## More terms, stiffer plates, milder loads -/

/-- **C108** more terms never lower the number of multipliers up to `c`, so they never raise the `k`-th multiplier. -/
theorem C108_terms (D : M3) (c : Constraints) (p : PlateNum) (m' n' : ℕ) (hm : 1 ≤ p.m) (hn : 1 ≤ p.n)
    (hm' : p.m ≤ m') (hn' : p.n ≤ n') (K KG : SqMat (p.m * p.n)) (h : calcKKGD shipped (.ok D) c p = .ok (K, KG))
    (K' KG' : SqMat (m' * n')) (h' : calcKKGD shipped (.ok D) c { p with m := m', n := n' } = .ok (K', KG'))
    (hpd : K.PosDef) (hpd' : K'.PosDef) :
    (∀ l > 0, numModes K KG l ≤ numModes K' KG' l) ∧ ∀ k lam, 1 ≤ k → IsKth K KG k lam → ∃ mu ≤ lam, IsKth K' KG' k mu := by
  have hsym0 := (C48_symmetric _ _ p hm hn K KG h).2
  have hsym := (C48_symmetric _ _ { p with m := m', n := n' } (by dsimp only; omega) (by dsimp only; omega) K' KG' h').2
  have count : ∀ l > 0, numModes K KG l ≤ numModes K' KG' l := fun l hl => by
    have hneg := fun v => modes_energy hpd hsym0 l (v := v)
    obtain ⟨M, i, hM, hi, ha, hb, hr, rfl, rfl⟩ := calcKKGD_inv hm hn h
    obtain ⟨M', i', hM', hi', -, -, -, rfl, rfl⟩ := calcKKGD_inv (p := { p with m := m', n := n' }) (by dsimp only; omega)
      (by dsimp only; omega) h'
    cases hM; cases hM'
    dsimp only at hi'
    have g1 := (C40_sizes c _ _ i hi).2.2
    have g2 := (C40_sizes c _ _ i' hi').2.2
    obtain ⟨e, he, hev⟩ := exists_embed g1.len g2.len g1.nodup (w_subset hm' hn' hi hi')
    let f : (Fin (p.m * p.n) → ℝ) →ₗ[ℝ] (Fin (m' * n') → ℝ) :=
      { toFun := extendBy e
        map_add' := fun u v => funext fun j => by simp only [extendBy, Pi.add_apply, ← Finset.sum_add_distrib]; exact Finset.sum_congr rfl fun r _ => by split <;> simp
        map_smul' := fun t v => funext fun j => by simp [extendBy, Finset.mul_sum] }
    have hf : Function.Injective f := fun u v huv => funext fun r => by
      rw [← extendBy_apply he u r, ← extendBy_apply he v r]
      exact congrFun huv (e r)
    rw [numModes, (Submodule.equivMapOfInjective f hf _).finrank_eq]
    refine numModes_ge hpd' hsym hl _ ?_
    rintro _ ⟨v, hv, rfl⟩
    show extendBy e v ⬝ᵥ (kMat shippedV p.a p.b D i'.w (m' * n')).mulVec (extendBy e v) +
      l * (extendBy e v ⬝ᵥ (gMat shippedV p.a p.b p.Nxx p.Nyy p.Nxy i'.w (m' * n')).mulVec (extendBy e v)) ≤ 0
    rw [extendBy_quad (M := kMat shippedV p.a p.b D i.w _), extendBy_quad (M := gMat shippedV p.a p.b p.Nxx p.Nyy p.Nxy i.w _)]
    · exact hneg v hv
    · intro r c
      show g33v _ _ _ _ _ _ (i'.w.getD (e r) (0, 0)) (i'.w.getD (e c) (0, 0)) = g33v _ _ _ _ _ _ _ _
      rw [hev, hev]
    · intro r c
      show k33v _ _ _ _ (i'.w.getD (e r) (0, 0)) (i'.w.getD (e c) (0, 0)) = k33v _ _ _ _ _ _
      rw [hev, hev]
  refine ⟨count, fun k lam hk hlam => ?_⟩
  obtain ⟨l, hle, hl, he⟩ := numModes_jump hpd hsym0 (hk.trans hlam.1)
  obtain ⟨mu, h1, -, h2⟩ := exists_kth hpd' hsym hk (show k ≤ numModes K' KG' l from (he ▸ hlam.1 : k ≤ numModes K KG l).trans (count l hl.1))
  exact ⟨mu, h2.trans hle, h1⟩

/-- **C108** a stiffer plate under loads that are nowhere more compressive has at most as many multipliers up to any load factor: exact
integrals, any supports that hold both plates. -/
theorem C108_monotone (D1 D2 : M3) (h1 : D1.PosDef) (h12 : (D2 - D1).PosSemidef) (cs : Constraints) (e : Edges) (he : chooseEdges cs = .ok e)
    (hheld : Held (e.x0.has TZ) (e.x0.has RZ) (e.xa.has TZ) (e.xa.has RZ) ∨ Held (e.y0.has TX) (e.y0.has RX) (e.yb.has TX) (e.yb.has RX))
    (a b : ℝ) (ha : 0 < a) (hb : 0 < b) (x1 y1 t1 x2 y2 t2 : ℝ) (hL : Tensile (x2 - x1) (y2 - y1) (t2 - t1)) (m n : ℕ) :
    ∃ K1 KG1 K2 KG2 : SqMat (m * n), calcKKGD exactReaders (.ok D1) cs ⟨a, b, x1, y1, t1, m, n⟩ = .ok (K1, KG1) ∧
      calcKKGD exactReaders (.ok D2) cs ⟨a, b, x2, y2, t2, m, n⟩ = .ok (K2, KG2) ∧
      (∀ c > 0, numModes K2 KG2 c ≤ numModes K1 KG1 c) ∧ ∀ k lam, 1 ≤ k → IsKth K2 KG2 k lam → ∃ mu ≤ lam, IsKth K1 KG1 k mu := by
  have h2 : D2.PosDef := by
    have := h1.add_posSemidef h12
    rwa [add_sub_cancel] at this
  have s1 : D1.IsSymm := h1.isHermitian
  have s2 : D2.IsSymm := h2.isHermitian
  obtain ⟨s, hs⟩ := (C40_accepted_iff cs m n).mpr ⟨e, he⟩
  obtain ⟨K1, KG1, hK1, en1⟩ := C49_energy D1 s1 cs ⟨a, b, x1, y1, t1, m, n⟩ s hs ha.ne' hb.ne'
  obtain ⟨K2, KG2, hK2, en2⟩ := C49_energy D2 s2 cs ⟨a, b, x2, y2, t2, m, n⟩ s hs ha.ne' hb.ne'
  have y1' := exact_symm_ok (p := ⟨a, b, x1, y1, t1, m, n⟩) ha.ne' hb.ne' hK1 hs
  have y2' := exact_symm_ok (p := ⟨a, b, x2, y2, t2, m, n⟩) ha.ne' hb.ne' hK2 hs
  have p1 := posDef_of_pos y1'.1 fun c hc => by
    rw [(en1 c).1]
    exact C87_supported D1 h1 cs ⟨a, b, x1, y1, t1, m, n⟩ ha hb s hs e he hheld c hc
  have p2 := posDef_of_pos y2'.1 fun c hc => by
    rw [(en2 c).1]
    exact C87_supported D2 h2 cs ⟨a, b, x2, y2, t2, m, n⟩ ha hb s hs e he hheld c hc
  have count : ∀ c > 0, numModes K2 KG2 c ≤ numModes K1 KG1 c := fun c hc => numModes_mono p2 y2'.2 p1 y1'.2 hc fun v => by
    rw [(en1 v).1, (en1 v).2, (en2 v).1, (en2 v).2]
    have k0 := kMat_nonneg h12 ha hb s.w v
    have g0 := gMat_nonneg hL ha hb s.w v
    have ek : kMat exactV a b (D2 - D1) s.w (m * n) = kMat exactV a b D2 s.w _ - kMat exactV a b D1 s.w _ := by
      have := kMat_lin exactV a b 1 (-1) D2 D1 s.w (m * n)
      simpa [sub_eq_add_neg] using this
    have eg : gMat exactV a b (x2 - x1) (y2 - y1) (t2 - t1) s.w (m * n) = gMat exactV a b x2 y2 t2 s.w _ - gMat exactV a b x1 y1 t1 s.w _ := by
      have := gMat_lin exactV a b 1 (-1) x2 y2 t2 x1 y1 t1 s.w (m * n)
      simpa [sub_eq_add_neg] using this
    rw [ek, sub_mulVec, dotProduct_sub, kMat_energy ha.ne' hb.ne' D2 s2, kMat_energy ha.ne' hb.ne' D1 s1] at k0
    rw [eg, sub_mulVec, dotProduct_sub, gMat_work ha.ne' hb.ne', gMat_work ha.ne' hb.ne'] at g0
    have := mul_nonneg hc.le g0
    simp only
    linarith
  refine ⟨K1, KG1, K2, KG2, hK1, hK2, count, fun k lam hk hlam => ?_⟩
  obtain ⟨l, hle, hl, he'⟩ := numModes_jump p2 y2'.2 (hk.trans hlam.1)
  obtain ⟨mu, m1, -, m2⟩ := exists_kth p1 y1'.2 hk (show k ≤ numModes K1 KG1 l from (he' ▸ hlam.1 : k ≤ numModes K2 KG2 l).trans (count l hl.1))
  exact ⟨mu, m2.trans hle, m1⟩

theorem all_positive {M n0 : ℝ} {D : M3} (hB : Below D M) (hM : 0 < M) {cs : Constraints} {p : PlateNum} (ha : 0 < p.a) (hb : 0 < p.b)
    (hc : Compressed p n0) {s : ShapeIdx} (hs : computeIdx cs p.m p.n = .ok s) {K KG : SqMat (p.m * p.n)} (hpd : K.PosDef) (hG : KG.IsSymm)
    (hen : ∀ v, v ⬝ᵥ K.mulVec v = bendEnergy D p.a p.b (ritz p.a p.b s.w v) ∧ v ⬝ᵥ KG.mulVec v = loadWork p.Nxx p.Nyy p.Nxy p.a p.b (ritz p.a p.b s.w v)) :
    numModes K KG (M * curvRatio p / n0) = p.m * p.n := by
  have hn0 := hc.1
  have hcr : 0 < curvRatio p := by
    unfold curvRatio markov
    positivity
  have hpos : 0 < M * curvRatio p / n0 := by positivity
  refine le_antisymm ((Submodule.finrank_le _).trans (by rw [finrank_fin_fun])) ?_
  have := numModes_ge hpd hG hpos ⊤ fun v _ => by
    rw [(hen v).1, (hen v).2]
    have h1 := C106_energy D M hB cs p ha hb s hs v
    have h2 := mul_le_mul_of_nonneg_left (compressed_work hc ha hb s.w v) hpos.le
    have h3 : M * curvRatio p / n0 * (n0 * (slopeX p.a p.b (ritz p.a p.b s.w v) + slopeY p.a p.b (ritz p.a p.b s.w v))) =
      M * curvRatio p * (slopeX p.a p.b (ritz p.a p.b s.w v) + slopeY p.a p.b (ritz p.a p.b s.w v)) := by field_simp
    linarith
  rwa [finrank_top, finrank_fin_fun] at this

/-- **C108** exact integrals: a held plate that is compressed in every direction has all its `m n` multipliers positive, up to the bound of C106. -/
theorem C108_all (D : M3) (hD : D.PosDef) (M n0 : ℝ) (hB : Below D M) (hM : 0 < M) (cs : Constraints) (p : PlateNum) (ha : 0 < p.a) (hb : 0 < p.b)
    (hc : Compressed p n0) (e : Edges) (he : chooseEdges cs = .ok e)
    (hheld : Held (e.x0.has TZ) (e.x0.has RZ) (e.xa.has TZ) (e.xa.has RZ) ∨ Held (e.y0.has TX) (e.y0.has RX) (e.yb.has TX) (e.yb.has RX))
    (K KG : SqMat (p.m * p.n)) (hK : calcKKGD exactReaders (.ok D) cs p = .ok (K, KG)) :
    numModes K KG (M * curvRatio p / n0) = p.m * p.n := by
  have hsym : D.IsSymm := hD.isHermitian
  obtain ⟨s, hs⟩ := (C40_accepted_iff cs p.m p.n).mpr ⟨_, he⟩
  obtain ⟨K', KG', hK', hen⟩ := C49_energy D hsym cs p s hs ha.ne' hb.ne'
  obtain ⟨rfl, rfl⟩ := Prod.mk.inj (Except.ok.inj (hK.symm.trans hK'))
  have hsK := exact_symm_ok ha.ne' hb.ne' hK hs
  have hpd := posDef_of_pos hsK.1 fun c hc => by
    rw [(hen c).1]
    exact C87_supported D hD cs p ha hb s hs e he hheld c hc
  exact all_positive hB hM ha hb hc hs hpd hsK.2 hen

/-- **C108** tables as shipped, clamped plates with at most 26 by 26 terms: the same. -/
theorem C108_all_clamped (D : M3) (hD : D.PosDef) (M n0 : ℝ) (hB : Below D M) (hM : 0 < M) (p : PlateNum) (ha : 0 < p.a) (hb : 0 < p.b)
    (hm : 1 ≤ p.m) (hn : 1 ≤ p.n) (hm' : p.m ≤ 26) (hn' : p.n ≤ 26) (hc : Compressed p n0) (K KG : SqMat (p.m * p.n))
    (hK : calcKKGD shipped (.ok D) (.str wCLAMPED) p = .ok (K, KG)) : numModes K KG (M * curvRatio p / n0) = p.m * p.n := by
  have hsym : D.IsSymm := hD.isHermitian
  have hpd : K.PosDef := clamped_posDef hD ha hb hm hn hm' hn' hK
  obtain ⟨s, K', KG', hs, hK', hen⟩ := C49_energy_clamped D hsym p ha.ne' hb.ne' hm' hn'
  obtain ⟨rfl, rfl⟩ := Prod.mk.inj (Except.ok.inj (hK.symm.trans hK'))
  exact all_positive hB hM ha hb hc hs hpd (C48_symmetric _ _ p hm hn _ _ hK).2 hen

/-! ## Convergence of all multipliers -/

/-- Combination of deflections. -/
def Spec.combine {k : ℕ} (w : Fin k → ℝ → ℝ → ℝ) (al : Fin k → ℝ) (x y : ℝ) : ℝ := ∑ i, al i * w i x y

/-- Load factors for which some `k` admissible deflections and all their combinations have energy at most the factor times minus the work. -/
def Spec.levels (D : M3) (e : Edges) (a b nx ny nt : ℝ) (k : ℕ) : Set ℝ :=
  {c | 0 < c ∧ ∃ w : Fin k → ℝ → ℝ → ℝ, (∀ i, Admissible e a b (w i)) ∧ ∀ al, al ≠ 0 → 0 < -loadWork nx ny nt a b (combine w al) ∧
    bendEnergy D a b (combine w al) ≤ c * -loadWork nx ny nt a b (combine w al)}

theorem ritz_combine (a b : ℝ) (l : List (ℕ × ℕ)) {N k : ℕ} (v : Fin k → Fin N → ℝ) (al : Fin k → ℝ) :
    combine (fun i => ritz a b l (v i)) al = ritz a b l (∑ i, al i • v i) := by
  funext x y
  simp only [combine, ritz, Finset.mul_sum, Finset.sum_apply, Pi.smul_apply, smul_eq_mul, Finset.sum_mul]
  rw [Finset.sum_comm]
  exact Finset.sum_congr rfl fun r _ => Finset.sum_congr rfl fun i _ => by ring

/-- If there are `k` multipliers up to `c` then `c` is one of these load factors. -/
theorem C108_lower (D : M3) (hD : D.PosDef) (cs : Constraints) (p : PlateNum) (ha : 0 < p.a) (hb : 0 < p.b) (e : Edges) (he : chooseEdges cs = .ok e)
    (hheld : Held (e.x0.has TZ) (e.x0.has RZ) (e.xa.has TZ) (e.xa.has RZ) ∨ Held (e.y0.has TX) (e.y0.has RX) (e.yb.has TX) (e.yb.has RX))
    (K KG : SqMat (p.m * p.n)) (hK : calcKKGD exactReaders (.ok D) cs p = .ok (K, KG)) (k : ℕ) (c : ℝ) (hc : 0 < c) (hk : k ≤ numModes K KG c) :
    c ∈ levels D e p.a p.b p.Nxx p.Nyy p.Nxy k := by
  have hsym : D.IsSymm := hD.isHermitian
  obtain ⟨s, hs⟩ := (C40_accepted_iff cs p.m p.n).mpr ⟨e, he⟩
  obtain ⟨K', KG', hK', hen⟩ := C49_energy D hsym cs p s hs ha.ne' hb.ne'
  obtain ⟨rfl, rfl⟩ := Prod.mk.inj (Except.ok.inj (hK.symm.trans hK'))
  have hsK := exact_symm_ok ha.ne' hb.ne' hK hs
  have hpos := fun c hc => C87_supported D hD cs p ha hb s hs e he hheld c hc
  have hpd := posDef_of_pos hsK.1 fun c hc => by
    rw [(hen c).1]
    exact hpos c hc
  let B := Module.finBasis ℝ (modes K KG c)
  let v : Fin k → Fin (p.m * p.n) → ℝ := fun i => (B (Fin.castLE hk i) : Fin (p.m * p.n) → ℝ)
  have hv : LinearIndependent ℝ v := by
    have h1 : LinearIndependent ℝ fun i : Fin k => B (Fin.castLE hk i) := B.linearIndependent.comp _ (Fin.castLE_injective hk)
    exact h1.map' (modes K KG c).subtype (Submodule.ker_subtype _)
  refine ⟨hc, fun i => ritz p.a p.b s.w (v i), fun i => ritz_admissible ha.ne' hb.ne' hs he (v i), fun al hal => ?_⟩
  rw [ritz_combine]
  have hne : (∑ i, al i • v i) ≠ 0 := fun h0 => hal (funext fun i => Fintype.linearIndependent_iff.mp hv al h0 i)
  have hmem : (∑ i, al i • v i) ∈ modes K KG c := Submodule.sum_mem _ fun i _ => Submodule.smul_mem _ _ (B (Fin.castLE hk i)).2
  have hE := hpos _ hne
  have hneg := modes_energy hpd hsK.2 c hmem
  rw [(hen _).1, (hen _).2] at hneg
  refine ⟨?_, by linarith⟩
  by_contra h
  have := mul_nonneg hc.le (not_lt.mp h |> neg_nonpos.mp)
  linarith

/-- Combination of deflections with their derivatives. -/
def combS {k : ℕ} (W : Fin k → ℕ → ℕ → ℝ → ℝ → ℝ) (al : Fin k → ℝ) (i j : ℕ) (x y : ℝ) : ℝ := ∑ r, al r * W r i j x y

theorem combS_smooth {k : ℕ} {W : Fin k → ℕ → ℕ → ℝ → ℝ → ℝ} (hW : ∀ r, Smooth (W r)) (al : Fin k → ℝ) : Smooth (combS W al) :=
  ⟨fun i hi j hj x y => HasDerivAt.fun_sum fun r _ => ((hW r).dx i hi j hj x y).const_mul _,
   fun i hi j hj x y => HasDerivAt.fun_sum fun r _ => ((hW r).dy i hi j hj x y).const_mul _,
   fun i hi j hj => by
    have : Function.uncurry (combS W al i j) = fun q : ℝ × ℝ => ∑ r, al r * Function.uncurry (W r i j) q := rfl
    rw [this]
    exact continuous_finsetSum _ fun r _ => continuous_const.mul ((hW r).cont i hi j hj)⟩

theorem sum_bound {k : ℕ} {al u : Fin k → ℝ} {A B : ℝ} (hA0 : 0 ≤ A) (hA : ∀ r, |al r| ≤ A) (hB : ∀ r, |u r| ≤ B) : |∑ r, al r * u r| ≤ k * (A * B) := by
  refine (Finset.abs_sum_le_sum_abs _ _).trans ?_
  have : ∀ r ∈ Finset.univ, |al r * u r| ≤ A * B := fun r _ => by
    rw [abs_mul]
    exact mul_le_mul (hA r) (hB r) (abs_nonneg _) hA0
  simpa using Finset.sum_le_sum this

theorem family_bounded (a b : ℝ) {k : ℕ} {W : Fin k → ℕ → ℕ → ℝ → ℝ → ℝ} (hW : ∀ r, Smooth (W r)) :
    ∃ M, 0 ≤ M ∧ ∀ r, ∀ i ≤ 2, ∀ j ≤ 2, ∀ x ∈ Set.Icc 0 a, ∀ y ∈ Set.Icc 0 b, |W r i j x y| ≤ M := by
  choose M h0 hM using fun r => smooth_bounded (a := a) (b := b) (hW r)
  exact ⟨∑ r, M r, Finset.sum_nonneg fun r _ => h0 r, fun r i hi j hj x hx y hy =>
    (hM r i hi j hj x hx y hy).trans (Finset.single_le_sum (f := M) (fun r _ => h0 r) (Finset.mem_univ r))⟩

theorem abs_coord_le {k : ℕ} (al : Fin k → ℝ) (r : Fin k) : |al r| ≤ ‖al‖ := by
  rw [← Real.norm_eq_abs]
  exact norm_le_pi_norm al r

/-- The work of the loads is continuous in the coefficients of a combination. -/
theorem work_continuous {a b : ℝ} (ha : 0 < a) (hb : 0 < b) (nx ny nt : ℝ) {k : ℕ} {W : Fin k → ℕ → ℕ → ℝ → ℝ → ℝ} (hW : ∀ r, Smooth (W r)) :
    ContinuousOn (fun al => -loadWork nx ny nt a b (combS W al 0 0)) (Metric.sphere (0 : Fin k → ℝ) 1) := by
  obtain ⟨M, hM0, hM⟩ := family_bounded a b hW
  refine Metric.continuousOn_iff.mpr fun al hal d hd => ?_
  obtain ⟨e, he, hclose⟩ := energies_close ha hb (1 : M3) nx ny nt (M := k * (1 * M)) (by positivity) (half_pos hd)
  refine ⟨e / (k * M + 1), by positivity, fun be _ hdist => ?_⟩
  rw [mem_sphere_zero_iff_norm] at hal
  rw [dist_eq_norm] at hdist
  have := (hclose (combS W al) (combS W be) (combS_smooth hW al) (combS_smooth hW be)
    (fun i hi j hj x hx y hy => sum_bound zero_le_one (fun r => hal ▸ abs_coord_le al r) fun r => hM r i hi j hj x hx y hy)
    (fun i hi j hj x hx y hy => by
      have h1 : combS W be i j x y - combS W al i j x y = ∑ r, (be - al) r * W r i j x y := by
        simp only [combS, ← Finset.sum_sub_distrib, Pi.sub_apply, sub_mul]
      rw [h1]
      refine (sum_bound (norm_nonneg (be - al)) (fun r => abs_coord_le _ r) fun r => hM r i hi j hj x hx y hy).trans ?_
      have h2 : ‖be - al‖ * (k * M + 1) ≤ e := by
        rw [← le_div_iff₀ (by positivity)]
        exact hdist.le
      nlinarith [norm_nonneg (be - al)])).2
  rw [Real.dist_eq, neg_sub_neg, abs_sub_comm]
  linarith

/-- With enough terms there are `k` multipliers up to any load factor above one of these. -/
theorem C108_upper (D : M3) (hD : D.PosDef) (cs : Constraints) (a b nx ny nt : ℝ) (ha : 0 < a) (hb : 0 < b) (e : Edges) (he : chooseEdges cs = .ok e)
    (hheld : Held (e.x0.has TZ) (e.x0.has RZ) (e.xa.has TZ) (e.xa.has RZ) ∨ Held (e.y0.has TX) (e.y0.has RX) (e.yb.has TX) (e.yb.has RX))
    (k : ℕ) (c : ℝ) (hc : c ∈ levels D e a b nx ny nt k) (d : ℝ) (hd : 0 < d) :
    ∃ M : ℕ, ∀ m n, M ≤ m → M ≤ n → ∀ K KG : SqMat (m * n), calcKKGD exactReaders (.ok D) cs ⟨a, b, nx, ny, nt, m, n⟩ = .ok (K, KG) →
      k ≤ numModes K KG (c + d) := by
  have hsym : D.IsSymm := hD.isHermitian
  obtain ⟨hc0, w, hw, hform⟩ := hc
  choose W hW hWw hx hy using hw
  obtain rfl : (fun r => W r 0 0) = w := funext hWw
  replace hform : ∀ al, al ≠ 0 → 0 < -loadWork nx ny nt a b (combS W al 0 0) ∧
    bendEnergy D a b (combS W al 0 0) ≤ c * -loadWork nx ny nt a b (combS W al 0 0) := hform
  have hne : ∀ al ∈ Metric.sphere (0 : Fin k → ℝ) 1, al ≠ 0 := fun al hal h0 => by
    rw [h0] at hal
    simp at hal
  obtain ⟨dl, hdl, hmin⟩ := (isCompact_sphere (0 : Fin k → ℝ) 1).exists_forall_le' (work_continuous ha hb nx ny nt hW) (a := 0) fun al hal => (hform al (hne al hal)).1
  obtain ⟨B, hB0, hB⟩ := family_bounded a b hW
  obtain ⟨r, hr, hrd⟩ : ∃ r > (0 : ℝ), r * (1 + c + d) < d * dl := by
    refine ⟨d * dl / (2 * (1 + c + d)), by positivity, ?_⟩
    rw [div_mul_eq_mul_div, div_lt_iff₀ (by positivity)]
    nlinarith [mul_pos (mul_pos hd hdl) (by linarith : 0 < 1 + c + d)]
  obtain ⟨g, hg, hclose⟩ := energies_close ha hb D nx ny nt (M := k * (1 * B)) (by positivity) hr
  choose N N' hN using fun r => tensor_near ha hb (hW r) (e := g / (k + 1)) (by positivity)
  choose M hM using fun r => tensor_ritz ha hb (hW r) (hx r) (hy r) (N r) (N' r)
  refine ⟨∑ r, M r, fun m n hm hn K KG hK => ?_⟩
  obtain ⟨s, hs⟩ := (C40_accepted_iff cs m n).mpr ⟨e, he⟩
  obtain ⟨K', KG', hK', hen⟩ := C49_energy D hsym cs ⟨a, b, nx, ny, nt, m, n⟩ s hs ha.ne' hb.ne'
  obtain ⟨rfl, rfl⟩ := Prod.mk.inj (Except.ok.inj (hK.symm.trans hK'))
  have hpos : ∀ c, c ≠ 0 → 0 < c ⬝ᵥ K.mulVec c := fun c hc => by
    rw [(hen c).1]
    exact C87_supported D hD cs ⟨a, b, nx, ny, nt, m, n⟩ ha hb s hs e he hheld c hc
  have hsK := exact_symm_ok ha.ne' hb.ne' hK hs
  have hpd := posDef_of_pos hsK.1 hpos
  have hle : ∀ r, M r ≤ ∑ r, M r := fun r => Finset.single_le_sum (fun _ _ => Nat.zero_le _) (Finset.mem_univ r)
  choose v hv using fun r => hM r cs he m n ((hle r).trans hm) ((hle r).trans hn) s hs
  let Z : Fin k → ℕ → ℕ → ℝ → ℝ → ℝ := fun r => tensor a b (W r) (N r) (N' r)
  have hZ : ∀ r, Smooth (Z r) := fun r => tensor_smooth (W r) (N r) (N' r)
  have hcomb : ∀ al, ritz a b s.w (∑ r, al r • v r) = combS Z al 0 0 := fun al => by
    rw [← ritz_combine]
    funext x y
    exact Finset.sum_congr rfl fun r _ => congrArg (al r * ·) (congrFun (congrFun (hv r) x) y)
  have hunit : ∀ al ∈ Metric.sphere (0 : Fin k → ℝ) 1, (∑ r, al r • v r) ⬝ᵥ K.mulVec (∑ r, al r • v r) +
      (c + d) * ((∑ r, al r • v r) ⬝ᵥ KG.mulVec (∑ r, al r • v r)) < 0 := fun al hal => by
    have hal' := hal
    rw [mem_sphere_zero_iff_norm] at hal'
    obtain ⟨n1, n2⟩ := hclose (combS W al) (combS Z al) (combS_smooth hW al) (combS_smooth hZ al)
      (fun i hi j hj x hx y hy => sum_bound zero_le_one (fun r => hal' ▸ abs_coord_le al r) fun r => hB r i hi j hj x hx y hy)
      (fun i hi j hj x hx y hy => by
        have h1 : combS Z al i j x y - combS W al i j x y = ∑ r, al r * (Z r i j x y - W r i j x y) := by
          simp only [combS, ← Finset.sum_sub_distrib, mul_sub]
        rw [h1]
        refine (sum_bound zero_le_one (fun r => hal' ▸ abs_coord_le al r) fun r => hN r i hi j hj x hx y hy).trans ?_
        rw [one_mul, mul_div_assoc', div_le_iff₀ (by positivity)]
        nlinarith)
    have h1 := (hform al (hne al hal)).2
    have h2 := hmin al hal
    have k1 := (hen (∑ r, al r • v r)).1
    have k2 := (hen (∑ r, al r • v r)).2
    rw [hcomb] at k1 k2
    rw [k1, k2]
    have b1 := (abs_le.mp n1).2
    have b2 := mul_le_mul_of_nonneg_left (abs_le.mp n2).2 (by linarith : 0 ≤ c + d)
    have b3 := mul_le_mul_of_nonneg_left h2 hd.le
    simp only at b1 b2 b3 h1 ⊢
    linarith
  have hall : ∀ al : Fin k → ℝ, al ≠ 0 → (∑ r, al r • v r) ⬝ᵥ K.mulVec (∑ r, al r • v r) +
      (c + d) * ((∑ r, al r • v r) ⬝ᵥ KG.mulVec (∑ r, al r • v r)) < 0 := fun al hal => by
    have hn : 0 < ‖al‖ := norm_pos_iff.mpr hal
    have h1 := hunit (‖al‖⁻¹ • al) (by rw [mem_sphere_zero_iff_norm, norm_smul, norm_inv, norm_norm, inv_mul_cancel₀ hn.ne'])
    have h2 : ∑ r, (‖al‖⁻¹ • al) r • v r = ‖al‖⁻¹ • ∑ r, al r • v r := by
      rw [Finset.smul_sum]
      exact Finset.sum_congr rfl fun r _ => by rw [Pi.smul_apply, smul_eq_mul, mul_smul]
    rw [h2] at h1
    simp only [Matrix.mulVec_smul, smul_dotProduct, dotProduct_smul, smul_eq_mul] at h1
    set u := ∑ r, al r • v r
    have h3 : ‖al‖⁻¹ * (‖al‖⁻¹ * (u ⬝ᵥ K.mulVec u)) + (c + d) * (‖al‖⁻¹ * (‖al‖⁻¹ * (u ⬝ᵥ KG.mulVec u))) =
      ‖al‖⁻¹ * ‖al‖⁻¹ * (u ⬝ᵥ K.mulVec u + (c + d) * (u ⬝ᵥ KG.mulVec u)) := by ring
    rw [h3] at h1
    have : 0 < ‖al‖⁻¹ * ‖al‖⁻¹ := by positivity
    by_contra hcon
    exact absurd h1 (not_lt.mpr (mul_nonneg this.le (not_lt.mp hcon)))
  have hind : LinearIndependent ℝ v := Fintype.linearIndependent_iff.mpr fun al h0 => by
    by_contra hcon
    have := hall al fun hz => hcon fun i => by rw [hz]; rfl
    rw [h0] at this
    simp at this
  have hfr := numModes_ge hpd hsK.2 (by linarith : 0 < c + d) (Submodule.span ℝ (Set.range v)) fun u hu => by
    obtain ⟨al, rfl⟩ := (Submodule.mem_span_range_iff_exists_fun ℝ).mp hu
    by_cases hz : al = 0
    · simp [hz]
    · exact (hall al hz).le
  rwa [finrank_span_eq_card hind, Fintype.card_fin] at hfr

/-- **C108** for any supports that hold the plate the `k`-th multiplier tends from above to the min–max of the quotients over `k`
admissible deflections as the numbers of terms grow, for every `k`. -/
theorem C108_converges (D : M3) (hD : D.PosDef) (cs : Constraints) (a b nx ny nt : ℝ) (ha : 0 < a) (hb : 0 < b) (e : Edges) (he : chooseEdges cs = .ok e)
    (hheld : Held (e.x0.has TZ) (e.x0.has RZ) (e.xa.has TZ) (e.xa.has RZ) ∨ Held (e.y0.has TX) (e.y0.has RX) (e.yb.has TX) (e.yb.has RX))
    (k : ℕ) (hk : 1 ≤ k) (t : ℝ) (ht : IsGLB (levels D e a b nx ny nt k) t) (d : ℝ) (hd : 0 < d) :
    ∃ M : ℕ, ∀ m n, M ≤ m → M ≤ n → ∃ K KG : SqMat (m * n), calcKKGD exactReaders (.ok D) cs ⟨a, b, nx, ny, nt, m, n⟩ = .ok (K, KG) ∧
      ∃ lam, IsKth K KG k lam ∧ PosMult K KG lam ∧ t ≤ lam ∧ lam ≤ t + d := by
  obtain ⟨c, hc, hct⟩ := (isGLB_lt_iff ht).mp (lt_add_of_pos_right t (half_pos hd))
  obtain ⟨M, hM⟩ := C108_upper D hD cs a b nx ny nt ha hb e he hheld k c hc (d / 2) (half_pos hd)
  refine ⟨M, fun m n hm hn => ?_⟩
  have hsym : D.IsSymm := hD.isHermitian
  obtain ⟨s, hs⟩ := (C40_accepted_iff cs m n).mpr ⟨e, he⟩
  obtain ⟨K, KG, hK, hen⟩ := C49_energy D hsym cs ⟨a, b, nx, ny, nt, m, n⟩ s hs ha.ne' hb.ne'
  have hsK := exact_symm_ok (p := ⟨a, b, nx, ny, nt, m, n⟩) ha.ne' hb.ne' hK hs
  have hpd := posDef_of_pos hsK.1 fun c hc => by
    rw [(hen c).1]
    exact C87_supported D hD cs ⟨a, b, nx, ny, nt, m, n⟩ ha hb s hs e he hheld c hc
  obtain ⟨lam, h1, h2, h3⟩ := exists_kth hpd hsK.2 hk (hM m n hm hn K KG hK)
  refine ⟨K, KG, hK, lam, h1, h2, ht.1 ?_, by linarith⟩
  exact C108_lower D hD cs ⟨a, b, nx, ny, nt, m, n⟩ ha hb e he hheld K KG hK k lam h2.1 h1.1

/-- **C108** the limits exist for every `k` when the plate is compressed in every direction. -/
theorem C108_limits (D : M3) (hD : D.PosDef) (cs : Constraints) (a b nx ny nt n0 : ℝ) (ha : 0 < a) (hb : 0 < b)
    (hc : Compressed ⟨a, b, nx, ny, nt, 1, 1⟩ n0) (e : Edges) (he : chooseEdges cs = .ok e)
    (hheld : Held (e.x0.has TZ) (e.x0.has RZ) (e.xa.has TZ) (e.xa.has RZ) ∨ Held (e.y0.has TX) (e.y0.has RX) (e.yb.has TX) (e.yb.has RX)) (k : ℕ) :
    ∃ t, 0 ≤ t ∧ IsGLB (levels D e a b nx ny nt k) t := by
  have hsym : D.IsSymm := hD.isHermitian
  set p : PlateNum := ⟨a, b, nx, ny, nt, k + 1, 1⟩ with hp
  obtain ⟨M, hM⟩ : ∃ M, ∀ i j, |D i j| ≤ M :=
    ⟨∑ i, ∑ j, |D i j|, fun i j => (Finset.single_le_sum (f := fun j => |D i j|) (fun _ _ => abs_nonneg _) (Finset.mem_univ j)).trans
      (Finset.single_le_sum (f := fun i => ∑ j, |D i j|) (fun _ _ => Finset.sum_nonneg fun _ _ => abs_nonneg _) (Finset.mem_univ i))⟩
  have hM0 : 0 < M := lt_of_lt_of_le (abs_pos.mpr (hD.diag_pos (i := 0)).ne') (hM 0 0)
  obtain ⟨s, hs⟩ := (C40_accepted_iff cs p.m p.n).mpr ⟨_, he⟩
  obtain ⟨K, KG, hK, -⟩ := C49_energy D hsym cs p s hs ha.ne' hb.ne'
  have hall := C108_all D hD (3 * M) n0 (below_of_up hsym hM) (by linarith) cs p ha hb hc e he hheld K KG hK
  have hn0 : 0 < n0 := hc.1
  have hcr : 0 < curvRatio p := by
    unfold curvRatio markov
    positivity
  have hmem := C108_lower D hD cs p ha hb e he hheld K KG hK k _ (by positivity : 0 < 3 * M * curvRatio p / n0) (by rw [hall, hp]; simp)
  have hlow : ∀ c ∈ levels D e a b nx ny nt k, 0 ≤ c := fun c hc => hc.1.le
  exact ⟨sInf (levels D e a b nx ny nt k), le_csInf ⟨_, hmem⟩ hlow, isGLB_csInf ⟨_, hmem⟩ ⟨0, hlow⟩⟩

/-- Non-vacuity: a pinned square plate with the identity as stiffness under uniform compression of 1 in both directions. -/
example : ∃ e, chooseEdges (.str wPINNED) = .ok e ∧ (1 : M3).PosDef ∧ Compressed ⟨1, 1, -1, -1, 0, 1, 1⟩ 1 ∧
    (Held (e.x0.has TZ) (e.x0.has RZ) (e.xa.has TZ) (e.xa.has RZ) ∨ Held (e.y0.has TX) (e.y0.has RX) (e.yb.has TX) (e.yb.has RX)) :=
  ⟨_, rfl, PosDef.one, ⟨one_pos, 1, one_pos, by norm_num, by norm_num⟩, Or.inl (by unfold Held; decide)⟩

end Composipy
