import Verif.Lemmas.Pencil
import Verif.Props.Buckling
import Verif.Props.Response

/-!
# Rayleigh quotients and changes of the shape set
-/

namespace Composipy
open Spec Matrix

theorem exists_pair_le {N : ℕ} {A M : SqMat N} (hA : A.IsSymm) (hM : M.PosDef) {v : Fin N → ℝ} (hv : v ≠ 0) {c : ℝ}
    (h : v ⬝ᵥ A.mulVec v ≤ c * (v ⬝ᵥ M.mulVec v)) :
    ∃ t ≤ c, ∃ x, x ≠ 0 ∧ A.mulVec x = t • M.mulVec x := by
  obtain ⟨P, hP⟩ := exists_whiten hM
  have hinv : P * (Pᵀ * M) = 1 := mul_eq_one_comm.mp hP
  have hinv' : (M * P) * Pᵀ = 1 := mul_eq_one_comm.mp (by rw [← Matrix.mul_assoc]; exact hP)
  have hMs : M.IsSymm := by
    have := hM.isHermitian
    rwa [IsHermitian, conjTranspose_eq_transpose_of_trivial] at this
  set A' : SqMat N := A - c • M with hA'
  have hAs : A'.IsSymm := by
    rw [IsSymm, hA', transpose_sub, transpose_smul, hA.eq, hMs.eq]
  have hB : (Pᵀ * A' * P).IsHermitian := by
    rw [IsHermitian, conjTranspose_eq_transpose_of_trivial, transpose_mul, transpose_mul, transpose_transpose, hAs.eq,
      Matrix.mul_assoc]
  set y := (Pᵀ * M).mulVec v with hy
  have hPy : P.mulVec y = v := by rw [hy, mulVec_mulVec, hinv, one_mulVec]
  have hy0 : y ≠ 0 := fun h0 => hv (by rw [← hPy, h0, mulVec_zero])
  have hq : y ⬝ᵥ (Pᵀ * A' * P).mulVec y ≤ 0 := by
    have e : y ⬝ᵥ (Pᵀ * A' * P).mulVec y = v ⬝ᵥ A'.mulVec v := by
      rw [← mulVec_mulVec, hPy, ← mulVec_mulVec, dotProduct_mulVec, vecMul_transpose, hPy]
    rw [e, hA', sub_mulVec, smul_mulVec, dotProduct_sub, dotProduct_smul, smul_eq_mul]
    linarith
  have hnot : ¬ (Pᵀ * A' * P).PosDef := by
    intro hpd
    have := hpd.dotProduct_mulVec_pos hy0
    simp only [star_trivial] at this
    linarith
  rw [hB.posDef_iff_eigenvalues_pos] at hnot
  push Not at hnot
  obtain ⟨j, hj⟩ := hnot
  let u : Fin N → ℝ := ⇑(hB.eigenvectorBasis j)
  have hu : (Pᵀ * A' * P).mulVec u = hB.eigenvalues j • u := hB.mulVec_eigenvectorBasis j
  have hu0 : u ≠ 0 := fun h => by
    have h1 := hB.star_eigenvectorUnitary_mulVec j
    have : (⇑(hB.eigenvectorBasis j) : Fin N → ℝ) = 0 := h
    rw [this, mulVec_zero] at h1
    have := congrFun h1 j
    simp at this
  refine ⟨c + hB.eigenvalues j, by linarith, P.mulVec u, fun h => hu0 ?_, ?_⟩
  · have h1 : (Pᵀ * M * P).mulVec u = 0 := by rw [← mulVec_mulVec, h, mulVec_zero]
    rwa [hP, one_mulVec] at h1
  · have h1 : (M * P).mulVec ((Pᵀ * A' * P).mulVec u) = (M * P).mulVec (hB.eigenvalues j • u) := by rw [hu]
    rw [mulVec_mulVec, ← Matrix.mul_assoc, ← Matrix.mul_assoc, hinv', Matrix.one_mul, mulVec_smul, ← mulVec_mulVec,
      ← mulVec_mulVec] at h1
    have e : A'.mulVec (P.mulVec u) = A.mulVec (P.mulVec u) - c • M.mulVec (P.mulVec u) := by
      rw [hA', sub_mulVec, smul_mulVec]
    rw [add_smul, ← h1, e]
    abel

/-- A deflection whose load work at multiplier `lam` exceeds its bending energy bounds the critical multiplier. -/
theorem posMult_le {N : ℕ} {K KG : SqMat N} (hK : K.PosDef) (hG : KG.IsSymm) {v : Fin N → ℝ} (hv : v ≠ 0) {lam : ℝ}
    (hl : 0 < lam) (h : v ⬝ᵥ K.mulVec v + lam * (v ⬝ᵥ KG.mulVec v) ≤ 0) : ∃ mu ≤ lam, PosMult K KG mu := by
  obtain ⟨t, ht, x, hx, he⟩ := exists_pair_le hG hK hv (c := -1 / lam) (by
    rw [div_mul_eq_mul_div, le_div_iff₀ hl]
    linarith)
  have ht0 : t < 0 := lt_of_le_of_lt ht (div_neg_of_neg_of_pos (by norm_num) hl)
  have hmu : 0 < -1 / t := div_pos_of_neg_of_neg (by norm_num) ht0
  refine ⟨-1 / t, ?_, hmu, x, (buckles_pencil hmu.ne').mpr ⟨hx, ?_⟩⟩
  · rw [div_le_iff_of_neg ht0]
    rw [le_div_iff₀ hl] at ht
    linarith
  · rw [he]
    congr 1
    field_simp

/-- The energy balance of a buckling mode. -/
theorem buckles_energy {N : ℕ} {K KG : SqMat N} {lam : ℝ} {v : Fin N → ℝ} (h : Buckles K KG lam v) :
    v ⬝ᵥ K.mulVec v + lam * (v ⬝ᵥ KG.mulVec v) = 0 := by
  have := congrArg (v ⬝ᵥ ·) h.2
  simpa [add_mulVec, smul_mulVec, dotProduct_add, dotProduct_smul] using this

theorem posDef_of_pos {N : ℕ} {K : SqMat N} (hs : K.IsSymm) (h : ∀ c, c ≠ 0 → 0 < c ⬝ᵥ K.mulVec c) : K.PosDef := by
  refine PosDef.of_dotProduct_mulVec_pos ?_ fun x hx => by simpa using h x hx
  rw [IsHermitian, conjTranspose_eq_transpose_of_trivial, hs.eq]

/-! ## Changing the list of shapes -/

/-- Positions of one list of shapes inside another. -/
theorem exists_embed {w w' : List (ℕ × ℕ)} {N N' : ℕ} (hN : w.length = N) (hN' : w'.length = N') (hnd : w.Nodup)
    (hsub : ∀ q ∈ w, q ∈ w') :
    ∃ e : Fin N → Fin N', Function.Injective e ∧ ∀ r, w'.getD (e r) (0, 0) = w.getD r (0, 0) := by
  have hex : ∀ r : Fin N, ∃ i : Fin N', w'.getD i (0, 0) = w.getD r (0, 0) := by
    intro r
    have hr : (r : ℕ) < w.length := by rw [hN]; exact r.2
    have hmem : w.getD r (0, 0) ∈ w := by
      rw [List.getD_eq_getElem _ _ hr]; exact List.getElem_mem _
    obtain ⟨i, hi, he⟩ := List.mem_iff_getElem.mp (hsub _ hmem)
    exact ⟨⟨i, by rw [← hN']; exact hi⟩, by rw [List.getD_eq_getElem _ _ hi, he]⟩
  choose e he using hex
  refine ⟨e, fun r s h => ?_, he⟩
  have h1 := he r
  rw [h, he s] at h1
  rw [List.getD_eq_getElem _ _ (by rw [hN]; exact s.2), List.getD_eq_getElem _ _ (by rw [hN]; exact r.2)] at h1
  exact Fin.ext ((hnd.getElem_inj_iff).mp h1.symm)

/-- Extension of a coefficient vector by zeros. -/
noncomputable def extendBy {N N' : ℕ} (e : Fin N → Fin N') (v : Fin N → ℝ) (j : Fin N') : ℝ :=
  ∑ r, if e r = j then v r else 0

theorem extendBy_apply {N N' : ℕ} {e : Fin N → Fin N'} (he : Function.Injective e) (v : Fin N → ℝ) (r : Fin N) :
    extendBy e v (e r) = v r := by
  unfold extendBy
  rw [Finset.sum_eq_single r]
  · simp
  · intro s _ hs
    rw [if_neg fun h => hs (he h)]
  · simp

theorem extendBy_sum {N N' : ℕ} (e : Fin N → Fin N') (v : Fin N → ℝ) (g : Fin N' → ℝ) :
    ∑ j, extendBy e v j * g j = ∑ r, v r * g (e r) := by
  simp only [extendBy, Finset.sum_mul, ite_mul, zero_mul]
  rw [Finset.sum_comm]
  exact Finset.sum_congr rfl fun r _ => by simp

theorem extendBy_quad {N N' : ℕ} {e : Fin N → Fin N'} {M : SqMat N} {M' : SqMat N'}
    (h : ∀ r c, M' (e r) (e c) = M r c) (v : Fin N → ℝ) :
    extendBy e v ⬝ᵥ M'.mulVec (extendBy e v) = v ⬝ᵥ M.mulVec v := by
  have h1 : ∀ i, M'.mulVec (extendBy e v) i = ∑ c, v c * M' i (e c) := by
    intro i
    rw [← extendBy_sum e v (fun j => M' i j)]
    simp only [mulVec, dotProduct, mul_comm]
  simp only [dotProduct, h1]
  rw [extendBy_sum e v fun i => ∑ c, v c * M' i (e c)]
  refine Finset.sum_congr rfl fun r _ => ?_
  congr 1
  exact Finset.sum_congr rfl fun c _ => by rw [h, mul_comm]

/-- Reordering the unknowns. -/
theorem buckles_reindex {N N' : ℕ} (e : Fin N ≃ Fin N') {K KG : SqMat N} {K' KG' : SqMat N'}
    (hK : ∀ r c, K' (e r) (e c) = K r c) (hG : ∀ r c, KG' (e r) (e c) = KG r c) (lam : ℝ) (v : Fin N → ℝ) :
    Buckles K KG lam v ↔ Buckles K' KG' lam (v ∘ e.symm) := by
  have hm : ∀ (M : SqMat N) (M' : SqMat N'), (∀ r c, M' (e r) (e c) = M r c) →
      ∀ r, M'.mulVec (v ∘ e.symm) (e r) = M.mulVec v r := by
    intro M M' h r
    simp only [mulVec, dotProduct]
    rw [← Equiv.sum_comp e]
    exact Finset.sum_congr rfl fun c _ => by simp [h]
  unfold Buckles
  refine and_congr (not_congr ⟨fun h => by rw [h]; rfl, fun h => ?_⟩) ⟨fun h => ?_, fun h => ?_⟩
  · funext r; simpa using congrFun h (e r)
  · funext j
    obtain ⟨r, rfl⟩ := e.surjective j
    have := congrFun h r
    rw [add_mulVec, smul_mulVec] at this ⊢
    simpa [hm K K' hK, hm KG KG' hG] using this
  · funext r
    have := congrFun h (e r)
    rw [add_mulVec, smul_mulVec] at this ⊢
    simpa [hm K K' hK, hm KG KG' hG] using this

/-- The first `m` kept functions are among the first `m'`. -/
theorem Spec.IsFirst.subset {m m' : ℕ} (hmm : m ≤ m') {p : ℕ → Prop} {l1 l2 : List ℕ} (h1 : IsFirst m p l1)
    (h2 : IsFirst m' p l2) : ∀ i ∈ l1, i ∈ l2 := by
  intro i hi
  by_contra hn
  have hsub : l2 ⊆ l1 := by
    intro j hj
    rcases lt_trichotomy j i with h | h | h
    · exact h1.complete i hi j h (h2.sound j hj)
    · exact h ▸ hi
    · exact absurd (h2.complete j hj i h (h1.sound i hi)) hn
  have hnd2 : l2.Nodup := h2.sorted.imp fun h => Nat.ne_of_lt h
  have hcons : (i :: l2).Nodup := List.nodup_cons.mpr ⟨hn, hnd2⟩
  have : (i :: l2).length ≤ l1.length :=
    (List.subperm_of_subset hcons (List.cons_subset.mpr ⟨hi, hsub⟩)).length_le
  rw [List.length_cons, h1.len, h2.len] at this
  omega

/-- What the index set of `w` is made of. -/
theorem w_lists {c : Constraints} {m n : ℕ} {s : ShapeIdx} (h : computeIdx c m n = .ok s) :
    ∃ e xs ys, chooseEdges c = .ok e ∧ s.w = xs.product ys ∧
      IsFirst m (Kept (e.x0.has TZ) (e.x0.has RZ) (e.xa.has TZ) (e.xa.has RZ)) xs ∧
      IsFirst n (Kept (e.y0.has TX) (e.y0.has RX) (e.yb.has TX) (e.yb.has RX)) ys := by
  unfold computeIdx at h
  cases he : chooseEdges c with
  | error e => simp [he] at h
  | ok e =>
    obtain ⟨i, hi, h1, h2, h3, h4, h5, h6⟩ := idxLists_ok e m n
    simp only [he, hi, ok_bind, pure_eq_ok, Except.ok.injEq] at h
    subst h
    exact ⟨e, i.wm, i.wn, rfl, rfl, h3, h6 ▸ h4⟩

/-- Refining the discretisation keeps the shapes. -/
theorem w_subset {c : Constraints} {m n m' n' : ℕ} (hm : m ≤ m') (hn : n ≤ n') {s s' : ShapeIdx}
    (h : computeIdx c m n = .ok s) (h' : computeIdx c m' n' = .ok s') : ∀ q ∈ s.w, q ∈ s'.w := by
  obtain ⟨e, xs, ys, he, hw, hx, hy⟩ := w_lists h
  obtain ⟨e', xs', ys', he', hw', hx', hy'⟩ := w_lists h'
  obtain rfl : e = e' := Except.ok.inj (he.symm.trans he')
  intro q hq
  rw [hw] at hq
  rw [hw']
  have := List.mem_product.mp (show (q.1, q.2) ∈ xs ×ˢ ys from hq)
  exact List.mem_product.mpr ⟨hx.subset hm hx' _ this.1, hy.subset hn hy' _ this.2⟩

end Composipy
