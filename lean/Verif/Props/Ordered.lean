import Verif.Props.Modes

/-!
# C109: the reported values are the multipliers in order, counted with multiplicity
-/

namespace Composipy
open Spec Matrix Module

/-! ## Specification -/

/-- The contract of `eigsh` with multiplicities: the vectors are orthogonal with respect to `M`, and an eigenvector orthogonal to all of them
belongs to an eigenvalue that comes after the returned ones. -/
structure Spec.EigshFull {N : ℕ} (A M : SqMat N) (k : ℕ) (out : List (ℝ × (Fin N → ℝ))) : Prop where
  len : out.length = k
  pair : ∀ q ∈ out, q.2 ≠ 0 ∧ A.mulVec q.2 = q.1 • M.mulVec q.2
  orth : out.Pairwise fun q q' => q.2 ⬝ᵥ M.mulVec q'.2 = 0
  rest : ∀ w v, v ≠ 0 → A.mulVec v = w • M.mulVec v → (∀ q ∈ out, q.2 ⬝ᵥ M.mulVec v = 0) →
    ∀ q ∈ out, |q.1 + 1| * |w - 1| ≤ |w + 1| * |q.1 - 1|

/-! ## Linear algebra -/

section
variable {N : ℕ} {K KG P : SqMat N} {w : Fin N → ℝ}

theorem diag_dot (hP : Pᵀ * K * P = 1) (y z : Fin N → ℝ) : P.mulVec y ⬝ᵥ K.mulVec (P.mulVec z) = y ⬝ᵥ z := by
  rw [show P.mulVec y ⬝ᵥ K.mulVec (P.mulVec z) = y ⬝ᵥ (Pᵀ * K * P).mulVec z by
    rw [← mulVec_mulVec, ← mulVec_mulVec, dotProduct_mulVec y, vecMul_transpose], hP, one_mulVec]

theorem diag_pair (hP : Pᵀ * K * P = 1) (hw : Pᵀ * KG * P = diagonal w) (t : ℝ) (y : Fin N → ℝ) :
    KG.mulVec (P.mulVec y) = t • K.mulVec (P.mulVec y) ↔ ∀ j, w j * y j = t * y j := by
  have hinj : ∀ u v : Fin N → ℝ, Pᵀ.mulVec u = Pᵀ.mulVec v → u = v := fun u v h => by
    have h1 : (K * P) * Pᵀ = 1 := mul_eq_one_comm.mp (by rw [← Matrix.mul_assoc]; exact hP)
    have := congrArg (K * P).mulVec h
    rwa [mulVec_mulVec, mulVec_mulVec, h1, one_mulVec, one_mulVec] at this
  have e : KG.mulVec (P.mulVec y) = t • K.mulVec (P.mulVec y) ↔ Pᵀ.mulVec (KG.mulVec (P.mulVec y)) = Pᵀ.mulVec (t • K.mulVec (P.mulVec y)) :=
    ⟨fun h => by rw [h], fun h => hinj _ _ h⟩
  rw [e, mulVec_smul, mulVec_mulVec, mulVec_mulVec, mulVec_mulVec, mulVec_mulVec, hP, hw, one_mulVec, funext_iff]
  simp [mulVec_diagonal]

/-- Eigenvectors of different eigenvalues are orthogonal. -/
theorem eigen_orth (hK : K.PosDef) (hG : KG.IsSymm) {s t : ℝ} {u v : Fin N → ℝ} (hu : KG.mulVec u = s • K.mulVec u) (hv : KG.mulVec v = t • K.mulVec v)
    (hst : s ≠ t) : u ⬝ᵥ K.mulVec v = 0 := by
  obtain ⟨P, w, hP, hw⟩ := exists_diag hK hG
  rw [← diag_coord hP u, diag_pair hP hw] at hu
  rw [← diag_coord hP v, diag_pair hP hw] at hv
  rw [← diag_coord hP u, ← diag_coord hP v, diag_dot hP]
  refine Finset.sum_eq_zero fun j _ => ?_
  by_contra h
  have h1 := left_ne_zero_of_mul h
  have h2 := right_ne_zero_of_mul h
  exact hst ((mul_right_cancel₀ h1 (hu j)).symm.trans (mul_right_cancel₀ h2 (hv j)))

/-- A nonzero combination of modes up to `c` has a mode as a component; this component is orthogonal to all the eigenvectors the combination
is orthogonal to. -/
theorem exists_component (hK : K.PosDef) (hG : KG.IsSymm) {c : ℝ} (hc : 0 < c) {v : Fin N → ℝ} (hv : v ∈ modes K KG c) (h0 : v ≠ 0) :
    ∃ mu, 0 < mu ∧ mu ≤ c ∧ ∃ u, Buckles K KG mu u ∧ ∀ (t : ℝ) q, KG.mulVec q = t • K.mulVec q → q ⬝ᵥ K.mulVec v = 0 → q ⬝ᵥ K.mulVec u = 0 := by
  classical
  obtain ⟨P, w, hP, hw⟩ := exists_diag hK hG
  set y := (Pᵀ * K).mulVec v with hy
  have hyv : P.mulVec y = v := diag_coord hP v
  obtain ⟨l, hl⟩ : ∃ l, y l ≠ 0 := by
    by_contra hno
    push Not at hno
    exact h0 (by rw [← hyv, show y = 0 from funext hno, mulVec_zero])
  have hwl : 1 + c * w l ≤ 0 := not_lt.mp fun h => hl (modes_coord hP hw hv l h)
  have hneg : w l < 0 := by
    by_contra hge
    have := mul_nonneg hc.le (not_lt.mp hge)
    linarith
  refine ⟨-1 / w l, div_pos_of_neg_of_neg (by norm_num) hneg, ?_, P.mulVec (fun j => if w j = w l then y j else 0), ?_, ?_⟩
  · rw [div_le_iff_of_neg hneg]
    linarith
  · rw [diag_mode hP hw (div_pos_of_neg_of_neg (by norm_num) hneg).ne']
    refine ⟨fun h => hl (by have := congrFun h l; simpa using this), fun j => ?_⟩
    have e : -1 / (-1 / w l) = w l := by
      have := hneg.ne
      field_simp
    rw [e]
    split
    · next h => rw [h]
    · simp
  · intro t q hq hqv
    rw [← diag_coord hP q] at hq hqv ⊢
    rw [diag_pair hP hw] at hq
    set z := (Pᵀ * K).mulVec q
    rw [← hyv, diag_dot hP] at hqv
    rw [diag_dot hP]
    by_cases ht : t = w l
    · refine Eq.trans (Finset.sum_congr rfl fun j _ => ?_) hqv
      dsimp only
      split
      · rfl
      · next h =>
        have : z j = 0 := by
          by_contra hz
          exact h ((mul_right_cancel₀ hz (hq j)).trans ht)
        rw [this, zero_mul, zero_mul]
    · refine Finset.sum_eq_zero fun j _ => ?_
      dsimp only
      split
      · next h =>
        have : z j = 0 := by
          by_contra hz
          exact ht ((mul_right_cancel₀ hz (hq j)).symm.trans h)
        rw [this, zero_mul]
      · rw [mul_zero]

/-- The order of Cayley on the eigenvalues, for a plate whose positive multipliers are at least 1. -/
theorem key_first {t lam : ℝ} (hl : 1 ≤ lam) (h1 : t < 0 → -1 ≤ t) (h : |t + 1| * |-1 / lam - 1| ≤ |-1 / lam + 1| * |t - 1|) :
    t < 0 ∧ -1 / t ≤ lam := by
  have hne : lam ≠ 0 := by linarith
  obtain ⟨k1, k2⟩ := cayley_key hne
  have hb : |t + 1| * |lam + 1| ≤ |lam - 1| * |t - 1| := by
    rw [← k1, ← k2]
    have := mul_le_mul_of_nonneg_right h (abs_nonneg lam)
    nlinarith [this]
  rw [abs_of_pos (by linarith : 0 < lam + 1), abs_of_nonneg (by linarith : 0 ≤ lam - 1)] at hb
  rcases lt_or_ge t 0 with ht | ht
  · have := h1 ht
    rw [abs_of_nonneg (by linarith : 0 ≤ t + 1), abs_of_neg (by linarith : t - 1 < 0)] at hb
    refine ⟨ht, ?_⟩
    rw [div_le_iff_of_neg ht]
    nlinarith
  · exfalso
    rw [abs_of_pos (by linarith : 0 < t + 1)] at hb
    have : |t - 1| ≤ t + 1 := abs_le.mpr ⟨by linarith, by linarith⟩
    have := mul_le_mul_of_nonneg_left this (by linarith : 0 ≤ lam - 1)
    nlinarith

theorem key_mono {mu lam : ℝ} (h1 : 1 ≤ mu) (h : mu ≤ lam) : |-1 / mu + 1| * |-1 / lam - 1| ≤ |-1 / lam + 1| * |-1 / mu - 1| := by
  have hm : 0 < mu := by linarith
  have hl : 0 < lam := by linarith
  obtain ⟨k1, k2⟩ := cayley_key hm.ne'
  obtain ⟨j1, j2⟩ := cayley_key hl.ne'
  refine le_of_mul_le_mul_right ?_ (mul_pos (abs_pos.mpr hm.ne') (abs_pos.mpr hl.ne'))
  rw [show |-1 / mu + 1| * |-1 / lam - 1| * (|mu| * |lam|) = (|-1 / mu + 1| * |mu|) * (|-1 / lam - 1| * |lam|) by ring,
    show |-1 / lam + 1| * |-1 / mu - 1| * (|mu| * |lam|) = (|-1 / lam + 1| * |lam|) * (|-1 / mu - 1| * |mu|) by ring, k1, k2, j1, j2,
    abs_of_nonneg (by linarith : 0 ≤ mu - 1), abs_of_nonneg (by linarith : 0 ≤ lam - 1), abs_of_pos (by linarith : 0 < mu + 1),
    abs_of_pos (by linarith : 0 < lam + 1)]
  nlinarith

/-- Orthogonal nonzero vectors are independent. -/
theorem orth_indep (hK : K.PosDef) {k : ℕ} {v : Fin k → Fin N → ℝ} (h0 : ∀ i, v i ≠ 0) (h : ∀ i j, i ≠ j → v i ⬝ᵥ K.mulVec (v j) = 0) : LinearIndependent ℝ v := by
  refine Fintype.linearIndependent_iff.mpr fun g hg i => ?_
  have h1 := congrArg (fun u => v i ⬝ᵥ K.mulVec u) hg
  simp only [mulVec_sum, dotProduct_sum, mulVec_smul, dotProduct_smul, smul_eq_mul, mulVec_zero, dotProduct_zero] at h1
  rw [Finset.sum_eq_single i (fun j _ hj => by rw [h i j hj.symm, mul_zero]) (by simp)] at h1
  have : 0 < v i ⬝ᵥ K.mulVec (v i) := by simpa using hK.dotProduct_mulVec_pos (h0 i)
  exact (mul_eq_zero.mp h1).resolve_right this.ne'

/-- The entries of the output are the multipliers in order. -/
theorem full_ordered (hK : K.PosDef) (hG : KG.IsSymm) {k : ℕ} {out : List (ℝ × (Fin N → ℝ))} (hf : EigshFull KG K k out) (hs : CayleySorted out)
    (h1 : ∀ mu, PosMult K KG mu → 1 ≤ mu) (i : ℕ) (hi : i < out.length) {c : ℝ} (hc : i + 1 ≤ numModes K KG c) :
    ∃ lam, IsKth K KG (i + 1) lam ∧ PosMult K KG lam ∧ out[i].1 = -1 / lam := by
  obtain ⟨lam, hkth, hpos, -⟩ := exists_kth hK hG (by omega) hc
  have hl1 := h1 lam hpos
  have hsym : ∀ u v : Fin N → ℝ, u ⬝ᵥ K.mulVec v = v ⬝ᵥ K.mulVec u := fun u v => by
    rw [dotProduct_mulVec, ← mulVec_transpose, dotProduct_comm, show Kᵀ = K from hK.isHermitian]
  have hmult : ∀ j (hj : j < out.length), out[j].1 < 0 → PosMult K KG (-1 / out[j].1) := fun j hj hneg => by
    obtain ⟨hv, hp⟩ := hf.pair _ (List.getElem_mem hj)
    have hp0 : 0 < -1 / out[j].1 := div_pos_of_neg_of_neg (by norm_num) hneg
    refine ⟨hp0, out[j].2, (buckles_pencil hp0.ne').mpr ⟨hv, ?_⟩⟩
    rw [hp]
    congr 1
    have := hneg.ne
    field_simp
  have hge : ∀ j (hj : j < out.length), out[j].1 < 0 → -1 ≤ out[j].1 := fun j hj hneg => by
    have := h1 _ (hmult j hj hneg)
    rw [le_div_iff_of_neg hneg] at this
    linarith
  have hle : ∀ j (hj : j < out.length), j ≤ i → |out[j].1 + 1| * |out[i].1 - 1| ≤ |out[i].1 + 1| * |out[j].1 - 1| := fun j hj hji => by
    rcases hji.lt_or_eq with h | rfl
    · exact List.pairwise_iff_getElem.mp hs j i hj hi h
    · exact le_of_eq (mul_comm _ _ |>.trans (by ring))
  -- the `i`-th entry is at most `lam`
  have up : out[i].1 < 0 ∧ -1 / out[i].1 ≤ lam := by
    by_contra hcon
    have hkey : ∀ j (hj : j < out.length), i ≤ j → ∀ mu, 0 < mu → mu ≤ lam → 1 ≤ mu → out[j].1 ≠ -1 / mu := fun j hj hij mu hmu hml hm1 he => by
      have h2 : |out[i].1 + 1| * |out[j].1 - 1| ≤ |out[j].1 + 1| * |out[i].1 - 1| := by
        rcases hij.lt_or_eq with h | rfl
        · exact List.pairwise_iff_getElem.mp hs i j hi hj h
        · exact le_of_eq (by ring)
      rw [he] at h2
      obtain ⟨a1, a2⟩ := key_first hm1 (hge i hi) h2
      exact hcon ⟨a1, a2.trans hml⟩
    let f : modes K KG lam →ₗ[ℝ] (Fin i → ℝ) :=
      { toFun := fun v j => out[j.1].2 ⬝ᵥ K.mulVec v.1
        map_add' := fun u v => funext fun j => by simp [mulVec_add, dotProduct_add]
        map_smul' := fun t v => funext fun j => by simp [mulVec_smul, dotProduct_smul] }
    have hker : LinearMap.ker f ≠ ⊥ := LinearMap.ker_ne_bot_of_finrank_lt (by
      rw [finrank_fin_fun]
      exact hkth.1)
    obtain ⟨⟨v, hv⟩, hvk, hv0⟩ := (Submodule.ne_bot_iff _).mp hker
    have hvo : ∀ j (hj : j < i), out[j].2 ⬝ᵥ K.mulVec v = 0 := fun j hj => congrFun (LinearMap.mem_ker.mp hvk) ⟨j, hj⟩
    obtain ⟨mu, hmu, hml, u, hu, huo⟩ := exists_component hK hG hpos.1 hv fun h => hv0 (by simp [h])
    have hm1 := h1 mu ⟨hmu, u, hu⟩
    obtain ⟨hu0, hup⟩ := (buckles_pencil hmu.ne').mp hu
    have := hf.rest _ u hu0 hup (fun q hq => by
      obtain ⟨j, hj, rfl⟩ := List.getElem_of_mem hq
      rcases lt_or_ge j i with h | h
      · exact huo _ _ (hf.pair _ (List.getElem_mem hj)).2 (hvo j h)
      · exact eigen_orth hK hG (hf.pair _ (List.getElem_mem hj)).2 hup (hkey j hj h mu hmu hml hm1)) _ (List.getElem_mem hi)
    obtain ⟨a1, a2⟩ := key_first hm1 (hge i hi) this
    exact hcon ⟨a1, a2.trans hml⟩
  -- and at least `lam`, because the entries before it are not larger
  have lo : lam ≤ -1 / out[i].1 := by
    have hmi := hmult i hi up.1
    have hm1 := h1 _ hmi
    set mu := -1 / out[i].1 with hmu
    have hei : out[i].1 = -1 / mu := by
      have := up.1.ne
      rw [hmu]
      field_simp
    refine hkth.2 ?_
    have hin : ∀ j : Fin (i + 1), out[j.1].2 ∈ modes K KG mu := fun j => by
      have hj : j.1 < out.length := by omega
      have h2 := hle j.1 hj (by omega)
      rw [hei] at h2
      obtain ⟨a1, a2⟩ := key_first hm1 (hge j.1 hj) h2
      obtain ⟨hv, hp⟩ := hf.pair _ (List.getElem_mem hj)
      have hp0 : 0 < -1 / out[j.1].1 := div_pos_of_neg_of_neg (by norm_num) a1
      refine Submodule.subset_span ⟨_, hp0, a2, (buckles_pencil hp0.ne').mpr ⟨hv, ?_⟩⟩
      rw [hp]
      congr 1
      have := a1.ne
      field_simp
    have hind : LinearIndependent ℝ fun j : Fin (i + 1) => out[j.1].2 := orth_indep hK
      (fun j => (hf.pair _ (List.getElem_mem _)).1) fun a b hab => by
        rcases lt_or_gt_of_ne (fun h => hab (Fin.ext h) : a.1 ≠ b.1) with h | h
        · exact List.pairwise_iff_getElem.mp hf.orth a.1 b.1 (by omega) (by omega) h
        · rw [hsym]
          exact List.pairwise_iff_getElem.mp hf.orth b.1 a.1 (by omega) (by omega) h
    have hcard := finrank_span_eq_card hind
    rw [Fintype.card_fin] at hcard
    show i + 1 ≤ finrank ℝ (modes K KG mu)
    rw [← hcard]
    exact Submodule.finrank_mono (Submodule.span_le.mpr (Set.range_subset_iff.mpr hin))
  refine ⟨lam, hkth, hpos, ?_⟩
  have := le_antisymm lo up.2
  have := up.1.ne
  rw [le_antisymm lo up.2]
  field_simp

/-- The contract with multiplicities can be met. -/
theorem exists_eigshFull (hK : K.PosDef) (hG : KG.IsSymm) (k : ℕ) (hk : k ≤ N) : ∃ out, EigshFull KG K k out ∧ CayleySorted out := by
  obtain ⟨P, w, hP, hw⟩ := exists_diag hK hG
  let x : Fin N → Fin N → ℝ := fun j => P.mulVec (Pi.single j 1)
  let le : ℝ × (Fin N → ℝ) → ℝ × (Fin N → ℝ) → Prop := fun p q => cayKey p.1 ≤ cayKey q.1
  let L := (List.ofFn fun j => (w j, x j)).insertionSort le
  have hL : L.Pairwise le := List.pairwise_insertionSort le _
  have hmem : ∀ q, q ∈ L ↔ ∃ j, (w j, x j) = q := fun q => by
    rw [List.mem_insertionSort, List.mem_ofFn]
  have hlen : L.length = N := by rw [List.length_insertionSort, List.length_ofFn]
  have hdot : ∀ i j, x i ⬝ᵥ K.mulVec (x j) = if i = j then 1 else 0 := fun i j => by
    simp only [x, diag_dot hP, single_dotProduct, Pi.single_apply, one_mul]
  have horth : L.Pairwise fun q q' => q.2 ⬝ᵥ K.mulVec q'.2 = 0 := by
    have hsym : ∀ u v : Fin N → ℝ, u ⬝ᵥ K.mulVec v = v ⬝ᵥ K.mulVec u := fun u v => by
      rw [dotProduct_mulVec, ← mulVec_transpose, dotProduct_comm, show Kᵀ = K from hK.isHermitian]
    refine ((List.perm_insertionSort le _).pairwise_iff fun {p q} h => by rw [hsym]; exact h).mpr ?_
    rw [List.pairwise_ofFn]
    intro i j hij
    rw [hdot, if_neg hij.ne]
  refine ⟨L.take k, ⟨by rw [List.length_take, hlen, min_eq_left hk], ?_, horth.sublist (List.take_sublist k L), ?_⟩,
    (hL.sublist (List.take_sublist k L)).imp fun h => cayKey_le.mp h⟩
  · intro q hq
    obtain ⟨j, rfl⟩ := (hmem q).mp (List.mem_of_mem_take hq)
    refine ⟨fun h => ?_, ?_⟩
    · have := hdot j j
      rw [if_pos rfl, show x j = 0 from h, zero_dotProduct] at this
      exact zero_ne_one this
    · show KG.mulVec (P.mulVec _) = w j • K.mulVec (P.mulVec _)
      rw [diag_pair hP hw]
      intro l
      rw [Pi.single_apply]
      split
      · next h => rw [h]
      · simp
  · intro t v hv h hno q hq
    rw [← diag_coord hP v] at h hv hno
    rw [diag_pair hP hw] at h
    set y := (Pᵀ * K).mulVec v
    obtain ⟨j, hj⟩ : ∃ j, y j ≠ 0 := by
      by_contra hn
      push Not at hn
      exact hv (by rw [show y = 0 from funext hn, mulVec_zero])
    have hwj : w j = t := mul_right_cancel₀ hj (h j)
    have hjL : (w j, x j) ∈ L := (hmem _).mpr ⟨j, rfl⟩
    rw [← List.take_append_drop k L] at hL hjL
    rcases List.mem_append.mp hjL with h1 | h1
    · have := hno _ h1
      simp only [x, diag_dot hP, single_dotProduct, one_mul] at this
      exact absurd this hj
    · have := (List.pairwise_append.mp hL).2.2 q hq _ h1
      rw [← hwj]
      exact cayKey_le.mp this

/-- Two pencils whose energies and works are comparable have comparable `k`-th multipliers. -/
theorem compare_kth {K1 G1 K2 G2 : SqMat N} (hK1 : K1.PosDef) (hK2 : K2.PosDef) (hG1 : G1.IsSymm) (hG2 : G2.IsSymm) {r t : ℝ} (hr : 0 < r)
    (ht : 0 < t) (hE : ∀ c, r * (c ⬝ᵥ K1.mulVec c) ≤ c ⬝ᵥ K2.mulVec c) (hW : ∀ c, 0 < -(c ⬝ᵥ G2.mulVec c) → -(c ⬝ᵥ G2.mulVec c) ≤ t * -(c ⬝ᵥ G1.mulVec c))
    {k : ℕ} (hk : 1 ≤ k) {lam : ℝ} (hl : IsKth K2 G2 k lam) : ∃ nu, IsKth K1 G1 k nu ∧ r * nu ≤ t * lam := by
  obtain ⟨l, hle, hpl, he⟩ := numModes_jump hK2 hG2 (hk.trans hl.1)
  have hlam : 0 < lam := hpl.1.trans_le hle
  have hcount := numModes_ge hK1 hG1 (c := t * lam / r) (by positivity) (modes K2 G2 lam) fun v hv => by
    have h0 := modes_energy hK2 hG2 lam hv
    by_cases hv0 : v = 0
    · simp [hv0]
    have hk2 : 0 < v ⬝ᵥ K2.mulVec v := by simpa using hK2.dotProduct_mulVec_pos hv0
    have hg : 0 < -(v ⬝ᵥ G2.mulVec v) := by
      by_contra hno
      push Not at hno
      nlinarith
    have h1 := hE v
    have h2 := mul_le_mul_of_nonneg_left (hW v hg) hlam.le
    have h3 : r * (v ⬝ᵥ K1.mulVec v) + t * lam * (v ⬝ᵥ G1.mulVec v) ≤ 0 := by linarith
    have e : v ⬝ᵥ K1.mulVec v + t * lam / r * (v ⬝ᵥ G1.mulVec v) = (r * (v ⬝ᵥ K1.mulVec v) + t * lam * (v ⬝ᵥ G1.mulVec v)) / r := by
      field_simp
    rw [e]
    exact div_nonpos_of_nonpos_of_nonneg h3 hr.le
  obtain ⟨nu, h1, -, h2⟩ := exists_kth hK1 hG1 hk (hl.1.trans hcount)
  refine ⟨nu, h1, ?_⟩
  rw [le_div_iff₀ hr] at h2
  linarith

end

/-- A solver that keeps the contract with multiplicities on every symmetric-definite pencil exists. -/
theorem exists_full : ∃ S : EigSolver, ∀ (N : ℕ) (A M : SqMat N), A.IsSymm → M.PosDef →
    (∀ k out, S N A M k = .ok out → EigshFull A M k out ∧ CayleySorted out) ∧ ∀ k ≤ N, ∃ out, S N A M k = .ok out := by
  classical
  let S : EigSolver := fun N A M k =>
    if h : ∃ out, EigshFull A M k out ∧ CayleySorted out then .ok h.choose else .error .valueError
  refine ⟨S, fun N A M hA hM => ⟨fun k out h => ?_, fun k hk => ?_⟩⟩
  · by_cases he : ∃ out, EigshFull A M k out ∧ CayleySorted out
    · simp only [S, dif_pos he] at h
      rw [← Except.ok.inj h]
      exact he.choose_spec
    · simp only [S, dif_neg he] at h
      cases h
  · have he := exists_eigshFull hM hA k hk
    exact ⟨he.choose, by simp only [S, dif_pos he]⟩

/-! ## The reported values -/

/-- **C109** if no positive multiplier is below 1 then the values that `buckling_analysis` reports are the positive multipliers in order, each
as often as its multiplicity, as far as there are any. -/
theorem C109_ordered (S : EigSolver) (D : Except PyErr M3) (cs : Constraints) (p : PlateNum) (hm : 1 ≤ p.m) (hn : 1 ≤ p.n) (numEig : ℤ)
    (st : PlateState (p.m * p.n)) (vals : List PyFloat) (vecs : List (Fin (p.m * p.n) → ℝ)) (hrun : (bucklingAnalysis S D cs p numEig st).1 = .ok (vals, vecs))
    (K KG : SqMat (p.m * p.n)) (h : calcKKGD shipped D cs p = .ok (K, KG)) (hpd : K.PosDef)
    (hS : ∀ k out, S _ KG K k = .ok out → EigshFull KG K k out ∧ CayleySorted out) (h1 : ∀ mu, PosMult K KG mu → 1 ≤ mu) :
    (vals.length : ℤ) = min numEig ((p.m * p.n : ℕ) - 2) ∧
    ∀ i < vals.length, ∀ c, i + 1 ≤ numModes K KG c → ∃ lam, vals[i]? = some (.fin lam) ∧ IsKth K KG (i + 1) lam ∧ PosMult K KG lam := by
  obtain ⟨_, K', KG', out, _, hK', hk, hout, rfl, rfl, _⟩ := buckling_inv hrun
  rw [h] at hK'
  obtain ⟨rfl, rfl⟩ := Prod.mk.inj (Except.ok.inj hK')
  obtain ⟨hf, hs⟩ := hS _ _ hout
  refine ⟨by rw [List.length_map, hf.len, Int.toNat_of_nonneg hk.le], fun i hi c hc => ?_⟩
  rw [List.length_map] at hi
  obtain ⟨lam, hkth, hpos, he⟩ := full_ordered hpd (C48_symmetric _ _ p hm hn K KG h).2 hf hs h1 i hi hc
  refine ⟨lam, ?_, hkth, hpos⟩
  have hl := hpos.1
  rw [List.getElem?_map, List.getElem?_eq_getElem hi, Option.map_some, he, npDiv, if_neg (div_ne_zero (by norm_num) hl.ne')]
  congr 2
  field_simp

/-- **C109** clamped plates with at most 26 by 26 terms, compressed in every direction, no multiplier below 1: all the reported values are the
multipliers in order. -/
theorem C109_clamped (S : EigSolver) (D : M3) (hD : D.PosDef) (p : PlateNum) (ha : 0 < p.a) (hb : 0 < p.b) (hm : 1 ≤ p.m) (hn : 1 ≤ p.n)
    (hm' : p.m ≤ 26) (hn' : p.n ≤ 26) (n0 : ℝ) (hc : Compressed p n0) (numEig : ℤ) (st : PlateState (p.m * p.n)) (vals : List PyFloat)
    (vecs : List (Fin (p.m * p.n) → ℝ)) (hrun : (bucklingAnalysis S (.ok D) (.str wCLAMPED) p numEig st).1 = .ok (vals, vecs))
    (K KG : SqMat (p.m * p.n)) (h : calcKKGD shipped (.ok D) (.str wCLAMPED) p = .ok (K, KG))
    (hS : ∀ k out, S _ KG K k = .ok out → EigshFull KG K k out ∧ CayleySorted out) (h1 : ∀ mu, PosMult K KG mu → 1 ≤ mu) :
    ∀ i < vals.length, ∃ lam, vals[i]? = some (.fin lam) ∧ IsKth K KG (i + 1) lam ∧ PosMult K KG lam := by
  have hsym : D.IsSymm := hD.isHermitian
  have hpd : K.PosDef := clamped_posDef hD ha hb hm hn hm' hn' h
  obtain ⟨hlen, hall⟩ := C109_ordered S _ _ p hm hn numEig st vals vecs hrun K KG h hpd hS h1
  obtain ⟨M, hM⟩ : ∃ M, ∀ i j, |D i j| ≤ M :=
    ⟨∑ i, ∑ j, |D i j|, fun i j => (Finset.single_le_sum (f := fun j => |D i j|) (fun _ _ => abs_nonneg _) (Finset.mem_univ j)).trans
      (Finset.single_le_sum (f := fun i => ∑ j, |D i j|) (fun _ _ => Finset.sum_nonneg fun _ _ => abs_nonneg _) (Finset.mem_univ i))⟩
  have hM0 : 0 < M := lt_of_lt_of_le (abs_pos.mpr (hD.diag_pos (i := 0)).ne') (hM 0 0)
  have hcount := C108_all_clamped D hD (3 * M) n0 (below_of_up hsym hM) (by linarith) p ha hb hm hn hm' hn' hc K KG h
  intro i hi
  refine hall i hi _ (le_trans ?_ hcount.ge)
  have : (i : ℤ) < vals.length := by exact_mod_cast hi
  have := min_le_right numEig (((p.m * p.n : ℕ) : ℤ) - 2)
  omega

/-- **C109** without shear and under compression: the `k`-th multipliers of the computed and of the exactly integrated matrices differ by a
relative amount of the order of the accuracy of the tables, and one exists if and only if the other does. -/
theorem C109_accuracy (D : M3) (mu M : ℝ) (hD : Between D mu M) (cs : Constraints) (p : PlateNum) (ha : 0 < p.a) (hb : 0 < p.b)
    (hm : 1 ≤ p.m) (hn : 1 ≤ p.n) (e : Edges) (he : chooseEdges cs = .ok e) (hh : EdgesHeld e) (hx : p.Nxx ≤ 0) (hy : p.Nyy ≤ 0)
    (hxy : p.Nxy = 0) (hcond : bendErr p mu M < 1) (K KG : SqMat (p.m * p.n)) (h : calcKKGD shipped (.ok D) cs p = .ok (K, KG))
    (Ke KGe : SqMat (p.m * p.n)) (h' : calcKKGD exactReaders (.ok D) cs p = .ok (Ke, KGe)) (k : ℕ) (hk : 1 ≤ k) :
    ((∃ lam, IsKth K KG k lam) ↔ ∃ nu, IsKth Ke KGe k nu) ∧ ∀ lam nu, IsKth K KG k lam → IsKth Ke KGe k nu →
      (1 - bendErr p mu M) * nu ≤ (1 + tableAcc p.m p.n) * lam ∧ (1 - tableAcc p.m p.n) * lam ≤ (1 + bendErr p mu M) * nu := by
  obtain ⟨s, hs⟩ := (C40_accepted_iff cs p.m p.n).mpr ⟨_, he⟩
  obtain ⟨K', KG', hK', hen⟩ := C49_energy D hD.symm cs p s hs ha.ne' hb.ne'
  obtain ⟨rfl, rfl⟩ := Prod.mk.inj (Except.ok.inj (h'.symm.trans hK'))
  have hpd := C100_posDef D mu M hD cs p ha hb hm hn e he hh hcond K KG h
  have hr := C100_relative D mu M hD cs p ha hb hm hn e he hh K KG h s hs
  have hw := C100_work D hD.symm cs p ha hb hm hn e he hh hx hy hxy K KG h s hs
  have hacc := tableAcc_pos p.m p.n
  have hacc1 : tableAcc p.m p.n < 1 := by unfold tableAcc; split_ifs <;> norm_num
  have hber : 0 ≤ bendErr p mu M := by
    have := hD.pos
    have := hD.M_nonneg
    unfold bendErr
    positivity
  obtain ⟨sK, sKG⟩ := C48_symmetric _ _ p hm hn K KG h
  obtain ⟨sKe, sKGe⟩ : Ke.IsSymm ∧ KGe.IsSymm := exact_symm_ok ha.ne' hb.ne' h' hs
  have hpde : Ke.PosDef := posDef_of_pos sKe fun c hc => by
    rw [(hen c).1]
    exact C87_supported D hD.posDef cs p ha hb s hs e he (.inl (.inl ⟨hh.1, .inr (.inl hh.2.1)⟩)) c hc
  have g1 : 0 < 1 - tableAcc p.m p.n := by linarith
  have g2 : 0 < 1 + bendErr p mu M := by linarith
  have fwd : ∀ lam, IsKth K KG k lam → ∃ nu, IsKth Ke KGe k nu ∧ (1 - bendErr p mu M) * nu ≤ (1 + tableAcc p.m p.n) * lam := fun lam hl => by
    refine compare_kth hpde hpd sKGe sKG (by linarith) (by linarith) (fun c => ?_) (fun c _ => ?_) hk hl
    · rw [(hen c).1]
      linarith [(abs_le.mp (hr c)).1]
    · rw [(hen c).2]
      linarith [(abs_le.mp (hw c)).1]
  have bwd : ∀ nu, IsKth Ke KGe k nu → ∃ lam, IsKth K KG k lam ∧ (1 - tableAcc p.m p.n) * lam ≤ (1 + bendErr p mu M) * nu := fun nu hl => by
    obtain ⟨lam, hp, hle⟩ := compare_kth (r := 1 / (1 + bendErr p mu M)) (t := 1 / (1 - tableAcc p.m p.n)) hpd hpde sKG sKGe (by positivity)
      (by positivity) (fun c => by
        rw [div_mul_eq_mul_div, one_mul, div_le_iff₀ g2, (hen c).1]
        linarith [(abs_le.mp (hr c)).2]) (fun c _ => by
        rw [div_mul_eq_mul_div, one_mul, le_div_iff₀ g1, (hen c).2]
        linarith [(abs_le.mp (hw c)).2]) hk hl
    refine ⟨lam, hp, ?_⟩
    rw [div_mul_eq_mul_div, div_mul_eq_mul_div, div_le_div_iff₀ g2 g1] at hle
    linarith
  refine ⟨⟨fun ⟨l, hl⟩ => (fwd l hl).imp fun _ h => h.1, fun ⟨l, hl⟩ => (bwd l hl).imp fun _ h => h.1⟩, fun lam nu hl hnu => ⟨?_, ?_⟩⟩
  · obtain ⟨nu', h1, h2⟩ := fwd lam hl
    rwa [h1.unique hnu] at h2
  · obtain ⟨lam', h1, h2⟩ := bwd nu hnu
    rwa [h1.unique hl] at h2

/-- **C109** end to end: with a solver that keeps the contract of `eigsh`, every value that `buckling_analysis` reports for a compressed held
plate agrees with the multiplier of the same rank of the exact energies to the accuracy of the tables, provided the first of these exceeds 1
by that accuracy. -/
theorem C109_reported (S : EigSolver) (D : M3) (mu M : ℝ) (hD : Between D mu M) (cs : Constraints) (p : PlateNum) (ha : 0 < p.a)
    (hb : 0 < p.b) (hm : 1 ≤ p.m) (hn : 1 ≤ p.n) (e : Edges) (he : chooseEdges cs = .ok e) (hh : EdgesHeld e) (hx : p.Nxx ≤ 0)
    (hy : p.Nyy ≤ 0) (hxy : p.Nxy = 0) (hcond : bendErr p mu M < 1) (K KG : SqMat (p.m * p.n))
    (h : calcKKGD shipped (.ok D) cs p = .ok (K, KG)) (hS : ∀ k out, S _ KG K k = .ok out → EigshFull KG K k out ∧ CayleySorted out)
    (Ke KGe : SqMat (p.m * p.n)) (h' : calcKKGD exactReaders (.ok D) cs p = .ok (Ke, KGe))
    (hone : ∀ nu, PosMult Ke KGe nu → 1 + tableAcc p.m p.n ≤ (1 - bendErr p mu M) * nu)
    (numEig : ℤ) (st : PlateState (p.m * p.n)) (vals : List PyFloat) (vecs : List (Fin (p.m * p.n) → ℝ))
    (hrun : (bucklingAnalysis S (.ok D) cs p numEig st).1 = .ok (vals, vecs)) (i : ℕ) (hi : i < vals.length) (nu : ℝ) (hnu : IsKth Ke KGe (i + 1) nu) :
    ∃ lam, vals[i]? = some (.fin lam) ∧
      (1 - bendErr p mu M) * nu ≤ (1 + tableAcc p.m p.n) * lam ∧ (1 - tableAcc p.m p.n) * lam ≤ (1 + bendErr p mu M) * nu := by
  obtain ⟨hiff, hcmp⟩ := C109_accuracy D mu M hD cs p ha hb hm hn e he hh hx hy hxy hcond K KG h Ke KGe h' (i + 1) (by omega)
  have hpd := C100_posDef D mu M hD cs p ha hb hm hn e he hh hcond K KG h
  have hacc := tableAcc_pos p.m p.n
  have h1 : ∀ l, PosMult K KG l → 1 ≤ l := fun l hl => by
    obtain ⟨nu', h1, h2⟩ := (C100_multipliers D mu M hD cs p ha hb hm hn e he hh hx hy hxy hcond K KG h Ke KGe h').1 l hl
    have := (hone nu' h1).trans h2
    nlinarith
  obtain ⟨l, hl⟩ := hiff.mpr ⟨nu, hnu⟩
  obtain ⟨lam, hv, hk, -⟩ := (C109_ordered S _ _ p hm hn numEig st vals vecs hrun K KG h hpd hS h1).2 i hi l hl.1
  exact ⟨lam, hv, hcmp lam nu hk hnu⟩

/-- Non-vacuity: the clamped unit square with the identity as stiffness under unit compression in both directions has no multiplier below 1,
and `buckling_analysis` with some solver that keeps the contract reports seven values for three terms each way. -/
example : ∃ S : EigSolver, ∃ K KG : SqMat (3 * 3), ∃ vals vecs, calcKKGD shipped (.ok 1) (.str wCLAMPED) ⟨1, 1, -1, -1, 0, 3, 3⟩ = .ok (K, KG) ∧
    (∀ k out, S _ KG K k = .ok out → EigshFull KG K k out ∧ CayleySorted out) ∧ (∀ mu, PosMult K KG mu → 1 ≤ mu) ∧
    Compressed ⟨1, 1, -1, -1, 0, 3, 3⟩ 1 ∧
    (bucklingAnalysis S (.ok 1) (.str wCLAMPED) ⟨1, 1, -1, -1, 0, 3, 3⟩ 7 (PlateState.fresh _)).1 = .ok (vals, vecs) := by
  obtain ⟨S, hS⟩ := exists_full
  obtain ⟨s, K, KG, hs, hK, -⟩ := C49_energy_clamped 1 Matrix.isSymm_one ⟨1, 1, -1, -1, 0, 3, 3⟩ (by norm_num) (by norm_num) (by norm_num) (by norm_num)
  have hpd : K.PosDef := clamped_posDef (p := ⟨1, 1, -1, -1, 0, 3, 3⟩) PosDef.one (by norm_num) (by norm_num) (by norm_num) (by norm_num) (by norm_num) (by norm_num) hK
  have hsym := (C48_symmetric _ _ ⟨1, 1, -1, -1, 0, 3, 3⟩ (by norm_num) (by norm_num) K KG hK).2
  obtain ⟨h1, h2⟩ := hS _ KG K hsym hpd
  obtain ⟨out, hout⟩ := h2 7 (by norm_num)
  refine ⟨S, K, KG, out.map (fun q => npDiv (-1) q.1), out.map Prod.snd, hK, h1, fun mu hmu => ?_, ⟨one_pos, 1, one_pos, by norm_num, by norm_num⟩, ?_⟩
  · obtain ⟨i, j, hi, hj, h⟩ := C99_clamped 1 1 PosDef.one ⟨PosSemidef.one, by simp, by simp⟩ (by rw [sub_self]; exact PosSemidef.zero)
      ⟨1, 1, -1, -1, 0, 3, 3⟩ (by norm_num) (by norm_num) (by norm_num) (by norm_num) (by norm_num) (by norm_num) rfl K KG hK mu hmu
    have hw : ∀ n : ℕ, 1 ≤ n → 1 ≤ wave 1 n := fun n hn => by
      have : (1 : ℝ) ≤ n := by exact_mod_cast hn
      have := Real.pi_gt_three
      unfold wave
      rw [div_one]
      nlinarith [mul_le_mul this.le ‹(1 : ℝ) ≤ n› (by norm_num) Real.pi_pos.le]
    have w1 := hw i hi
    have w2 := hw j hj
    simp only [navierStiff, Matrix.one_apply_eq, Matrix.one_apply_ne (show (0 : Fin 3) ≠ 1 by decide)] at h
    by_contra hlt
    push Not at hlt
    nlinarith [mul_pos (by linarith : 0 < wave 1 i + wave 1 j) (by linarith : 0 < 1 - mu)]
  · have hc : eigshCall S KG K (min 7 ((3 * 3 : ℕ) - 2 : ℤ)) = .ok out := by
      rw [eigshCall, if_neg (by norm_num)]
      exact hout
    unfold bucklingAnalysis
    simp only [hs, hK]
    rw [hc]

end Composipy
