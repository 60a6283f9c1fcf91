import Verif.Props.Modes
import Verif.Props.Accuracy

/-!
# C137: releasing supports never raises a buckling load, given the terms to follow
-/

namespace Composipy
open Spec Matrix Polynomial MeasureTheory Verif Module

/-! ## Specification -/

/-- The supports of the `x` edges that count for `w`: deflection and slope at `x = 0`, deflection and slope at `x = a`. -/
def Spec.xSupports (e : Edges) : List Bool := [e.x0.has TZ, e.x0.has RZ, e.xa.has TZ, e.xa.has RZ]

/-- The same for the `y` edges, with the flags the code looks at there (structure.py:254-255). -/
def Spec.ySupports (e : Edges) : List Bool := [e.y0.has TX, e.y0.has RX, e.yb.has TX, e.yb.has RX]

/-- Every support of `e'` is a support of `e`. -/
def Spec.Releases (e e' : Edges) : Prop :=
  (∀ q ∈ (xSupports e).zip (xSupports e'), q.2 = true → q.1 = true) ∧ ∀ q ∈ (ySupports e).zip (ySupports e'), q.2 = true → q.1 = true

/-- `m'` terms are at least `m` plus one for each support of `s` that is missing in `s'`. -/
def Spec.Enough (s s' : List Bool) (m m' : ℕ) : Prop := m + s.count true ≤ m' + s'.count true

/-! ## Index lists -/

/-- The first kept numbers stay when supports are released and a term is added for each. -/
theorem first_release (t0 r0 t1 r1 t0' r0' t1' r1' : Bool) (h : ∀ q ∈ [t0, r0, t1, r1].zip [t0', r0', t1', r1'], q.2 = true → q.1 = true)
    {m m' : ℕ} (hm : Enough [t0, r0, t1, r1] [t0', r0', t1', r1'] m m') {l l' : List ℕ}
    (h1 : IsFirst m (Kept (t0 = true) (r0 = true) (t1 = true) (r1 = true)) l)
    (h2 : IsFirst m' (Kept (t0' = true) (r0' = true) (t1' = true) (r1' = true)) l') : ∀ i ∈ l, i ∈ l' := by
  simp only [List.zip_cons_cons, List.zip_nil_right, List.mem_cons, List.not_mem_nil, or_false, forall_eq_or_imp, forall_eq] at h
  obtain ⟨k0, k1, k2, k3⟩ := h
  let rel : List ℕ := (if t0 = t0' then [] else [0]) ++ (if r0 = r0' then [] else [1]) ++ (if t1 = t1' then [] else [2]) ++
    (if r1 = r1' then [] else [3])
  have hrel : rel.length + [t0', r0', t1', r1'].count true = [t0, r0, t1, r1].count true := by
    revert k0 k1 k2 k3
    simp only [rel]
    cases t0 <;> cases t0' <;> cases r0 <;> cases r0' <;> cases t1 <;> cases t1' <;> cases r1 <;> cases r1' <;> simp
  have hkept : ∀ j, Kept (t0' = true) (r0' = true) (t1' = true) (r1' = true) j → j ∉ rel → Kept (t0 = true) (r0 = true) (t1 = true) (r1 = true) j := by
    intro j hj hn
    simp only [rel, List.mem_append, not_or] at hn
    obtain ⟨⟨⟨n0, n1⟩, n2⟩, n3⟩ := hn
    obtain ⟨j0, j1, j2, j3⟩ := hj
    refine ⟨?_, ?_, ?_, ?_⟩
    · rintro ⟨rfl, ht⟩
      refine n0 ?_
      rw [if_neg]
      · simp
      · rintro rfl
        exact j0 ⟨rfl, ht⟩
    · rintro ⟨rfl, ht⟩
      refine n1 ?_
      rw [if_neg]
      · simp
      · rintro rfl
        exact j1 ⟨rfl, ht⟩
    · rintro ⟨rfl, ht⟩
      refine n2 ?_
      rw [if_neg]
      · simp
      · rintro rfl
        exact j2 ⟨rfl, ht⟩
    · rintro ⟨rfl, ht⟩
      refine n3 ?_
      rw [if_neg]
      · simp
      · rintro rfl
        exact j3 ⟨rfl, ht⟩
  intro i hi
  by_contra hn
  have hi' : Kept (t0' = true) (r0' = true) (t1' = true) (r1' = true) i := by
    obtain ⟨i0, i1, i2, i3⟩ := h1.sound i hi
    exact ⟨fun h => i0 ⟨h.1, k0 h.2⟩, fun h => i1 ⟨h.1, k1 h.2⟩, fun h => i2 ⟨h.1, k2 h.2⟩, fun h => i3 ⟨h.1, k3 h.2⟩⟩
  have hlt : ∀ j ∈ l', j < i := fun j hj => by
    rcases Nat.lt_trichotomy j i with h | rfl | h
    · exact h
    · exact absurd hj hn
    · exact absurd (h2.complete j hj i h hi') hn
  have hnd : (i :: l').Nodup := List.nodup_cons.mpr ⟨hn, h2.sorted.imp fun h => Nat.ne_of_lt h⟩
  have hsub : i :: l' ⊆ l ++ rel := List.cons_subset.mpr ⟨List.mem_append_left _ hi, fun j hj => by
    by_cases hr : j ∈ rel
    · exact List.mem_append_right _ hr
    · exact List.mem_append_left _ (h1.complete i hi j (hlt j hj) (hkept j (h2.sound j hj) hr))⟩
  have hlen := (List.subperm_of_subset hnd hsub).length_le
  rw [List.length_cons, List.length_append, h1.len, h2.len] at hlen
  unfold Enough at hm
  omega

theorem w_release {c c' : Constraints} {e e' : Edges} (he : chooseEdges c = .ok e) (he' : chooseEdges c' = .ok e') (hr : Releases e e')
    {m n m' n' : ℕ} (hm : Enough (xSupports e) (xSupports e') m m') (hn : Enough (ySupports e) (ySupports e') n n') {s s' : ShapeIdx}
    (h : computeIdx c m n = .ok s) (h' : computeIdx c' m' n' = .ok s') : ∀ q ∈ s.w, q ∈ s'.w := by
  obtain ⟨e1, xs, ys, h1, hw, hx, hy⟩ := w_lists h
  obtain ⟨e1', xs', ys', h1', hw', hx', hy'⟩ := w_lists h'
  obtain rfl : e = e1 := Except.ok.inj (he.symm.trans h1)
  obtain rfl : e' = e1' := Except.ok.inj (he'.symm.trans h1')
  intro q hq
  rw [hw] at hq
  rw [hw']
  have := List.mem_product.mp (show (q.1, q.2) ∈ xs ×ˢ ys from hq)
  exact List.mem_product.mpr ⟨first_release _ _ _ _ _ _ _ _ hr.1 hm hx hx' _ this.1, first_release _ _ _ _ _ _ _ _ hr.2 hn hy hy' _ this.2⟩

theorem enough_le {a0 a1 a2 a3 b0 b1 b2 b3 : Bool} {x y : ℕ} (hq : ∀ q ∈ [a0, a1, a2, a3].zip [b0, b1, b2, b3], q.2 = true → q.1 = true)
    (hxy : Enough [a0, a1, a2, a3] [b0, b1, b2, b3] x y) : x ≤ y := by
  have : [b0, b1, b2, b3].count true ≤ [a0, a1, a2, a3].count true := by
    revert hq
    cases a0 <;> cases a1 <;> cases a2 <;> cases a3 <;> cases b0 <;> cases b1 <;> cases b2 <;> cases b3 <;> simp
  unfold Enough at hxy
  omega

/-! ## Matrices -/

/-- A problem that is part of another one. -/
theorem part_modes {N N' : ℕ} {K KG : SqMat N} {K' KG' : SqMat N'} {e : Fin N → Fin N'} (he : Function.Injective e)
    (hK : ∀ r c, K' (e r) (e c) = K r c) (hG : ∀ r c, KG' (e r) (e c) = KG r c) (sK : K.IsSymm) (sG : KG.IsSymm)
    (hpd' : K'.PosDef) (sG' : KG'.IsSymm) :
    K.PosDef ∧ (∀ l > 0, numModes K KG l ≤ numModes K' KG' l) ∧ (∀ k lam, 1 ≤ k → IsKth K KG k lam → ∃ mu ≤ lam, IsKth K' KG' k mu) ∧
      ∀ lam, PosMult K KG lam → ∃ mu ≤ lam, PosMult K' KG' mu := by
  have hne : ∀ v : Fin N → ℝ, v ≠ 0 → extendBy e v ≠ 0 := fun v hv h0 => hv (by
    funext r
    rw [← extendBy_apply he v r, h0]
    rfl)
  have hpd : K.PosDef := posDef_of_pos sK fun v hv => by
    rw [← extendBy_quad hK v]
    have := hpd'.dotProduct_mulVec_pos (hne v hv)
    simpa using this
  have count : ∀ l > 0, numModes K KG l ≤ numModes K' KG' l := fun l hl => by
    have hneg := fun v => modes_energy hpd sG l (v := v)
    let f : (Fin N → ℝ) →ₗ[ℝ] (Fin N' → ℝ) :=
      { toFun := extendBy e
        map_add' := fun u v => funext fun j => by simp only [extendBy, Pi.add_apply, ← Finset.sum_add_distrib]; exact Finset.sum_congr rfl fun r _ => by split <;> simp
        map_smul' := fun t v => funext fun j => by simp [extendBy, Finset.mul_sum] }
    have hf : Function.Injective f := fun u v huv => funext fun r => by
      rw [← extendBy_apply he u r, ← extendBy_apply he v r]
      exact congrFun huv (e r)
    rw [numModes, (Submodule.equivMapOfInjective f hf _).finrank_eq]
    refine numModes_ge hpd' sG' hl _ ?_
    rintro _ ⟨v, hv, rfl⟩
    show extendBy e v ⬝ᵥ K'.mulVec (extendBy e v) + l * (extendBy e v ⬝ᵥ KG'.mulVec (extendBy e v)) ≤ 0
    rw [extendBy_quad hK, extendBy_quad hG]
    exact hneg v hv
  refine ⟨hpd, count, fun k lam hk hlam => ?_, ?_⟩
  · obtain ⟨l, hle, hl, he⟩ := numModes_jump hpd sG (hk.trans hlam.1)
    obtain ⟨mu, h1, -, h2⟩ := exists_kth hpd' sG' hk (show k ≤ numModes K' KG' l from (he ▸ hlam.1 : k ≤ numModes K KG l).trans (count l hl.1))
    exact ⟨mu, h2.trans hle, h1⟩
  · rintro lam ⟨hpos, v, hv⟩
    refine posMult_le hpd' sG' (hne v hv.1) hpos (le_of_eq ?_)
    rw [extendBy_quad hK, extendBy_quad hG]
    exact buckles_energy hv

/-- **C137** releasing supports never lowers the number of multipliers up to any load factor and never raises a multiplier, when a term is
added for each released support: with the shipped tables, whenever the released `K` is positive definite. -/
theorem C137_shipped (D : M3) (c c' : Constraints) (e e' : Edges) (he : chooseEdges c = .ok e) (he' : chooseEdges c' = .ok e')
    (hr : Releases e e') (p : PlateNum) (m' n' : ℕ) (hm : 1 ≤ p.m) (hn : 1 ≤ p.n) (hm' : Enough (xSupports e) (xSupports e') p.m m')
    (hn' : Enough (ySupports e) (ySupports e') p.n n') (K KG : SqMat (p.m * p.n)) (h : calcKKGD shipped (.ok D) c p = .ok (K, KG))
    (K' KG' : SqMat (m' * n')) (h' : calcKKGD shipped (.ok D) c' { p with m := m', n := n' } = .ok (K', KG')) (hpd' : K'.PosDef) :
    K.PosDef ∧ (∀ l > 0, numModes K KG l ≤ numModes K' KG' l) ∧ (∀ k lam, 1 ≤ k → IsKth K KG k lam → ∃ mu ≤ lam, IsKth K' KG' k mu) ∧
      ∀ lam, PosMult K KG lam → ∃ mu ≤ lam, PosMult K' KG' mu := by
  have hm1 : 1 ≤ m' := hm.trans (enough_le hr.1 hm')
  have hn1 : 1 ≤ n' := hn.trans (enough_le hr.2 hn')
  obtain ⟨sK, sG⟩ := C48_symmetric _ _ p hm hn K KG h
  have sG' := (C48_symmetric _ _ { p with m := m', n := n' } hm1 hn1 K' KG' h').2
  obtain ⟨M, i, hM, hi, -, -, -, rfl, rfl⟩ := calcKKGD_inv hm hn h
  obtain ⟨M', i', hM', hi', -, -, -, rfl, rfl⟩ := calcKKGD_inv (p := { p with m := m', n := n' }) hm1 hn1 h'
  cases hM; cases hM'
  dsimp only at hi'
  have g1 := (C40_sizes c _ _ i hi).2.2
  have g2 := (C40_sizes c' _ _ i' hi').2.2
  obtain ⟨f, hf, hfv⟩ := exists_embed g1.len g2.len g1.nodup (w_release he he' hr hm' hn' hi hi')
  refine part_modes hf (fun r c => ?_) (fun r c => ?_) sK sG hpd' sG'
  · show k33v _ _ _ _ (i'.w.getD (f r) (0, 0)) (i'.w.getD (f c) (0, 0)) = k33v _ _ _ _ _ _
    rw [hfv, hfv]
  · show g33v _ _ _ _ _ _ (i'.w.getD (f r) (0, 0)) (i'.w.getD (f c) (0, 0)) = g33v _ _ _ _ _ _ _ _
    rw [hfv, hfv]

/-- **C137** with exact integrals, for every positive definite `D`, as long as the released plate is still held. -/
theorem C137_exact (D : M3) (hD : D.PosDef) (c c' : Constraints) (e e' : Edges) (he : chooseEdges c = .ok e) (he' : chooseEdges c' = .ok e')
    (hr : Releases e e') (hheld : Held (e'.x0.has TZ) (e'.x0.has RZ) (e'.xa.has TZ) (e'.xa.has RZ) ∨ Held (e'.y0.has TX) (e'.y0.has RX) (e'.yb.has TX) (e'.yb.has RX))
    (p : PlateNum) (ha : 0 < p.a) (hb : 0 < p.b) (m' n' : ℕ) (hm' : Enough (xSupports e) (xSupports e') p.m m')
    (hn' : Enough (ySupports e) (ySupports e') p.n n') :
    ∃ (K KG : SqMat (p.m * p.n)) (K' KG' : SqMat (m' * n')), calcKKGD exactReaders (.ok D) c p = .ok (K, KG) ∧
      calcKKGD exactReaders (.ok D) c' { p with m := m', n := n' } = .ok (K', KG') ∧ (∀ l > 0, numModes K KG l ≤ numModes K' KG' l) ∧
      (∀ k lam, 1 ≤ k → IsKth K KG k lam → ∃ mu ≤ lam, IsKth K' KG' k mu) ∧ ∀ lam, PosMult K KG lam → ∃ mu ≤ lam, PosMult K' KG' mu := by
  obtain ⟨i, hi⟩ := (C40_accepted_iff c p.m p.n).mpr ⟨e, he⟩
  obtain ⟨i', hi'⟩ := (C40_accepted_iff c' m' n').mpr ⟨e', he'⟩
  have hK := calcKKGD_ok exact_ok D c p i hi ha.ne' hb.ne' fun _ _ => ⟨trivial, trivial⟩
  have hK' := calcKKGD_ok exact_ok D c' { p with m := m', n := n' } i' hi' ha.ne' hb.ne' fun _ _ => ⟨trivial, trivial⟩
  have s1 := exact_symm_ok ha.ne' hb.ne' hK hi
  have s2 := exact_symm_ok (p := { p with m := m', n := n' }) ha.ne' hb.ne' hK' hi'
  obtain ⟨K1, KG1, h1, hen⟩ := C49_energy D hD.isHermitian c' { p with m := m', n := n' } i' hi' ha.ne' hb.ne'
  obtain ⟨rfl, rfl⟩ := Prod.mk.inj (Except.ok.inj (hK'.symm.trans h1))
  have hpd' := posDef_of_pos s2.1 fun v hv => by
    rw [(hen v).1]
    exact C87_supported D hD c' { p with m := m', n := n' } ha hb i' hi' e' he' hheld v hv
  refine ⟨_, _, _, _, hK, hK', ?_⟩
  have g1 := (C40_sizes c _ _ i hi).2.2
  have g2 := (C40_sizes c' _ _ i' hi').2.2
  obtain ⟨f, hf, hfv⟩ := exists_embed g1.len g2.len g1.nodup (w_release he he' hr hm' hn' hi hi')
  refine (part_modes hf (fun r c => ?_) (fun r c => ?_) s1.1 s1.2 hpd' s2.2).2
  · show k33v _ _ _ _ (i'.w.getD (f r) (0, 0)) (i'.w.getD (f c) (0, 0)) = k33v _ _ _ _ _ _
    rw [hfv, hfv]
  · show g33v _ _ _ _ _ _ (i'.w.getD (f r) (0, 0)) (i'.w.getD (f c) (0, 0)) = g33v _ _ _ _ _ _ _ _
    rw [hfv, hfv]

/-- **C137** in the limit of many terms (C108), releasing supports never raises a load, with no condition on the numbers of terms: the load
factors over admissible deflections only grow, so the limit of the `k`-th multiplier can only fall. -/
theorem C137_limit (D : M3) (e e' : Edges) (hr : Releases e e') (a b nx ny nt : ℝ) (k : ℕ) :
    levels D e a b nx ny nt k ⊆ levels D e' a b nx ny nt k ∧
      ∀ t t', IsGLB (levels D e a b nx ny nt k) t → IsGLB (levels D e' a b nx ny nt k) t' → t' ≤ t := by
  obtain ⟨h1, h2⟩ := hr
  simp only [xSupports, ySupports, List.zip_cons_cons, List.zip_nil_right, List.mem_cons, List.not_mem_nil, or_false, forall_eq_or_imp, forall_eq] at h1 h2
  obtain ⟨x0, x1, x2, x3⟩ := h1
  obtain ⟨y0, y1, y2, y3⟩ := h2
  have hsub : levels D e a b nx ny nt k ⊆ levels D e' a b nx ny nt k := by
    rintro c ⟨hc, w, hw, hE⟩
    refine ⟨hc, w, fun i => ?_, hE⟩
    obtain ⟨W, hs, h0, hx, hy⟩ := hw i
    exact ⟨W, hs, h0, fun y m => ⟨fun h => (hx y m).1 (x0 h), fun h => (hx y m).2.1 (x1 h), fun h => (hx y m).2.2.1 (x2 h), fun h => (hx y m).2.2.2 (x3 h)⟩,
      fun x m => ⟨fun h => (hy x m).1 (y0 h), fun h => (hy x m).2.1 (y1 h), fun h => (hy x m).2.2.1 (y2 h), fun h => (hy x m).2.2.2 (y3 h)⟩⟩
  exact ⟨hsub, fun t t' ht ht' => ht.2 fun c hc => ht'.1 (hsub hc)⟩

/-- **C137** `'PINNED'` and `'CLAMPED'`: with two more terms in each direction the pinned plate has every multiplier at or below that of
the clamped plate, for every laminate and load. -/
theorem C137_named (D : M3) (hD : D.PosDef) (p : PlateNum) (ha : 0 < p.a) (hb : 0 < p.b) (m' n' : ℕ) (hm' : p.m + 2 ≤ m') (hn' : p.n + 2 ≤ n') :
    ∃ (K KG : SqMat (p.m * p.n)) (K' KG' : SqMat (m' * n')), calcKKGD exactReaders (.ok D) (.str wCLAMPED) p = .ok (K, KG) ∧
      calcKKGD exactReaders (.ok D) (.str wPINNED) { p with m := m', n := n' } = .ok (K', KG') ∧ (∀ l > 0, numModes K KG l ≤ numModes K' KG' l) ∧
      (∀ k lam, 1 ≤ k → IsKth K KG k lam → ∃ mu ≤ lam, IsKth K' KG' k mu) ∧ ∀ lam, PosMult K KG lam → ∃ mu ≤ lam, PosMult K' KG' mu := by
  have h1 : chooseEdges (.str wCLAMPED) = .ok ⟨.flags clampedFlags, .flags clampedFlags, .flags clampedFlags, .flags clampedFlags⟩ := rfl
  have h2 : chooseEdges (.str wPINNED) = .ok ⟨.flags pinnedFlags, .flags pinnedFlags, .flags pinnedFlags, .flags pinnedFlags⟩ := rfl
  refine C137_exact D hD _ _ _ _ h1 h2 ⟨by decide, by decide⟩ (.inl ?_) p ha hb m' n' ?_ ?_
  · exact .inl ⟨by decide, .inr (.inl (by decide))⟩
  · show p.m + 4 ≤ m' + 2
    omega
  · show p.n + 4 ≤ n' + 2
    omega

/-- **C137** with the shipped tables, for laminates with `mu ≤ D ≤ M` and deflection held on all edges of the released plate, when the
bound of C100 on the error of the tables is below 1. -/
theorem C137_tables (D : M3) (mu M : ℝ) (hD : Between D mu M) (c c' : Constraints) (e e' : Edges) (he : chooseEdges c = .ok e)
    (he' : chooseEdges c' = .ok e') (hr : Releases e e') (hh : EdgesHeld e') (p : PlateNum) (ha : 0 < p.a) (hb : 0 < p.b) (m' n' : ℕ)
    (hm : 1 ≤ p.m) (hn : 1 ≤ p.n) (hm' : Enough (xSupports e) (xSupports e') p.m m') (hn' : Enough (ySupports e) (ySupports e') p.n n')
    (hcond : bendErr { p with m := m', n := n' } mu M < 1) (K KG : SqMat (p.m * p.n)) (h : calcKKGD shipped (.ok D) c p = .ok (K, KG))
    (K' KG' : SqMat (m' * n')) (h' : calcKKGD shipped (.ok D) c' { p with m := m', n := n' } = .ok (K', KG')) :
    (∀ l > 0, numModes K KG l ≤ numModes K' KG' l) ∧ (∀ k lam, 1 ≤ k → IsKth K KG k lam → ∃ mu ≤ lam, IsKth K' KG' k mu) ∧
      ∀ lam, PosMult K KG lam → ∃ mu ≤ lam, PosMult K' KG' mu :=
  (C137_shipped D c c' e e' he he' hr p m' n' hm hn hm' hn' K KG h K' KG' h'
    (C100_posDef D mu M hD c' { p with m := m', n := n' } ha hb (hm.trans (enough_le hr.1 hm')) (hn.trans (enough_le hr.2 hn')) e' he' hh hcond K' KG' h')).2

/-- Non-vacuity: the clamped plate with 8 terms each way and the pinned plate with 10, shipped tables. -/
example : ∃ (K KG : SqMat (8 * 8)) (K' KG' : SqMat (10 * 10)), calcKKGD shipped (.ok (1 : M3)) (.str wCLAMPED) ⟨2, 3, -1, 0, 0, 8, 8⟩ = .ok (K, KG) ∧
    calcKKGD shipped (.ok (1 : M3)) (.str wPINNED) ⟨2, 3, -1, 0, 0, 10, 10⟩ = .ok (K', KG') ∧ ∀ l > 0, numModes K KG l ≤ numModes K' KG' l := by
  have hb : Between (1 : M3) 1 1 := by
    refine ⟨Matrix.isSymm_one, ?_, one_pos, fun i j => ?_⟩
    · rw [one_smul, sub_self]
      exact Matrix.PosSemidef.zero
    · rw [Matrix.one_apply]
      split_ifs <;> norm_num
  have ok : ∀ c, (∃ e, chooseEdges c = .ok e) → ∀ N, N ≤ 10 → ∃ KK, calcKKGD shipped (.ok (1 : M3)) c ⟨2, 3, -1, 0, 0, N, N⟩ = .ok KK := fun c hc N hN => by
    obtain ⟨s, hs⟩ := (C40_accepted_iff c N N).mpr hc
    exact (C51_computed_iff 1 c ⟨2, 3, -1, 0, 0, N, N⟩ s hs (by norm_num) (by norm_num)).1 fun q hq => by
      have := widx_range hs q hq
      omega
  obtain ⟨⟨K, KG⟩, h1⟩ := ok (.str wCLAMPED) ⟨_, rfl⟩ 8 (by norm_num)
  obtain ⟨⟨K', KG'⟩, h2⟩ := ok (.str wPINNED) ⟨_, rfl⟩ 10 (by norm_num)
  refine ⟨K, KG, K', KG', h1, h2, (C137_tables 1 1 1 hb (.str wCLAMPED) (.str wPINNED) _ _ rfl rfl ⟨by decide, by decide⟩
    ⟨by decide, by decide, by decide, by decide⟩ ⟨2, 3, -1, 0, 0, 8, 8⟩ (by norm_num) (by norm_num) 10 10 (by norm_num) (by norm_num)
    (by unfold Enough; decide) (by unfold Enough; decide) ?_ K KG h1 K' KG' h2).1⟩
  simp only [bendErr, tableAcc]
  norm_num

/-! ## The added terms are needed -/

/-- Value, first and second derivative of shape 1. -/
theorem eval1 (x : ℝ) : (shape 1).eval x = 1 / 8 * x ^ 3 - 1 / 8 * x ^ 2 - 1 / 8 * x + 1 / 8 ∧
    (derivative (shape 1)).eval x = 3 / 8 * x ^ 2 - 1 / 4 * x - 1 / 8 ∧ (derivative (derivative (shape 1))).eval x = 3 / 4 * x - 1 / 4 := by
  have hs : shape 1 = C (1 / 8) * X ^ 3 - C (1 / 8) * X ^ 2 - C (1 / 8) * X + C (1 / 8) := by
    refine Polynomial.funext fun x => ?_
    simp only [shape, bardell, Polynomial.map_add, Polynomial.map_sub, Polynomial.map_mul, Polynomial.map_pow,
      Polynomial.map_C, Polynomial.map_X, eval_add, eval_sub, eval_mul, eval_C, eval_X, eval_pow, eq_ratCast]
    norm_num
    try ring
  rw [hs]
  refine ⟨?_, ?_, ?_⟩ <;>
  simp only [derivative_add, derivative_sub, derivative_mul, derivative_X_pow, derivative_X, derivative_C, eval_add, eval_sub,
    eval_mul, eval_pow, eval_X, eval_C, derivative_one, eval_one, eval_zero, derivative_zero] <;> norm_num <;> ring

theorem tables1 : exactV.ff 1 1 = 2 / 105 ∧ exactV.fxi_fxi 1 1 = 1 / 15 ∧ exactV.fxixi_fxixi 1 1 = 1 / 2 := by
  refine ⟨?_, ?_, ?_⟩
  · refine (int_coeffs [1 / 64, -1 / 32, -1 / 64, 1 / 16, -1 / 64, -1 / 32, 1 / 64] fun x => ?_).trans ?_
    · obtain ⟨h1, h2, h3⟩ := eval1 x
      simp only [h1, List.length_cons, List.length_nil, Finset.sum_range_succ, Finset.sum_range_zero, List.getD_cons_succ, List.getD_cons_zero]
      ring
    · norm_num [Finset.sum_range_succ]
  · refine (int_coeffs [1 / 64, 1 / 16, -1 / 32, -3 / 16, 9 / 64] fun x => ?_).trans ?_
    · obtain ⟨h1, h2, h3⟩ := eval1 x
      simp only [h2, List.length_cons, List.length_nil, Finset.sum_range_succ, Finset.sum_range_zero, List.getD_cons_succ, List.getD_cons_zero]
      ring
    · norm_num [Finset.sum_range_succ]
  · refine (int_coeffs [1 / 16, -3 / 8, 9 / 16] fun x => ?_).trans ?_
    · obtain ⟨h1, h2, h3⟩ := eval1 x
      simp only [h3, List.length_cons, List.length_nil, Finset.sum_range_succ, Finset.sum_range_zero, List.getD_cons_succ, List.getD_cons_zero]
      ring
    · norm_num [Finset.sum_range_succ]

/-- All edges clamped but the slope on `y = 0`. -/
def Spec.oneHinge : Constraints :=
  .dict (some (.flags clampedFlags)) (some (.flags clampedFlags)) (some (.flags [TX, TY, TZ, RY, RZ])) (some (.flags clampedFlags))

/-- A square plate compressed along `x` and pulled along `y`, one term in each direction. -/
noncomputable def Spec.hingePlate : PlateNum := ⟨1, 1, -7, 6, 0, 1, 1⟩

theorem posMult_one (K KG : SqMat (1 * 1)) (lam : ℝ) : PosMult K KG lam ↔ 0 < lam ∧ K ⟨0, one_pos⟩ ⟨0, one_pos⟩ + lam * KG ⟨0, one_pos⟩ ⟨0, one_pos⟩ = 0 := by
  have key : ∀ (v : Fin (1 * 1) → ℝ) r, (K + lam • KG).mulVec v r = (K ⟨0, one_pos⟩ ⟨0, one_pos⟩ + lam * KG ⟨0, one_pos⟩ ⟨0, one_pos⟩) * v ⟨0, one_pos⟩ := by
    rintro v ⟨r, hr⟩
    obtain rfl : r = 0 := by omega
    show ∑ c : Fin 1, _ = _
    rw [Fin.sum_univ_one]
    rfl
  constructor
  · rintro ⟨hpos, v, hv, h0⟩
    refine ⟨hpos, ?_⟩
    have h1 := congrFun h0 ⟨0, one_pos⟩
    rw [key] at h1
    rcases mul_eq_zero.mp h1 with h | h
    · exact h
    · refine absurd (funext ?_) hv
      rintro ⟨r, hr⟩
      obtain rfl : r = 0 := by omega
      exact h
  · rintro ⟨hpos, h⟩
    refine ⟨hpos, fun _ => 1, fun h0 => one_ne_zero (congrFun h0 ⟨0, one_pos⟩), funext fun r => ?_⟩
    rw [key, h, zero_mul]
    rfl

theorem hinge_case : ∃ K KG K' KG' : SqMat (1 * 1), calcKKGD exactReaders (.ok (demoD 1 1)) (.str wCLAMPED) hingePlate = .ok (K, KG) ∧
    calcKKGD exactReaders (.ok (demoD 1 1)) oneHinge hingePlate = .ok (K', KG') ∧ PosMult K KG 132 ∧ ∀ lam, ¬ PosMult K' KG' lam := by
  have hs : computeIdx (.str wCLAMPED) 1 1 = .ok ⟨[(4, 4)], [(4, 4)], [(4, 4)]⟩ := rfl
  have hs' : computeIdx oneHinge 1 1 = .ok ⟨[(4, 1)], [(4, 1)], [(4, 1)]⟩ := rfl
  have hK := calcKKGD_ok exact_ok (demoD 1 1) (.str wCLAMPED) hingePlate _ hs one_ne_zero one_ne_zero fun _ _ => ⟨trivial, trivial⟩
  have hK' := calcKKGD_ok exact_ok (demoD 1 1) oneHinge hingePlate _ hs' one_ne_zero one_ne_zero fun _ _ => ⟨trivial, trivial⟩
  obtain ⟨t1, -, -, -, t5, -, -, -, t9, -, -, -⟩ := tables45
  obtain ⟨u1, u2, u3⟩ := tables1
  have o1 : demoD 1 1 0 0 = 1 := by simp [demoD]
  have o2 : demoD 1 1 1 0 = 0 := by simp [demoD]
  have o3 : demoD 1 1 1 1 = 1 := by simp [demoD]
  have o4 : demoD 1 1 2 0 = 0 := by simp [demoD]
  have o5 : demoD 1 1 2 1 = 0 := by simp [demoD]
  have o6 : demoD 1 1 2 2 = 1 := by simp [demoD]
  refine ⟨_, _, _, _, hK, hK', (posMult_one _ _ _).mpr ⟨by norm_num, ?_⟩, fun lam h => ?_⟩
  · show k33v exactV 1 1 (demoD 1 1) (4, 4) (4, 4) + 132 * g33v exactV 1 1 (-7) 6 0 (4, 4) (4, 4) = 0
    simp only [k33v, g33v, o1, o2, o3, o4, o5, o6, t1, t5, t9]
    norm_num
  · have h1 : k33v exactV 1 1 (demoD 1 1) (4, 1) (4, 1) + lam * g33v exactV 1 1 (-7) 6 0 (4, 1) (4, 1) = 0 := ((posMult_one _ _ _).mp h).2
    simp only [k33v, g33v, o1, o2, o3, o4, o5, o6, t1, t5, t9, u1, u2, u3] at h1
    norm_num at h1

/-- **C137** without the added term the statement is false: a plate clamped on all edges, one term in each direction, compressed along `x` and
pulled along `y`, has the multiplier 132; with the slope on `y = 0` released and the same numbers of terms it has no positive multiplier. -/
theorem C137_same_terms_false : ∃ (D : M3) (p : PlateNum) (e e' : Edges) (K KG K' KG' : SqMat (p.m * p.n)), D.PosDef ∧
    chooseEdges (.str wCLAMPED) = .ok e ∧ chooseEdges oneHinge = .ok e' ∧ Releases e e' ∧
    calcKKGD exactReaders (.ok D) (.str wCLAMPED) p = .ok (K, KG) ∧ calcKKGD exactReaders (.ok D) oneHinge p = .ok (K', KG') ∧
    PosMult K KG 132 ∧ ∀ lam, ¬ PosMult K' KG' lam := by
  obtain ⟨K, KG, K', KG', h1, h2, h3, h4⟩ := hinge_case
  exact ⟨demoD 1 1, hingePlate, _, _, K, KG, K', KG', Matrix.PosDef.diagonal fun i => by fin_cases i <;> simp, rfl, rfl, ⟨by decide, by decide⟩,
    h1, h2, h3, h4⟩

/-- Non-vacuity: the released plate of the last theorem with one more term in `y` has a multiplier of at most 132. -/
example : ∃ (K' KG' : SqMat (1 * 2)), calcKKGD exactReaders (.ok (demoD 1 1)) oneHinge ⟨1, 1, -7, 6, 0, 1, 2⟩ = .ok (K', KG') ∧
    ∃ mu ≤ 132, PosMult K' KG' mu := by
  obtain ⟨K, KG, K', KG', h1, h2, -, -, h3⟩ := C137_exact (demoD 1 1) (Matrix.PosDef.diagonal fun i => by fin_cases i <;> simp) (.str wCLAMPED) oneHinge
    _ _ rfl rfl ⟨by decide, by decide⟩ (.inl (.inl ⟨by decide, .inr (.inl (by decide))⟩)) hingePlate one_pos one_pos 1 2
    (by unfold Enough; decide) (by unfold Enough; decide)
  obtain ⟨K1, KG1, _, _, h4, -, h5, -⟩ := hinge_case
  obtain ⟨rfl, rfl⟩ := Prod.mk.inj (Except.ok.inj (h1.symm.trans h4))
  exact ⟨K', KG', h2, h3 _ h5⟩

/-- Non-vacuity of the limit: clamping is a support more than pinning on every edge. -/
example (D : M3) (k : ℕ) : levels D ⟨.flags clampedFlags, .flags clampedFlags, .flags clampedFlags, .flags clampedFlags⟩ 1 1 (-1) 0 0 k ⊆
    levels D ⟨.flags pinnedFlags, .flags pinnedFlags, .flags pinnedFlags, .flags pinnedFlags⟩ 1 1 (-1) 0 0 k :=
  (C137_limit D _ _ ⟨by decide, by decide⟩ _ _ _ _ _ k).1

end Composipy
