import Verif.Lemmas.Ritz
import Verif.Props.Energy
import Verif.Props.Symmetry
import Verif.Props.Invariants

/-!
# C79 - C85: how the buckling multipliers depend on the plate
-/

namespace Composipy
open Spec Matrix Polynomial

/-! ## C79: similar plates -/

theorem kMat_similar (V : RTables) (a b s : ℝ) (ha : a ≠ 0) (hb : b ≠ 0) (hs : s ≠ 0) (D : M3) (w : List (ℕ × ℕ)) (N : ℕ) :
    kMat V (s * a) (s * b) D w N = (1 / s ^ 2) • kMat V a b D w N := by
  ext r c
  simp only [kMat, of_apply, Matrix.smul_apply, smul_eq_mul, k33v]
  field_simp

theorem gMat_similar (V : RTables) (a b s x y t : ℝ) (hs : s ≠ 0) (w : List (ℕ × ℕ)) (N : ℕ) :
    gMat V (s * a) (s * b) x y t w N = gMat V a b x y t w N := by
  ext r c
  simp only [gMat, of_apply, g33v]
  rw [mul_div_mul_left _ _ hs, mul_div_mul_left _ _ hs]

/-- **C79** magnifying the plate by `s` keeps `KG`, divides `K` by `s^2`, hence divides all multipliers by `s^2` and
keeps the modes — for every constraint and the tables as shipped. -/
theorem C79_similar (D : M3) (c : Constraints) (p : PlateNum) (s : ℝ) (hs : s ≠ 0) (hm : 1 ≤ p.m) (hn : 1 ≤ p.n)
    (K KG : SqMat (p.m * p.n)) (h : calcKKGD shipped (.ok D) c p = .ok (K, KG)) :
    calcKKGD shipped (.ok D) c { p with a := s * p.a, b := s * p.b } = .ok ((1 / s ^ 2) • K, KG) ∧
      ∀ lam v, Buckles K KG lam v ↔ Buckles ((1 / s ^ 2) • K) KG (lam / s ^ 2) v := by
  obtain ⟨M, i, hM, hi, ha, hb, hr, rfl, rfl⟩ := calcKKGD_inv hm hn h
  cases hM
  constructor
  · have := calcKKGD_ok shipped_ok D c ⟨s * p.a, s * p.b, p.Nxx, p.Nyy, p.Nxy, p.m, p.n⟩ i hi (mul_ne_zero hs ha)
      (mul_ne_zero hs hb) hr
    rw [kMat_similar _ _ _ _ ha hb hs, gMat_similar _ _ _ _ _ _ _ hs] at this
    exact this
  · intro lam v
    unfold Buckles
    have hs2 : (1 / s ^ 2 : ℝ) ≠ 0 := by positivity
    rw [show lam / s ^ 2 = 1 / s ^ 2 * lam by ring, mul_smul, ← smul_add, smul_mulVec, smul_eq_zero]
    simp [hs]

/-- **C79** a true scale model: magnifying the sides and all ply thicknesses by `s` multiplies the multipliers by `s`. -/
theorem C79_scale_model (l l' : Lam) (hl : IsStack l) (hl' : IsStack l') (s : ℝ) (hs : s ≠ 0)
    (h : l'.layup = scaleLayup s l.layup) (c : Constraints) (p : PlateNum) (hm : 1 ≤ p.m) (hn : 1 ≤ p.n)
    (K KG : SqMat (p.m * p.n)) (hK : calcKKGD shipped l.D c p = .ok (K, KG)) :
    ∃ K', calcKKGD shipped l'.D c { p with a := s * p.a, b := s * p.b } = .ok (K', KG) ∧
      ∀ lam v, Buckles K KG lam v ↔ Buckles K' KG (s * lam) v := by
  obtain ⟨D, -, hD, -⟩ := calcKKGD_inv hm hn hK
  have hD' := (C21_scaling l l' hl hl' s h).2.2
  rw [hD, ok_map] at hD'
  rw [hD] at hK
  obtain ⟨K1, h1, e1⟩ := C50_stiffness_scaling D c p (s ^ 3) (pow_ne_zero 3 hs) hm hn K KG hK
  obtain ⟨h2, e2⟩ := C79_similar (s ^ 3 • D) c p s hs hm hn K1 KG h1
  refine ⟨_, by rw [hD']; exact h2, fun lam v => ?_⟩
  rw [e1, e2]
  have : s ^ 3 * lam / s ^ 2 = s * lam := by field_simp
  rw [this]

/-- Non-vacuity for C79: a pinned 4-ply plate with a computed `K`. -/
example : ∃ l l' K, IsStack l ∧ IsStack l' ∧ l'.layup = scaleLayup 2 l.layup ∧
    calcKKGD shipped l.D (.str wPINNED) ⟨360, 120, -1, 0, 0.5, 5, 4⟩ = .ok K := by
  obtain ⟨l, -, hs, -, hne, hadm⟩ := carbon_list [0, 45, 90, -45] (by simp)
  obtain ⟨l', hs', hl'⟩ := stack_of_layup (scaleLayup 2 l.layup)
  obtain ⟨-, D, -, -, hD, -⟩ := C15_posDef l hs hne hadm
  obtain ⟨K, hK⟩ := C51_no_key_error D (.str wPINNED) ⟨360, 120, -1, 0, 0.5, 5, 4⟩ (C41_pinned 5 4 wPinned wPinned wPinned wPinned
    (Or.inl (by decide +kernel)) (Or.inl (by decide +kernel)) (Or.inl (by decide +kernel)) (Or.inl (by decide +kernel))).2.2
    (by norm_num) (by norm_num) (by norm_num) (by norm_num)
  exact ⟨l, l', K, hs, hs', hl', by rw [hD]; exact hK⟩

/-! ## C80: exchanging the axes -/

/-- Specification: a plane stiffness with the roles of `x` and `y` exchanged. -/
def Spec.swapXY (D : M3) : M3 := D.submatrix (Equiv.swap 0 1) (Equiv.swap 0 1)

/-- Specification: the plate with the roles of `x` and `y` exchanged. -/
def Spec.PlateNum.swapXY (p : PlateNum) : PlateNum := ⟨p.b, p.a, p.Nyy, p.Nxx, p.Nxy, p.n, p.m⟩

/-- Specification: the edge dictionary with the roles of `x` and `y` exchanged. -/
def Spec.Constraints.swapXY : Constraints → Constraints
  | .str s => .str s
  | .dict x0 xa y0 yb => .dict y0 yb x0 xa

theorem swapXY_entries (D : M3) (hD : D.IsSymm) : swapXY D 0 0 = D 1 1 ∧ swapXY D 1 1 = D 0 0 ∧ swapXY D 1 0 = D 1 0 ∧
    swapXY D 2 0 = D 2 1 ∧ swapXY D 2 1 = D 2 0 ∧ swapXY D 2 2 = D 2 2 := by
  have h01 := hD.apply 0 1
  have e2 : Equiv.swap (0 : Fin 3) 1 2 = 2 := by decide
  simp [swapXY, h01, e2]

theorem k33v_swap (V : RTables) (a b : ℝ) (D : M3) (hD : D.IsSymm) (r c : ℕ × ℕ) :
    k33v V b a (swapXY D) r.swap c.swap = k33v V a b D r c := by
  obtain ⟨h1, h2, h3, h4, h5, h6⟩ := swapXY_entries D hD
  simp only [k33v, h1, h2, h3, h4, h5, h6, Prod.fst_swap, Prod.snd_swap, mul_comm b a]
  ring

theorem g33v_swap (V : RTables) (a b x y t : ℝ) (r c : ℕ × ℕ) :
    g33v V b a y x t r.swap c.swap = g33v V a b x y t r c := by
  simp only [g33v, Prod.fst_swap, Prod.snd_swap]
  ring

/-- The four edges do not distinguish the three directions: this holds for the presets and for words. -/
def Spec.SameFlags (e : Edge) : Prop := e.has TX = e.has TZ ∧ e.has RX = e.has RZ

theorem same_of_bc {w : Str} {f : List Str} (h : boundaryConditions w = .ok f) : SameFlags (.flags f) := by
  unfold boundaryConditions at h
  split_ifs at h <;> cases h <;> unfold SameFlags <;> decide

/-- Edges chosen for the exchanged constraints. -/
theorem choose_swap {x0 xa y0 yb : Str} {e : Edges}
    (h : chooseEdges (.dict (some (.word x0)) (some (.word xa)) (some (.word y0)) (some (.word yb))) = .ok e) :
    chooseEdges (.dict (some (.word y0)) (some (.word yb)) (some (.word x0)) (some (.word xa))) = .ok ⟨e.y0, e.yb, e.x0, e.xa⟩ ∧
      SameFlags e.x0 ∧ SameFlags e.xa ∧ SameFlags e.y0 ∧ SameFlags e.yb := by
  rw [word_dict] at h ⊢
  cases h1 : boundaryConditions (strLower x0) <;> cases h2 : boundaryConditions (strLower xa) <;>
    cases h3 : boundaryConditions (strLower y0) <;> cases h4 : boundaryConditions (strLower yb) <;>
    simp only [h1, h2, h3, h4, ok_bind, error_bind, pure_eq_ok] at h <;> cases h
  exact ⟨rfl, same_of_bc h1, same_of_bc h2, same_of_bc h3, same_of_bc h4⟩

/-- Constraints given as a text or as a dictionary of four words. -/
def Spec.Wordy : Constraints → Prop
  | .str _ => True
  | .dict x0 xa y0 yb => ∃ w1 w2 w3 w4, x0 = some (.word w1) ∧ xa = some (.word w2) ∧ y0 = some (.word w3) ∧ yb = some (.word w4)

theorem w_swap {c : Constraints} (hc : Wordy c) {m n : ℕ} {s : ShapeIdx} (h : computeIdx c m n = .ok s) :
    ∃ s', computeIdx (Constraints.swapXY c) n m = .ok s' ∧ ∀ i j, (j, i) ∈ s'.w ↔ (i, j) ∈ s.w := by
  obtain ⟨e, xs, ys, he, hw, hx, hy⟩ := w_lists h
  have key : chooseEdges (Constraints.swapXY c) = .ok ⟨e.y0, e.yb, e.x0, e.xa⟩ ∧
      SameFlags e.x0 ∧ SameFlags e.xa ∧ SameFlags e.y0 ∧ SameFlags e.yb := by
    cases c with
    | str s =>
      simp only [chooseEdges] at he
      split_ifs at he with h1 h2
      · cases he
        subst h1
        refine ⟨rfl, ?_, ?_, ?_, ?_⟩ <;> simp only [SameFlags] <;> decide
      · cases he
        subst h2
        refine ⟨rfl, ?_, ?_, ?_, ?_⟩ <;> simp only [SameFlags] <;> decide
    | dict x0 xa y0 yb =>
      obtain ⟨w1, w2, w3, w4, rfl, rfl, rfl, rfl⟩ := hc
      exact choose_swap he
  obtain ⟨hch, f1, f2, f3, f4⟩ := key
  obtain ⟨s', hs'⟩ := (C40_accepted_iff (Constraints.swapXY c) n m).mpr ⟨_, hch⟩
  refine ⟨s', hs', fun i j => ?_⟩
  obtain ⟨e', xs', ys', he', hw', hx', hy'⟩ := w_lists hs'
  rw [hch] at he'
  cases he'
  dsimp only at hx' hy'
  rw [← f3.1, ← f3.2, ← f4.1, ← f4.2] at hx'
  rw [f1.1, f1.2, f2.1, f2.2] at hy'
  rw [hw, hw', hx'.unique hy, hy'.unique hx]
  rw [show ys.product xs = ys ×ˢ xs from rfl, show xs.product ys = xs ×ˢ ys from rfl, List.mem_product, List.mem_product]
  tauto

/-- Reordered matrices along a bijection of the shapes. -/
theorem exists_equiv_swap {w w' : List (ℕ × ℕ)} {N N' : ℕ} (hN : w.length = N) (hN' : w'.length = N') (hnd : w.Nodup)
    (hnd' : w'.Nodup) (h : ∀ i j, (j, i) ∈ w' ↔ (i, j) ∈ w) :
    ∃ e : Fin N ≃ Fin N', ∀ r, w'.getD (e r) (0, 0) = (w.getD r (0, 0)).swap := by
  have hsw : ∀ q ∈ w.map Prod.swap, q ∈ w' := by
    rintro q hq
    obtain ⟨x, hx, rfl⟩ := List.mem_map.mp hq
    exact (h x.1 x.2).mpr hx
  have hsw' : ∀ q ∈ w', q ∈ w.map Prod.swap := by
    rintro ⟨j, i⟩ hq
    exact List.mem_map.mpr ⟨(i, j), (h i j).mp hq, rfl⟩
  have hndm : (w.map Prod.swap).Nodup := hnd.map Prod.swap_injective
  have hNm : (w.map Prod.swap).length = N := by simpa using hN
  obtain ⟨e, he, hev⟩ := exists_embed hNm hN' hndm hsw
  obtain ⟨f, hf, -⟩ := exists_embed hN' hNm hnd' hsw'
  have hc : Fintype.card (Fin N) = Fintype.card (Fin N') :=
    le_antisymm (Fintype.card_le_of_injective e he) (Fintype.card_le_of_injective f hf)
  have hbij : Function.Bijective e := (Fintype.bijective_iff_injective_and_card e).mpr ⟨he, hc⟩
  refine ⟨Equiv.ofBijective e hbij, fun r => ?_⟩
  rw [Equiv.ofBijective_apply, hev]
  exact List.getD_map w (0, 0) Prod.swap

/-- **C80** exchanging `x` and `y` everywhere — sides, numbers of terms, loads, edges and the bending stiffness — only
renumbers the unknowns: the multipliers are the same, and corresponding modes are the same deflection.  For constraints
given by name, or by words; with the tables as shipped. -/
theorem C80_exchange (D : M3) (hD : D.IsSymm) (c : Constraints) (hc : Wordy c) (p : PlateNum) (hm : 1 ≤ p.m) (hn : 1 ≤ p.n)
    (K KG : SqMat (p.m * p.n)) (h : calcKKGD shipped (.ok D) c p = .ok (K, KG)) :
    ∃ s s' K' KG', ∃ e : Fin (p.m * p.n) ≃ Fin (p.n * p.m), computeIdx c p.m p.n = .ok s ∧
      computeIdx (Constraints.swapXY c) p.n p.m = .ok s' ∧
      calcKKGD shipped (.ok (swapXY D)) (Constraints.swapXY c) (PlateNum.swapXY p) = .ok (K', KG') ∧
      (∀ lam v, Buckles K KG lam v ↔ Buckles K' KG' lam (v ∘ e.symm)) ∧
      ∀ v x y, ritz p.b p.a s'.w (v ∘ e.symm) y x = ritz p.a p.b s.w v x y := by
  obtain ⟨M, i, hM, hi, ha, hb, hr, rfl, rfl⟩ := calcKKGD_inv hm hn h
  cases hM
  obtain ⟨s', hs', hmem⟩ := w_swap hc hi
  have g1 := (C40_sizes c _ _ i hi).2.2
  have g2 := (C40_sizes _ _ _ s' hs').2.2
  obtain ⟨e, he⟩ := exists_equiv_swap g1.len g2.len g1.nodup g2.nodup hmem
  refine ⟨i, s', _, _, e, hi, hs', calcKKGD_ok shipped_ok (swapXY D) (Constraints.swapXY c) (PlateNum.swapXY p) s' hs' hb ha
    fun q hq => (hr _ ((hmem q.2 q.1).mp hq)).symm, fun lam v => ?_, fun v x y => ?_⟩
  · refine buckles_reindex e (fun r c => ?_) (fun r c => ?_) lam v
    · show k33v _ _ _ _ (s'.w.getD (e r) (0, 0)) (s'.w.getD (e c) (0, 0)) = k33v _ _ _ _ _ _
      rw [he, he]
      exact k33v_swap _ _ _ D hD _ _
    · show g33v _ _ _ _ _ _ (s'.w.getD (e r) (0, 0)) (s'.w.getD (e c) (0, 0)) = g33v _ _ _ _ _ _ _ _
      rw [he, he]
      exact g33v_swap _ _ _ _ _ _ _ _
  · simp only [ritz]
    rw [← Equiv.sum_comp e]
    refine Finset.sum_congr rfl fun r _ => ?_
    rw [he]
    simp only [Function.comp_apply, Equiv.symm_apply_apply, Prod.fst_swap, Prod.snd_swap]
    ring

/-- **C80** with lists of flags the exchange is not respected: `TZ` on the edge `x0` removes a shape of the deflection,
the same flag on the edge `y0` does not. -/
theorem C80_flag_lists (m n : ℕ) (hm : 1 ≤ m) (hn : 1 ≤ n) : ∃ s s',
    computeIdx (.dict (some (.flags [TZ])) (some (.flags [])) (some (.flags [])) (some (.flags []))) m n = .ok s ∧
    computeIdx (Constraints.swapXY (.dict (some (.flags [TZ])) (some (.flags [])) (some (.flags [])) (some (.flags [])))) n m
      = .ok s' ∧ (0, 0) ∉ s.w ∧ (0, 0) ∈ s'.w := by
  obtain ⟨s, hs⟩ := (C40_accepted_iff (.dict (some (.flags [TZ])) (some (.flags [])) (some (.flags [])) (some (.flags []))) m n).mpr
    ⟨_, rfl⟩
  obtain ⟨s', hs'⟩ := (C40_accepted_iff (Constraints.swapXY (.dict (some (.flags [TZ])) (some (.flags [])) (some (.flags []))
    (some (.flags [])))) n m).mpr ⟨_, rfl⟩
  refine ⟨s, s', hs, hs', ?_, ?_⟩
  · obtain ⟨e, xs, ys, he, hw, hx, hy⟩ := w_lists hs
    cases he
    rw [hw, show xs.product ys = xs ×ˢ ys from rfl, List.mem_product]
    rintro ⟨h0, -⟩
    exact (hx.sound 0 h0).1 ⟨rfl, by decide⟩
  · obtain ⟨e, xs, ys, he, hw, hx, hy⟩ := w_lists hs'
    cases he
    rw [hw, show xs.product ys = xs ×ˢ ys from rfl, List.mem_product]
    have zero : ∀ {N : ℕ} {q : ℕ → Prop} {l : List ℕ}, 1 ≤ N → IsFirst N q l → q 0 → 0 ∈ l := by
      intro N q l hN hl h0
      cases l with
      | nil => have := hl.len; simp at this; omega
      | cons a t =>
        rcases Nat.eq_zero_or_pos a with rfl | ha
        · simp
        · exact hl.complete a (by simp) 0 ha h0
    refine ⟨zero hn hx ?_, zero hm hy ?_⟩ <;>
    · refine ⟨?_, by simp, by simp, by simp⟩
      rintro ⟨-, h⟩
      revert h
      decide

/-- Non-vacuity for C80: a mixed-edge plate. -/
example : ∃ K, calcKKGD shipped (.ok !![1, 0.3, 0.1; 0.3, 2, 0.2; 0.1, 0.2, 0.5])
    (.dict (some (.word wClamped)) (some (.word wFree)) (some (.word wPinned)) (some (.word wClamped)))
    ⟨360, 120, -1, 0, 0.5, 6, 5⟩ = .ok K :=
  C51_no_key_error _ _ _ ((C40_accepted_iff _ _ _).mpr ⟨_, rfl⟩) (by norm_num) (by norm_num) (by norm_num) (by norm_num)

/-! ## C81: refining the discretisation -/

/-- **C81** more terms never raise the critical multiplier: each positive multiplier of the coarse discretisation has a
positive multiplier of the fine one below it.  For every constraint for which the fine `K` is positive definite. -/
theorem C81_refinement (D : M3) (c : Constraints) (p : PlateNum) (m' n' : ℕ) (hm : 1 ≤ p.m) (hn : 1 ≤ p.n)
    (hm' : p.m ≤ m') (hn' : p.n ≤ n') (K KG : SqMat (p.m * p.n)) (h : calcKKGD shipped (.ok D) c p = .ok (K, KG))
    (K' KG' : SqMat (m' * n')) (h' : calcKKGD shipped (.ok D) c { p with m := m', n := n' } = .ok (K', KG'))
    (hpd : K'.PosDef) (lam : ℝ) (hl : PosMult K KG lam) : ∃ mu ≤ lam, PosMult K' KG' mu := by
  have hsym := (C48_symmetric _ _ { p with m := m', n := n' } (by dsimp only; omega) (by dsimp only; omega) K' KG' h').2
  obtain ⟨M, i, hM, hi, ha, hb, hr, rfl, rfl⟩ := calcKKGD_inv hm hn h
  obtain ⟨M', i', hM', hi', -, -, -, rfl, rfl⟩ := calcKKGD_inv (p := { p with m := m', n := n' }) (by dsimp only; omega)
    (by dsimp only; omega) h'
  cases hM; cases hM'
  dsimp only at hi'
  have g1 := (C40_sizes c _ _ i hi).2.2
  have g2 := (C40_sizes c _ _ i' hi').2.2
  obtain ⟨e, he, hev⟩ := exists_embed g1.len g2.len g1.nodup (w_subset hm' hn' hi hi')
  obtain ⟨hpos, v, hv⟩ := hl
  have hb := buckles_energy hv
  refine posMult_le hpd hsym (v := extendBy e v) (fun h0 => hv.1 ?_) hpos (le_of_eq ?_)
  · funext r
    rw [← extendBy_apply he v r, h0]
    rfl
  · rw [extendBy_quad (M := kMat shippedV p.a p.b D i.w _), extendBy_quad (M := gMat shippedV p.a p.b p.Nxx p.Nyy p.Nxy i.w _)]
    · exact hb
    · intro r c
      show g33v _ _ _ _ _ _ (i'.w.getD (e r) (0, 0)) (i'.w.getD (e c) (0, 0)) = g33v _ _ _ _ _ _ _ _
      rw [hev, hev]
    · intro r c
      show k33v _ _ _ _ (i'.w.getD (e r) (0, 0)) (i'.w.getD (e c) (0, 0)) = k33v _ _ _ _ _ _
      rw [hev, hev]

/-- The clamped `K` is positive definite. -/
theorem clamped_posDef {D : M3} (hD : D.PosDef) {p : PlateNum} (ha : 0 < p.a) (hb : 0 < p.b) (hm : 1 ≤ p.m) (hn : 1 ≤ p.n)
    (hm' : p.m ≤ 26) (hn' : p.n ≤ 26) {K KG : SqMat (p.m * p.n)}
    (h : calcKKGD shipped (.ok D) (.str wCLAMPED) p = .ok (K, KG)) : K.PosDef := by
  obtain ⟨K1, KG1, h1, hpos⟩ := C49_posDef_clamped D hD p ha hb hm' hn'
  rw [h] at h1
  obtain ⟨rfl, rfl⟩ := Prod.mk.inj (Except.ok.inj h1)
  exact posDef_of_pos (C48_symmetric _ _ p hm hn K KG h).1 hpos

/-- **C81** for a clamped plate with positive definite bending stiffness, up to 26 by 26 terms. -/
theorem C81_refinement_clamped (D : M3) (hD : D.PosDef) (p : PlateNum) (m' n' : ℕ) (ha : 0 < p.a) (hb : 0 < p.b)
    (hm : 1 ≤ p.m) (hn : 1 ≤ p.n) (hm' : p.m ≤ m') (hn' : p.n ≤ n') (hm2 : m' ≤ 26) (hn2 : n' ≤ 26) :
    ∃ K KG K' KG', calcKKGD shipped (.ok D) (.str wCLAMPED) p = .ok (K, KG) ∧
      calcKKGD shipped (.ok D) (.str wCLAMPED) { p with m := m', n := n' } = .ok (K', KG') ∧
      ∀ lam, PosMult K KG lam → ∃ mu ≤ lam, PosMult K' KG' mu := by
  obtain ⟨K, KG, h, -⟩ := C49_posDef_clamped D hD p ha hb (by omega) (by omega)
  obtain ⟨K', KG', h', -⟩ := C49_posDef_clamped D hD { p with m := m', n := n' } ha hb hm2 hn2
  exact ⟨K, KG, K', KG', h, h', C81_refinement D _ p m' n' hm hn hm' hn' K KG h K' KG' h'
    (clamped_posDef (p := { p with m := m', n := n' }) hD ha hb (by dsimp only; omega) (by dsimp only; omega) hm2 hn2 h')⟩

/-- Non-vacuity for C81: the 2 by 2 discretisation of a compressed clamped plate has a positive multiplier. -/
example : ∃ K KG : SqMat (2 * 2), calcKKGD shipped (.ok (demoD 1 1)) (.str wCLAMPED) (demoPlate 1) = .ok (K, KG) ∧
    ∃ lam, PosMult K KG lam := by
  obtain ⟨K, KG, h, hpd, hsym, hb⟩ := demo_matrices 1 1 1 one_pos one_pos one_pos
  exact ⟨K, KG, h, _, (hb.1 _).mpr ⟨0, rfl⟩⟩

/-! ## C82: stiffer plates and larger loads -/

/-- Closed form of the clamped matrices. -/
theorem clamped_forms (m n : ℕ) (hm : m ≤ 26) (hn : n ≤ 26) : ∃ w : List (ℕ × ℕ),
    ((∀ q ∈ w, 4 ≤ q.1 ∧ 4 ≤ q.2) ∧ w.length = m * n ∧ (1 ≤ m → 1 ≤ n → w.getD 0 (0, 0) = (4, 4))) ∧
    ∀ (D : M3) (a b x y t : ℝ), a ≠ 0 → b ≠ 0 → calcKKGD shipped (.ok D) (.str wCLAMPED) ⟨a, b, x, y, t, m, n⟩ =
      .ok (kMat exactV a b D w _, gMat exactV a b x y t w _) := by
  obtain ⟨s, hs, hw⟩ := clamped_idx m n
  have hr : ∀ q ∈ s.w, (4 ≤ q.1 ∧ q.1 < 30) ∧ (4 ≤ q.2 ∧ q.2 < 30) := by
    intro q hq
    rw [hw] at hq
    have := List.mem_product.mp (show (q.1, q.2) ∈ (List.range' 4 m) ×ˢ (List.range' 4 n) from hq)
    simp only [List.mem_range'_1] at this
    omega
  have h44 : 1 ≤ m → 1 ≤ n → s.w.getD 0 (0, 0) = (4, 4) := by
    intro h1 h2
    obtain ⟨m, rfl⟩ := Nat.exists_eq_add_of_le' h1
    obtain ⟨n, rfl⟩ := Nat.exists_eq_add_of_le' h2
    rw [hw]
    rfl
  exact ⟨s.w, ⟨fun q hq => ⟨(hr q hq).1.1, (hr q hq).2.1⟩, (C40_sizes _ _ _ s hs).2.2.len, h44⟩, fun D a b x y t ha hb =>
    calcKKGD_ok shipped_exact D _ ⟨a, b, x, y, t, m, n⟩ s hs ha hb hr⟩

theorem kMat_nonneg {D : M3} (hD : D.PosSemidef) {a b : ℝ} (ha : 0 < a) (hb : 0 < b) (w : List (ℕ × ℕ)) {N : ℕ} (v : Fin N → ℝ) :
    0 ≤ v ⬝ᵥ (kMat exactV a b D w N).mulVec v := by
  have hsym : D.IsSymm := by
    have := hD.isHermitian
    rwa [IsHermitian, conjTranspose_eq_transpose_of_trivial] at this
  rw [kMat_energy ha.ne' hb.ne' D hsym w N v]
  refine intervalIntegral.integral_nonneg ha.le fun x _ => intervalIntegral.integral_nonneg hb.le fun y _ => ?_
  have := hD.dotProduct_mulVec_nonneg ![dX (dX (ritz a b w v)) x y, dY (dY (ritz a b w v)) x y,
    2 * dY (dX (ritz a b w v)) x y]
  simpa [bendDensity] using this

/-- Specification: the in-plane loads are tensile in every direction. -/
def Spec.Tensile (x y t : ℝ) : Prop := ∀ c s : ℝ, 0 ≤ x * c ^ 2 + y * s ^ 2 + 2 * t * (c * s)

theorem gMat_nonneg {x y t : ℝ} (h : Tensile x y t) {a b : ℝ} (ha : 0 < a) (hb : 0 < b) (w : List (ℕ × ℕ)) {N : ℕ} (v : Fin N → ℝ) :
    0 ≤ v ⬝ᵥ (gMat exactV a b x y t w N).mulVec v := by
  rw [gMat_work ha.ne' hb.ne' x y t w N v]
  exact intervalIntegral.integral_nonneg ha.le fun _ _ => intervalIntegral.integral_nonneg hb.le fun _ _ => h _ _

/-- **C82** a stiffer plate (`D2 - D1` positive semidefinite) under loads that are nowhere more compressive (`L1 = L2` plus a
compression) has critical multipliers at least as large, for clamped plates. -/
theorem C82_monotone (D1 D2 : M3) (h1 : D1.PosDef) (h12 : (D2 - D1).PosSemidef) (a b : ℝ) (ha : 0 < a) (hb : 0 < b)
    (x1 y1 t1 x2 y2 t2 : ℝ) (hL : Tensile (x2 - x1) (y2 - y1) (t2 - t1)) (m n : ℕ) (hm : 1 ≤ m) (hn : 1 ≤ n)
    (hm' : m ≤ 26) (hn' : n ≤ 26) :
    ∃ K1 KG1 K2 KG2 : SqMat (m * n), calcKKGD shipped (.ok D1) (.str wCLAMPED) ⟨a, b, x1, y1, t1, m, n⟩ = .ok (K1, KG1) ∧
      calcKKGD shipped (.ok D2) (.str wCLAMPED) ⟨a, b, x2, y2, t2, m, n⟩ = .ok (K2, KG2) ∧
      ∀ lam, PosMult K2 KG2 lam → ∃ mu ≤ lam, PosMult K1 KG1 mu := by
  obtain ⟨w, -, hf⟩ := clamped_forms m n hm' hn'
  have e1 := hf D1 a b x1 y1 t1 ha.ne' hb.ne'
  refine ⟨_, _, _, _, e1, hf D2 a b x2 y2 t2 ha.ne' hb.ne', ?_⟩
  rintro lam ⟨hpos, v, hv⟩
  have hpd : (kMat exactV a b D1 w (m * n)).PosDef := clamped_posDef (p := ⟨a, b, x1, y1, t1, m, n⟩) h1 ha hb hm hn hm' hn' e1
  have hsym : (gMat exactV a b x1 y1 t1 w (m * n)).IsSymm := (C48_symmetric _ _ ⟨a, b, x1, y1, t1, m, n⟩ hm hn _ _ e1).2
  refine posMult_le hpd hsym hv.1 hpos ?_
  have hb0 := buckles_energy hv
  have k0 := kMat_nonneg h12 ha hb w v
  have g0 := gMat_nonneg hL ha hb w v
  have ek : kMat exactV a b (D2 - D1) w (m * n) = kMat exactV a b D2 w _ - kMat exactV a b D1 w _ := by
    have := kMat_lin exactV a b 1 (-1) D2 D1 w (m * n)
    simpa [sub_eq_add_neg] using this
  have eg : gMat exactV a b (x2 - x1) (y2 - y1) (t2 - t1) w (m * n) = gMat exactV a b x2 y2 t2 w _ - gMat exactV a b x1 y1 t1 w _ := by
    have := gMat_lin exactV a b 1 (-1) x2 y2 t2 x1 y1 t1 w (m * n)
    simpa [sub_eq_add_neg] using this
  rw [ek, sub_mulVec, dotProduct_sub] at k0
  rw [eg, sub_mulVec, dotProduct_sub] at g0
  nlinarith

/-! ## C83: tension -/

/-- **C83** a clamped plate under loads tensile in every direction has no positive multiplier, and `buckling_analysis` with an
eigensolver keeping its contract reports none. -/
theorem C83_tension (S : EigSolver) (D : M3) (hD : D.PosDef) (p : PlateNum) (ha : 0 < p.a) (hb : 0 < p.b) (hm : 1 ≤ p.m)
    (hn : 1 ≤ p.n) (hm' : p.m ≤ 26) (hn' : p.n ≤ 26) (hT : Tensile p.Nxx p.Nyy p.Nxy) :
    ∃ K KG : SqMat (p.m * p.n), calcKKGD shipped (.ok D) (.str wCLAMPED) p = .ok (K, KG) ∧ (∀ lam, ¬ PosMult K KG lam) ∧
      (Honest S KG K → ∀ numEig st vals vecs, (bucklingAnalysis S (.ok D) (.str wCLAMPED) p numEig st).1 = .ok (vals, vecs) →
        ∀ lam, 0 < lam → XF.fin lam ∉ vals) := by
  obtain ⟨w, -, hf⟩ := clamped_forms p.m p.n hm' hn'
  have e1 := hf D p.a p.b p.Nxx p.Nyy p.Nxy ha.ne' hb.ne'
  have hpd : (kMat exactV p.a p.b D w (p.m * p.n)).PosDef := clamped_posDef hD ha hb hm hn hm' hn' e1
  have hno : ∀ lam, ¬ PosMult (kMat exactV p.a p.b D w (p.m * p.n)) (gMat exactV p.a p.b p.Nxx p.Nyy p.Nxy w _) lam := by
    rintro lam ⟨hpos, v, hv⟩
    have hb0 := buckles_energy hv
    have g0 := gMat_nonneg hT ha hb w v
    have k0 := hpd.dotProduct_mulVec_pos hv.1
    simp only [star_trivial] at k0
    nlinarith
  refine ⟨_, _, e1, hno, fun hS numEig st vals vecs h lam hlam hmem => ?_⟩
  obtain ⟨s, K', KG', out, hs, hK', hk, hout, rfl, rfl, hst⟩ := buckling_inv h
  rw [e1] at hK'
  obtain ⟨rfl, rfl⟩ := Prod.mk.inj (Except.ok.inj hK')
  obtain ⟨hl, q, hq, hq1⟩ := reported_iff.mp hmem
  obtain ⟨hqv, hqp⟩ := (hS _ _ hout).pair q hq
  exact hno lam ⟨hlam, q.2, (buckles_pencil hl).mpr ⟨hqv, by rw [← hq1]; exact hqp⟩⟩

/-! ## C84: mirror images -/

theorem shape_comp_neg (i : ℕ) (hi : 4 ≤ i) : (shape i).comp (-X) = (-1 : ℝ[X]) ^ i * shape i := by
  refine Polynomial.funext fun x => ?_
  rw [eval_comp, eval_neg, eval_X, C45_parity i hi, eval_mul]
  simp

/-- `p` is even (`s = 1`) or odd (`s = -1`). -/
def HasParity (s : ℝ) (p : ℝ[X]) : Prop := ∀ x, p.eval (-x) = s * p.eval x

theorem HasParity.deriv {s : ℝ} {p : ℝ[X]} (h : HasParity s p) : HasParity (-s) (derivative p) := by
  have hp : p.comp (-X) = C s * p := Polynomial.funext fun x => by simp [eval_comp, h x]
  have hd := congrArg derivative hp
  rw [derivative_comp, derivative_C_mul] at hd
  intro x
  have := congrArg (eval x) hd
  simp [eval_comp] at this
  linarith

theorem HasParity.shape {i : ℕ} (hi : 4 ≤ i) : HasParity ((-1) ^ i) (shape i) := C45_parity i hi

theorem HasParity.int {s t : ℝ} {p q : ℝ[X]} (hp : HasParity s p) (hq : HasParity t q) :
    ∫ x in (-1 : ℝ)..1, p.eval x * q.eval x = s * t * ∫ x in (-1 : ℝ)..1, p.eval x * q.eval x := by
  have h1 : ∫ x in (-1 : ℝ)..1, p.eval (-x) * q.eval (-x) = ∫ x in (-1 : ℝ)..1, p.eval x * q.eval x := by
    have := intervalIntegral.integral_comp_neg (a := -1) (b := 1) fun x => p.eval x * q.eval x
    simpa using this
  conv_lhs => rw [← h1]
  rw [← intervalIntegral.integral_const_mul]
  refine intervalIntegral.integral_congr fun x _ => ?_
  simp only [hp x, hq x]
  ring

/-- Sign of an unknown under the reflection `x -> a - x`. -/
def mirrorSign (q : ℕ × ℕ) : ℝ := (-1) ^ q.1

theorem mirrorSign_sq (q : ℕ × ℕ) : mirrorSign q * mirrorSign q = 1 := by
  rw [mirrorSign, ← pow_add, ← two_mul, pow_mul]
  simp

/-- The integrals of clamped shapes vanish for one parity of `i + k`. -/
theorem exactV_parity {i k : ℕ} (hi : 4 ≤ i) (hk : 4 ≤ k) :
    exactV.ff i k = (-1) ^ i * (-1) ^ k * exactV.ff i k ∧
    exactV.fxi_f i k = -((-1) ^ i * (-1) ^ k * exactV.fxi_f i k) ∧
    exactV.f_fxi i k = -((-1) ^ i * (-1) ^ k * exactV.f_fxi i k) ∧
    exactV.fxi_fxi i k = (-1) ^ i * (-1) ^ k * exactV.fxi_fxi i k ∧
    exactV.fxixi_f i k = (-1) ^ i * (-1) ^ k * exactV.fxixi_f i k ∧
    exactV.f_fxixi i k = (-1) ^ i * (-1) ^ k * exactV.f_fxixi i k ∧
    exactV.fxixi_fxi i k = -((-1) ^ i * (-1) ^ k * exactV.fxixi_fxi i k) ∧
    exactV.fxi_fxixi i k = -((-1) ^ i * (-1) ^ k * exactV.fxi_fxixi i k) ∧
    exactV.fxixi_fxixi i k = (-1) ^ i * (-1) ^ k * exactV.fxixi_fxixi i k := by
  have p0 := HasParity.shape hi
  have q0 := HasParity.shape hk
  have p1 := p0.deriv
  have q1 := q0.deriv
  have p2 := p1.deriv
  have q2 := q1.deriv
  refine ⟨p0.int q0, (p1.int q0).trans ?_, (p0.int q1).trans ?_, (p1.int q1).trans ?_, (p2.int q0).trans ?_,
    (p0.int q2).trans ?_, (p2.int q1).trans ?_, (p1.int q2).trans ?_, (p2.int q2).trans ?_⟩ <;>
  · simp only [exactV]
    ring

theorem k33v_mirror (a b : ℝ) (D : M3) (r c : ℕ × ℕ) (hr : 4 ≤ r.1) (hc : 4 ≤ c.1) :
    k33v exactV a b (flipShear D) r c = mirrorSign r * mirrorSign c * k33v exactV a b D r c := by
  obtain ⟨h1, h2, h3, h4, h5, h6, h7, h8, h9⟩ := exactV_parity hr hc
  have f : flipShear D 0 0 = D 0 0 ∧ flipShear D 1 0 = D 1 0 ∧ flipShear D 1 1 = D 1 1 ∧ flipShear D 2 0 = -D 2 0 ∧
      flipShear D 2 1 = -D 2 1 ∧ flipShear D 2 2 = D 2 2 := by simp [flipShear]
  obtain ⟨f1, f2, f3, f4, f5, f6⟩ := f
  simp only [k33v, f1, f2, f3, f4, f5, f6, mirrorSign]
  linear_combination (4 * (b / a ^ 3) * D 0 0 * exactV.ff r.2 c.2) * h9
    + (4 / (a * b) * D 1 0 * exactV.f_fxixi r.2 c.2) * h5 + (4 / (a * b) * D 1 0 * exactV.fxixi_f r.2 c.2) * h6
    + (4 * (a / b ^ 3) * D 1 1 * exactV.fxixi_fxixi r.2 c.2) * h1
    - (8 / a ^ 2 * D 2 0 * exactV.f_fxi r.2 c.2) * h7 - (8 / a ^ 2 * D 2 0 * exactV.fxi_f r.2 c.2) * h8
    - (8 / b ^ 2 * D 2 1 * exactV.fxi_fxixi r.2 c.2) * h2 - (8 / b ^ 2 * D 2 1 * exactV.fxixi_fxi r.2 c.2) * h3
    + (16 / (a * b) * D 2 2 * exactV.fxi_fxi r.2 c.2) * h4

theorem g33v_mirror (a b x y t : ℝ) (r c : ℕ × ℕ) (hr : 4 ≤ r.1) (hc : 4 ≤ c.1) :
    g33v exactV a b x y (-t) r c = mirrorSign r * mirrorSign c * g33v exactV a b x y t r c := by
  obtain ⟨h1, h2, h3, h4, -⟩ := exactV_parity hr hc
  simp only [g33v, mirrorSign]
  linear_combination (x * (b / a) * exactV.ff r.2 c.2) * h4 + (y * (a / b) * exactV.fxi_fxi r.2 c.2) * h1
    - (t * exactV.fxi_f r.2 c.2) * h3 - (t * exactV.f_fxi r.2 c.2) * h2

/-- A change of sign of some unknowns. -/
theorem buckles_signs {N : ℕ} {K KG K' KG' : SqMat N} (s : Fin N → ℝ) (hs : ∀ r, s r * s r = 1)
    (hK : ∀ r c, K' r c = s r * s c * K r c) (hG : ∀ r c, KG' r c = s r * s c * KG r c) (lam : ℝ) (v : Fin N → ℝ) :
    Buckles K KG lam v ↔ Buckles K' KG' lam (fun r => s r * v r) := by
  have hs0 : ∀ r, s r ≠ 0 := fun r h => by have := hs r; rw [h] at this; norm_num at this
  have hm : ∀ M M' : SqMat N, (∀ r c, M' r c = s r * s c * M r c) → ∀ r, M'.mulVec (fun r => s r * v r) r = s r * M.mulVec v r := by
    intro M M' h r
    simp only [mulVec, dotProduct, Finset.mul_sum]
    refine Finset.sum_congr rfl fun c _ => ?_
    rw [h]
    linear_combination (s r * M r c * v c) * hs c
  unfold Buckles
  refine and_congr (not_congr ⟨fun h => by rw [h]; funext r; simp, fun h => funext fun r => ?_⟩)
    ⟨fun h => funext fun r => ?_, fun h => funext fun r => ?_⟩
  · exact (mul_eq_zero.mp (congrFun h r)).resolve_left (hs0 r)
  · have := congrFun h r
    rw [add_mulVec, smul_mulVec] at this ⊢
    simp only [Pi.add_apply, Pi.smul_apply, Pi.zero_apply, smul_eq_mul, hm K K' hK, hm KG KG' hG] at this ⊢
    linear_combination s r * this
  · have := congrFun h r
    rw [add_mulVec, smul_mulVec] at this ⊢
    simp only [Pi.add_apply, Pi.smul_apply, Pi.zero_apply, smul_eq_mul, hm K K' hK, hm KG KG' hG] at this ⊢
    refine (mul_eq_zero.mp (?_ : s r * _ = 0)).resolve_left (hs0 r)
    linear_combination this

/-- **C84** the mirror image of a clamped plate — `D16`, `D26` and `Nxy` negated — has the same multipliers, and the modes
reflected in `x -> a - x`. -/
theorem C84_mirror (D : M3) (p : PlateNum) (ha : p.a ≠ 0) (hb : p.b ≠ 0) (hm : p.m ≤ 26) (hn : p.n ≤ 26) :
    ∃ s K KG K' KG', ∃ g : Fin (p.m * p.n) → ℝ, computeIdx (.str wCLAMPED) p.m p.n = .ok s ∧
      calcKKGD shipped (.ok D) (.str wCLAMPED) p = .ok (K, KG) ∧
      calcKKGD shipped (.ok (flipShear D)) (.str wCLAMPED) { p with Nxy := -p.Nxy } = .ok (K', KG') ∧
      (∀ r, g r * g r = 1) ∧ (∀ lam v, Buckles K KG lam v ↔ Buckles K' KG' lam (fun r => g r * v r)) ∧
      ∀ v x y, ritz p.a p.b s.w (fun r => g r * v r) x y = ritz p.a p.b s.w v (p.a - x) y := by
  obtain ⟨s, hs, hw⟩ := clamped_idx p.m p.n
  have hr : ∀ q ∈ s.w, (4 ≤ q.1 ∧ q.1 < 30) ∧ (4 ≤ q.2 ∧ q.2 < 30) := by
    intro q hq
    rw [hw] at hq
    have := List.mem_product.mp (show (q.1, q.2) ∈ (List.range' 4 p.m) ×ˢ (List.range' 4 p.n) from hq)
    simp only [List.mem_range'_1] at this
    omega
  have h4 : ∀ r : Fin (p.m * p.n), 4 ≤ (s.w.getD r (0, 0)).1 := by
    intro r
    have hlt : (r : ℕ) < s.w.length := by rw [(C40_sizes _ _ _ s hs).2.2.len]; exact r.2
    rw [List.getD_eq_getElem _ _ hlt]
    exact (hr _ (List.getElem_mem _)).1.1
  have e1 := calcKKGD_ok shipped_exact D _ p s hs ha hb hr
  have e2 := calcKKGD_ok shipped_exact (flipShear D) _ ⟨p.a, p.b, p.Nxx, p.Nyy, -p.Nxy, p.m, p.n⟩ s hs ha hb hr
  refine ⟨s, kMat exactV p.a p.b D s.w _, gMat exactV p.a p.b p.Nxx p.Nyy p.Nxy s.w _, kMat exactV p.a p.b (flipShear D) s.w _,
    gMat exactV p.a p.b p.Nxx p.Nyy (-p.Nxy) s.w _, fun r => mirrorSign (s.w.getD r (0, 0)), hs, e1, e2,
    fun r => mirrorSign_sq _, fun lam v => ?_, fun v x y => ?_⟩
  · refine buckles_signs (fun r : Fin (p.m * p.n) => mirrorSign (s.w.getD r (0, 0))) (fun r => mirrorSign_sq _) (fun r c => ?_)
      (fun r c => ?_) lam v
    · rw [kMat, kMat, of_apply, of_apply, k33v_mirror _ _ _ _ _ (h4 r) (h4 c)]
    · rw [gMat, gMat, of_apply, of_apply, g33v_mirror _ _ _ _ _ _ _ (h4 r) (h4 c)]
  · simp only [ritz]
    refine Finset.sum_congr rfl fun r _ => ?_
    have e : 2 / p.a * (p.a - x) - 1 = -(2 / p.a * x - 1) := by field_simp; ring
    rw [e, C45_parity _ (h4 r)]
    simp only [mirrorSign]
    ring

/-- **C84** for laminates: negating every ply angle and the shear load keeps the multipliers of a clamped plate. -/
theorem C84_negated_angles (l l' : Lam) (hl : IsStack l) (hl' : IsStack l') (h : l'.layup = negLayup l.layup) (p : PlateNum)
    (hm : 1 ≤ p.m) (hn : 1 ≤ p.n) (hm' : p.m ≤ 26) (hn' : p.n ≤ 26)
    (K KG : SqMat (p.m * p.n)) (hK : calcKKGD shipped l.D (.str wCLAMPED) p = .ok (K, KG)) :
    ∃ K' KG' : SqMat (p.m * p.n), calcKKGD shipped l'.D (.str wCLAMPED) { p with Nxy := -p.Nxy } = .ok (K', KG') ∧
      ∀ lam, (∃ v, Buckles K KG lam v) ↔ ∃ v, Buckles K' KG' lam v := by
  obtain ⟨D, -, hD, -, ha, hb, -⟩ := calcKKGD_inv hm hn hK
  have hD' := (C18_negated_angles l l' hl hl' h).2.2
  rw [hD, ok_map] at hD'
  rw [hD] at hK
  obtain ⟨s, K1, KG1, K', KG', g, hs, h1, h2, hg, h3, -⟩ := C84_mirror D p ha hb hm' hn'
  rw [hK] at h1
  obtain ⟨rfl, rfl⟩ := Prod.mk.inj (Except.ok.inj h1)
  refine ⟨K', KG', by rw [hD']; exact h2, fun lam => ⟨fun ⟨v, hv⟩ => ⟨_, (h3 lam v).mp hv⟩, fun ⟨v, hv⟩ =>
    ⟨fun r => g r * v r, (h3 lam _).mpr ?_⟩⟩⟩
  have : (fun r => g r * (g r * v r)) = v := funext fun r => by rw [← mul_assoc, hg, one_mul]
  rw [this]
  exact hv

/-- **C83** conversely compression in `x` or `y` that no tension in the other direction offsets gives a positive multiplier,
whatever the shear. -/
theorem C83_compression (D : M3) (hD : D.PosDef) (p : PlateNum) (ha : 0 < p.a) (hb : 0 < p.b) (hm : 1 ≤ p.m)
    (hn : 1 ≤ p.n) (hm' : p.m ≤ 26) (hn' : p.n ≤ 26) (hx : p.Nxx * p.b ^ 2 + p.Nyy * p.a ^ 2 < 0)
    (K KG : SqMat (p.m * p.n)) (h : calcKKGD shipped (.ok D) (.str wCLAMPED) p = .ok (K, KG)) : ∃ lam, PosMult K KG lam := by
  obtain ⟨w, ⟨h4, hlen, h44⟩, hf⟩ := clamped_forms p.m p.n hm' hn'
  have hpd := clamped_posDef hD ha hb hm hn hm' hn' h
  have hsym := (C48_symmetric _ _ p hm hn K KG h).2
  have e1 := hf D p.a p.b p.Nxx p.Nyy p.Nxy ha.ne' hb.ne'
  rw [show calcKKGD shipped (.ok D) (.str wCLAMPED) ⟨p.a, p.b, p.Nxx, p.Nyy, p.Nxy, p.m, p.n⟩ = .ok (K, KG) from h] at e1
  obtain ⟨-, hKG⟩ := Prod.mk.inj (Except.ok.inj e1)
  let i0 : Fin (p.m * p.n) := ⟨0, Nat.mul_pos hm hn⟩
  let v : Fin (p.m * p.n) → ℝ := Pi.single i0 1
  have hv : v ≠ 0 := fun h0 => by have := congrFun h0 i0; simp [v] at this
  have hq : v ⬝ᵥ KG.mulVec v < 0 := by
    have e : v ⬝ᵥ KG.mulVec v = KG i0 i0 := by simp [v]
    rw [e, hKG]
    show g33v exactV p.a p.b p.Nxx p.Nyy p.Nxy (w.getD 0 (0, 0)) (w.getD 0 (0, 0)) < 0
    rw [h44 hm hn]
    obtain ⟨t1, t2, -⟩ := entry44
    obtain ⟨-, s2, s3, -⟩ := exactV_parity (le_refl 4) (le_refl 4)
    have z2 : exactV.fxi_f 4 4 = 0 := by norm_num at s2; linarith
    simp only [g33v, t1, t2, z2]
    have : p.Nxx * (p.b / p.a) + p.Nyy * (p.a / p.b) < 0 := by
      rw [show p.Nxx * (p.b / p.a) + p.Nyy * (p.a / p.b) = (p.Nxx * p.b ^ 2 + p.Nyy * p.a ^ 2) / (p.a * p.b) by field_simp]
      exact div_neg_of_neg_of_pos hx (mul_pos ha hb)
    nlinarith
  set g := v ⬝ᵥ KG.mulVec v
  have hk := hpd.dotProduct_mulVec_pos hv
  simp only [star_trivial] at hk
  obtain ⟨mu, -, hmu⟩ := posMult_le hpd hsym hv (lam := v ⬝ᵥ K.mulVec v / -g) (div_pos hk (by linarith)) (by
    rw [div_mul_eq_mul_div, div_neg, mul_div_assoc, div_self hq.ne, mul_one]
    linarith)
  exact ⟨mu, hmu⟩

/-- Non-vacuity for C82 and C83: a plate in biaxial tension with shear, a compressed one, and a stiffer bending stiffness. -/
example : Tensile 2 3 1 ∧ (demoD 1 1).PosDef ∧ (demoD 2 3 - demoD 1 1).PosSemidef ∧ Tensile (0 - -1) (0 - 0) (0 - 0) := by
  refine ⟨fun c s => by nlinarith [sq_nonneg (c + s), sq_nonneg c, sq_nonneg s], ?_, ?_, fun c s => by nlinarith [sq_nonneg c]⟩
  · exact Matrix.PosDef.diagonal fun i => by fin_cases i <;> simp
  · rw [demoD, demoD, diagonal_sub]
    exact Matrix.PosSemidef.diagonal fun i => by fin_cases i <;> norm_num

/-! ## C85: turning the plate -/

theorem rotQ_90 (D : M3) (hD : D.IsSymm) : rotQ 90 D = swapXY (flipShear D) := by
  have e2 : Equiv.swap (0 : Fin 3) 1 2 = 2 := by decide
  ext i j
  fin_cases i <;> fin_cases j <;>
    simp [rotQ, Teng, swapXY, flipShear, Matrix.mul_apply, Fin.sum_univ_three, e2]

/-- **C85** looking at a clamped plate turned by 90 degrees — ply angles plus 90, sides, loads and numbers of terms exchanged,
shear load negated — gives the same multipliers. -/
theorem C85_quarter_turn (l l' : Lam) (hl : IsStack l) (hl' : IsStack l') (h : l'.layup = turnLayup 90 l.layup) (p : PlateNum)
    (hm : 1 ≤ p.m) (hn : 1 ≤ p.n) (hm' : p.m ≤ 26) (hn' : p.n ≤ 26)
    (K KG : SqMat (p.m * p.n)) (hK : calcKKGD shipped l.D (.str wCLAMPED) p = .ok (K, KG)) :
    ∃ K' KG' : SqMat (p.n * p.m), calcKKGD shipped l'.D (.str wCLAMPED) ⟨p.b, p.a, p.Nyy, p.Nxx, -p.Nxy, p.n, p.m⟩ = .ok (K', KG') ∧
      ∀ lam, (∃ v, Buckles K KG lam v) ↔ ∃ v, Buckles K' KG' lam v := by
  obtain ⟨D, -, hD, -, ha, hb, -⟩ := calcKKGD_inv hm hn hK
  have hsym := D_isSymm l D hD
  have hD' := (turn_ABD_eq l l' hl hl' 90 h).2.2
  rw [hD, ok_map, rotQ_90 D hsym] at hD'
  rw [hD] at hK
  obtain ⟨s, K1, KG1, K2, KG2, g, hs, h1, h2, hg, h3, -⟩ := C84_mirror D p ha hb hm' hn'
  rw [hK] at h1
  obtain ⟨rfl, rfl⟩ := Prod.mk.inj (Except.ok.inj h1)
  have hfs : (flipShear D).IsSymm := by
    refine Matrix.IsSymm.ext fun i j => ?_
    have := hsym.apply i j
    fin_cases i <;> fin_cases j <;> simp [flipShear] at this ⊢ <;> exact this
  obtain ⟨s1, s2, K', KG', e, -, -, h4, h5, -⟩ := C80_exchange (flipShear D) hfs (.str wCLAMPED) trivial
    ⟨p.a, p.b, p.Nxx, p.Nyy, -p.Nxy, p.m, p.n⟩ hm hn K2 KG2 h2
  refine ⟨K', KG', by rw [hD']; exact h4, fun lam => ⟨fun ⟨v, hv⟩ => ⟨_, (h5 lam _).mp ((h3 lam v).mp hv)⟩, fun ⟨v, hv⟩ =>
    ⟨fun r => g r * v (e r), (h3 lam _).mpr ((h5 lam _).mpr ?_)⟩⟩⟩
  have : (fun r => g r * (g r * v (e r))) ∘ e.symm = v := funext fun r => by
    simp only [Function.comp_apply, Equiv.apply_symm_apply]
    rw [← mul_assoc, hg, one_mul]
  exact this.symm ▸ hv

/-- Non-vacuity for C84 and C85: an unbalanced carbon laminate on a clamped plate in shear. -/
example : ∃ l l' l2 K, IsStack l ∧ IsStack l' ∧ IsStack l2 ∧ l'.layup = negLayup l.layup ∧ l2.layup = turnLayup 90 l.layup ∧
    calcKKGD shipped l.D (.str wCLAMPED) ⟨360, 120, -1, 0, 0.5, 5, 4⟩ = .ok K := by
  obtain ⟨l, -, hs, -, hne, hadm⟩ := carbon_list [0, 45, 45, 0] (by simp)
  obtain ⟨l', hs', hl'⟩ := stack_of_layup (negLayup l.layup)
  obtain ⟨l2, hs2, hl2⟩ := stack_of_layup (turnLayup 90 l.layup)
  obtain ⟨-, D, -, -, hD, -⟩ := C15_posDef l hs hne hadm
  obtain ⟨K, hK⟩ := C51_no_key_error D (.str wCLAMPED) ⟨360, 120, -1, 0, 0.5, 5, 4⟩ ((C40_accepted_iff _ _ _).mpr ⟨_, rfl⟩)
    (by norm_num) (by norm_num) (by norm_num) (by norm_num)
  exact ⟨l, l', l2, K, hs, hs', hs2, hl', hl2, by rw [hD]; exact hK⟩

end Composipy
