import Verif.Lemmas.Stiffness
import Mathlib.LinearAlgebra.Matrix.Symmetric
import Mathlib.Data.Matrix.Mul

/-!
# C48, C50, C51: bending and geometric stiffness matrices
-/

namespace Composipy
open Spec

/-! ## C51: which discretisations can be computed -/

theorem widx_range {c : Constraints} {m n : ℕ} {s : ShapeIdx} (h : computeIdx c m n = .ok s) :
    ∀ q ∈ s.w, q.1 < m + 4 ∧ q.2 < n + 4 := by
  unfold computeIdx at h
  cases he : chooseEdges c with
  | error e => simp [he] at h
  | ok e =>
    obtain ⟨i, hi, -, -, h3, h4, -, h6⟩ := idxLists_ok e m n
    simp only [he, hi, ok_bind, pure_eq_ok, Except.ok.injEq] at h
    subst h
    intro q hq
    have hq' := List.mem_product.mp (show (q.1, q.2) ∈ i.wm ×ˢ i.wn from hq)
    rw [h6] at hq'
    exact ⟨isFirst_lt h3 _ hq'.1, isFirst_lt h4 _ hq'.2⟩

/-- **C51** with readable laminate and constraints and a plate of non-zero sides, the matrices are computed
exactly when every selected shape number is below 30; otherwise the call raises `KeyError`. -/
theorem C51_computed_iff (D : Matrix (Fin 3) (Fin 3) ℝ) (c : Constraints) (p : PlateNum) (s : ShapeIdx)
    (hs : computeIdx c p.m p.n = .ok s) (ha : p.a ≠ 0) (hb : p.b ≠ 0) :
    ((∀ q ∈ s.w, q.1 < 30 ∧ q.2 < 30) → ∃ K, calcKKGD shipped (.ok D) c p = .ok K) ∧
    ((∃ q ∈ s.w, ¬ (q.1 < 30 ∧ q.2 < 30)) → calcKKGD shipped (.ok D) c p = .error .keyError) := by
  constructor
  · intro h
    exact ⟨_, calcKKGD_ok shipped_ok D c p s hs ha hb h⟩
  · rintro ⟨q, hq, hbad⟩
    rw [calcKKGD_eq _ D c p s hs, mapM_err _ _ .keyError]
    · rfl
    · intro x hx
      by_cases hgood : x.1 < 30 ∧ x.2.1 < 30 ∧ x.2.2.1 < 30 ∧ x.2.2.2 < 30
      · left
        refine ⟨(k33v shippedV p.a p.b D (x.1, x.2.1) (x.2.2.1, x.2.2.2),
          g33v shippedV p.a p.b p.Nxx p.Nyy p.Nxy (x.1, x.2.1) (x.2.2.1, x.2.2.2)), ?_⟩
        rw [calcK33_ok shipped_ok ha hb hgood.1 hgood.2.1 hgood.2.2.1 hgood.2.2.2,
          calcKG33_ok shipped_ok ha hb hgood.1 hgood.2.1 hgood.2.2.1 hgood.2.2.2]
        rfl
      · right
        rw [calcK33_err hgood]
        rfl
    · refine ⟨(q.1, q.2, q.1, q.2), List.mem_flatMap.mpr ⟨q, hq, List.mem_map.mpr ⟨q, hq, rfl⟩⟩, ?_⟩
      rw [calcK33_err (by dsimp only; tauto)]
      rfl

/-- **C51** no `KeyError` for `m, n ≤ 26`, whatever the constraints. -/
theorem C51_no_key_error (D : Matrix (Fin 3) (Fin 3) ℝ) (c : Constraints) (p : PlateNum)
    (hc : ∃ s, computeIdx c p.m p.n = .ok s) (ha : p.a ≠ 0) (hb : p.b ≠ 0) (hm : p.m ≤ 26) (hn : p.n ≤ 26) :
    ∃ K, calcKKGD shipped (.ok D) c p = .ok K := by
  obtain ⟨s, hs⟩ := hc
  refine (C51_computed_iff D c p s hs ha hb).1 fun q hq => ?_
  have := widx_range hs q hq
  omega

/-- The clamped index set: `4, 5, ..., m+3` in both directions. -/
theorem clamped_idx (m n : ℕ) :
    ∃ s, computeIdx (.str wCLAMPED) m n = .ok s ∧ s.w = (List.range' 4 m).product (List.range' 4 n) := by
  let e : Edges := ⟨.flags clampedFlags, .flags clampedFlags, .flags clampedFlags, .flags clampedFlags⟩
  obtain ⟨i, hi, -, -, h3, h4, -, h6⟩ := idxLists_ok e m n
  have first : ∀ (N : ℕ) (f : List Str), f = clampedFlags → ∀ t r, t ∈ f → r ∈ f →
      IsFirst N (Kept ((Edge.flags f).has t) ((Edge.flags f).has r) ((Edge.flags f).has t) ((Edge.flags f).has r))
        (List.range' 4 N) := by
    intro N f _ t r ht hr
    refine ⟨by simp, List.pairwise_lt_range', ?_, ?_⟩
    · intro i hi
      simp only [List.mem_range'_1] at hi
      simp only [Kept]
      refine ⟨?_, ?_, ?_, ?_⟩ <;> omega
    · intro i hi j hj hk
      simp only [Kept, Edge.has, List.contains_iff_mem, ht, hr, and_true] at hk
      simp only [List.mem_range'_1] at hi ⊢
      omega
  have e3 := h3.unique (first m clampedFlags rfl TZ RZ (by decide) (by decide))
  have e4 := h4.unique (first n clampedFlags rfl TX RX (by decide) (by decide))
  have hch : chooseEdges (.str wCLAMPED) = .ok e := rfl
  refine ⟨_, by unfold computeIdx; rw [hch]; simp only [ok_bind, hi]; rfl, ?_⟩
  simp only [h6, e3, e4]

/-- **C51** with clamped edges `m >= 27` (or `n >= 27`) raises `KeyError`: the bound 26 is sharp. -/
theorem C51_clamped_key_error (D : Matrix (Fin 3) (Fin 3) ℝ) (p : PlateNum) (ha : p.a ≠ 0) (hb : p.b ≠ 0)
    (hm : 1 ≤ p.m) (hn : 1 ≤ p.n) (h : 27 ≤ p.m ∨ 27 ≤ p.n) :
    calcKKGD shipped (.ok D) (.str wCLAMPED) p = .error .keyError := by
  obtain ⟨s, hs, hw⟩ := clamped_idx p.m p.n
  refine (C51_computed_iff D _ p s hs ha hb).2 ⟨(p.m + 3, p.n + 3), ?_, by dsimp only; omega⟩
  rw [hw]
  refine List.mem_product.mpr ⟨?_, ?_⟩ <;> simp only [List.mem_range'_1] <;> omega

/-- **C51** a plate with a side of length 0 (accepted by the constructor) raises `ZeroDivisionError`. -/
theorem C51_zero_side (D : Matrix (Fin 3) (Fin 3) ℝ) (c : Constraints) (p : PlateNum)
    (hc : ∃ s, computeIdx c p.m p.n = .ok s) (h0 : p.a = 0 ∨ p.b = 0) (hm : 1 ≤ p.m) (hn : 1 ≤ p.n)
    (hm' : p.m ≤ 26) (hn' : p.n ≤ 26) : calcKKGD shipped (.ok D) c p = .error .zeroDivisionError := by
  obtain ⟨s, hs⟩ := hc
  have hr : ∀ q ∈ s.w, q.1 < 30 ∧ q.2 < 30 := fun q hq => by
    have := widx_range hs q hq
    omega
  have hz : ∀ x ∈ (s.w.flatMap fun p => s.w.map fun q => (p.1, p.2, q.1, q.2)),
      (do let k ← calcK33 shipped p.a p.b x.1 x.2.1 x.2.2.1 x.2.2.2 (D 0 0) (D 1 0) (D 1 1) (D 2 0) (D 2 1) (D 2 2)
          let g ← calcKG33 shipped p.a p.b x.1 x.2.1 x.2.2.1 x.2.2.2 p.Nxx p.Nyy p.Nxy
          return (k, g)) = (.error .zeroDivisionError : Except PyErr (ℝ × ℝ)) := by
    intro x hx
    obtain ⟨y, hy, hx⟩ := List.mem_flatMap.mp hx
    obtain ⟨z, hz, rfl⟩ := List.mem_map.mp hx
    obtain ⟨hi, hj⟩ := hr y hy
    obtain ⟨hk, hl⟩ := hr z hz
    have h := shipped_ok
    have hab : p.a * p.b = 0 := by rcases h0 with h | h <;> simp [h]
    by_cases ha : p.a = 0 <;>
    simp [calcK33, rmul, pyDiv, h.ff _ _ hi hk, h.ff _ _ hj hl, h.fxi_f _ _ hi hk, h.fxi_f _ _ hj hl,
      h.f_fxi _ _ hi hk, h.f_fxi _ _ hj hl, h.fxi_fxi _ _ hi hk, h.fxi_fxi _ _ hj hl, h.fxixi_f _ _ hi hk,
      h.fxixi_f _ _ hj hl, h.f_fxixi _ _ hi hk, h.f_fxixi _ _ hj hl, h.fxixi_fxi _ _ hi hk, h.fxixi_fxi _ _ hj hl,
      h.fxi_fxixi _ _ hi hk, h.fxi_fxixi _ _ hj hl, h.fxixi_fxixi _ _ hi hk, h.fxixi_fxixi _ _ hj hl, ha, hab]
  rw [calcKKGD_eq _ D c p s hs, mapM_err _ _ .zeroDivisionError]
  · rfl
  · exact fun x hx => Or.inr (hz x hx)
  · have hlen := (C40_sizes c _ _ s hs).2.2.len
    have hpos : 0 < s.w.length := by rw [hlen]; exact Nat.mul_pos hm hn
    obtain ⟨q, hq⟩ := List.exists_mem_of_length_pos hpos
    have hmem : (q.1, q.2, q.1, q.2) ∈ (s.w.flatMap fun p => s.w.map fun q => (p.1, p.2, q.1, q.2)) :=
      List.mem_flatMap.mpr ⟨q, hq, List.mem_map.mpr ⟨q, hq, rfl⟩⟩
    exact ⟨_, hmem, hz _ hmem⟩

/-- What a successful call returned. -/
theorem calcKKGD_inv {D : Except PyErr (Matrix (Fin 3) (Fin 3) ℝ)} {c : Constraints} {p : PlateNum}
    {K KG : SqMat (p.m * p.n)} (hm : 1 ≤ p.m) (hn : 1 ≤ p.n) (h : calcKKGD shipped D c p = .ok (K, KG)) :
    ∃ M s, D = .ok M ∧ computeIdx c p.m p.n = .ok s ∧ p.a ≠ 0 ∧ p.b ≠ 0 ∧ (∀ q ∈ s.w, q.1 < 30 ∧ q.2 < 30) ∧
      K = kMat shippedV p.a p.b M s.w _ ∧ KG = gMat shippedV p.a p.b p.Nxx p.Nyy p.Nxy s.w _ := by
  cases D with
  | error e => simp [calcKKGD] at h
  | ok M =>
  cases hs : computeIdx c p.m p.n with
  | error e => simp [calcKKGD, constraintQuads_eq, hs] at h
  | ok s =>
    have hpos : 0 < s.w.length := by
      rw [(C40_sizes c _ _ s hs).2.2.len]; exact Nat.mul_pos hm hn
    obtain ⟨q0, hq0⟩ := List.exists_mem_of_length_pos hpos
    have hside : p.a ≠ 0 ∧ p.b ≠ 0 := by
      by_contra hcon
      -- every loop body fails
      rw [calcKKGD_eq _ M c p s hs] at h
      have hfail : ∀ x : ℕ × ℕ × ℕ × ℕ, ∃ e,
          (do let k ← calcK33 shipped p.a p.b x.1 x.2.1 x.2.2.1 x.2.2.2 (M 0 0) (M 1 0) (M 1 1) (M 2 0) (M 2 1) (M 2 2)
              let g ← calcKG33 shipped p.a p.b x.1 x.2.1 x.2.2.1 x.2.2.2 p.Nxx p.Nyy p.Nxy
              return (k, g)) = (.error e : Except PyErr (ℝ × ℝ)) := by
        intro x
        by_cases hg : x.1 < 30 ∧ x.2.1 < 30 ∧ x.2.2.1 < 30 ∧ x.2.2.2 < 30
        · obtain ⟨hi, hj, hk, hl⟩ := hg
          have h := shipped_ok
          have hab : p.a * p.b = 0 := by
            by_contra hne
            exact hcon ⟨left_ne_zero_of_mul hne, right_ne_zero_of_mul hne⟩
          refine ⟨.zeroDivisionError, ?_⟩
          by_cases ha : p.a = 0 <;>
          simp [calcK33, rmul, pyDiv, h.ff _ _ hi hk, h.ff _ _ hj hl, h.fxi_f _ _ hi hk, h.fxi_f _ _ hj hl,
            h.f_fxi _ _ hi hk, h.f_fxi _ _ hj hl, h.fxi_fxi _ _ hi hk, h.fxi_fxi _ _ hj hl, h.fxixi_f _ _ hi hk,
            h.fxixi_f _ _ hj hl, h.f_fxixi _ _ hi hk, h.f_fxixi _ _ hj hl, h.fxixi_fxi _ _ hi hk,
            h.fxixi_fxi _ _ hj hl, h.fxi_fxixi _ _ hi hk, h.fxi_fxixi _ _ hj hl, h.fxixi_fxixi _ _ hi hk,
            h.fxixi_fxixi _ _ hj hl, ha, hab]
        · exact ⟨.keyError, by rw [calcK33_err hg]; rfl⟩
      have hne : (s.w.flatMap fun p => s.w.map fun q => (p.1, p.2, q.1, q.2)) ≠ [] := by
        intro hnil
        have : (q0.1, q0.2, q0.1, q0.2) ∈ (s.w.flatMap fun p => s.w.map fun q => (p.1, p.2, q.1, q.2)) :=
          List.mem_flatMap.mpr ⟨q0, hq0, List.mem_map.mpr ⟨q0, hq0, rfl⟩⟩
        rw [hnil] at this
        cases this
      obtain ⟨x, xs, hx⟩ := List.exists_cons_of_ne_nil hne
      obtain ⟨e, he⟩ := hfail x
      rw [hx, List.mapM_cons, he] at h
      simp at h
    have hgood : ∀ q ∈ s.w, q.1 < 30 ∧ q.2 < 30 := by
      by_contra hcon
      push Not at hcon
      obtain ⟨q, hq, hb⟩ := hcon
      rw [(C51_computed_iff M c p s hs hside.1 hside.2).2 ⟨q, hq, fun hh => absurd hh.2 (by have := hb hh.1; omega)⟩] at h
      cases h
    rw [calcKKGD_ok shipped_ok M c p s hs hside.1 hside.2 hgood] at h
    have h' := Prod.mk.inj (Except.ok.inj h)
    exact ⟨M, s, rfl, rfl, hside.1, hside.2, hgood, h'.1.symm, h'.2.symm⟩

/-- Non-vacuity for C51 and C48: a 26 by 26 discretisation with mixed constraints is computed. -/
example : ∃ K, calcKKGD shipped (.ok !![1, 0.3, 0.1; 0.3, 2, 0.2; 0.1, 0.2, 0.5])
    (.dict (some (.word wClamped)) (some (.word wFree)) (some (.word wPinned)) (some (.word wClamped)))
    ⟨360, 120, -1, 0, 0.5, 26, 26⟩ = .ok K :=
  C51_no_key_error _ _ _ ((C40_accepted_iff _ _ _).mpr ⟨_, rfl⟩) (by norm_num) (by norm_num) le_rfl le_rfl

/-! ## C48 -/

/-- **C48** whenever `calc_K_KG_D` returns, both matrices are symmetric — also for an unsymmetric `D`,
since only entries on and below its diagonal are used. -/
theorem C48_symmetric (D : Except PyErr (Matrix (Fin 3) (Fin 3) ℝ)) (c : Constraints) (p : PlateNum)
    (hm : 1 ≤ p.m) (hn : 1 ≤ p.n) (K KG : SqMat (p.m * p.n)) (h : calcKKGD shipped D c p = .ok (K, KG)) :
    K.IsSymm ∧ KG.IsSymm := by
  obtain ⟨M, s, -, -, -, -, -, rfl, rfl⟩ := calcKKGD_inv hm hn h
  have S := shippedV_sym
  constructor
  · refine Matrix.IsSymm.ext fun r c => ?_
    simp only [kMat, Matrix.of_apply, k33v]
    set x := s.w.getD r (0, 0)
    set y := s.w.getD c (0, 0)
    rw [(S y.1 x.1).1, (S y.2 x.2).1, (S y.1 x.1).2.1, (S y.2 x.2).2.1, (S y.1 x.1).2.2.1, (S y.2 x.2).2.2.1,
      (S y.1 x.1).2.2.2.1, (S y.2 x.2).2.2.2.1, (S y.1 x.1).2.2.2.2.1, (S y.2 x.2).2.2.2.2.1,
      (S y.1 x.1).2.2.2.2.2, (S y.2 x.2).2.2.2.2.2,
      (S x.1 y.1).2.2.2.1, (S x.2 y.2).2.2.2.1, (S x.1 y.1).2.2.2.2.1, (S x.2 y.2).2.2.2.2.1,
      (S x.1 y.1).2.2.2.2.2, (S x.2 y.2).2.2.2.2.2]
    ring
  · refine Matrix.IsSymm.ext fun r c => ?_
    simp only [gMat, Matrix.of_apply, g33v]
    set x := s.w.getD r (0, 0)
    set y := s.w.getD c (0, 0)
    rw [(S y.1 x.1).1, (S y.2 x.2).1, (S y.1 x.1).2.1, (S y.2 x.2).2.1,
      (S y.1 x.1).2.2.2.1, (S y.2 x.2).2.2.2.1, (S x.1 y.1).2.2.2.1, (S x.2 y.2).2.2.2.1]
    ring

/-! ## C50 -/

/-- **C50** `K` is linear in `D` and does not depend on the loads; `KG` is linear in the loads and does not
depend on the laminate. -/
theorem C50_linear (D1 D2 : Matrix (Fin 3) (Fin 3) ℝ) (c : Constraints) (p : PlateNum) (Mxx Myy Mxy s t : ℝ)
    (hm : 1 ≤ p.m) (hn : 1 ≤ p.n)
    (K1 KG1 : SqMat (p.m * p.n)) (h1 : calcKKGD shipped (.ok D1) c p = .ok (K1, KG1)) :
    ∃ K2 KG2 : SqMat (p.m * p.n),
      calcKKGD shipped (.ok D2) c { p with Nxx := Mxx, Nyy := Myy, Nxy := Mxy } = .ok (K2, KG2) ∧
      calcKKGD shipped (.ok (s • D1 + t • D2)) c
        { p with Nxx := s * p.Nxx + t * Mxx, Nyy := s * p.Nyy + t * Myy, Nxy := s * p.Nxy + t * Mxy } =
          .ok (s • K1 + t • K2, s • KG1 + t • KG2) ∧
      calcKKGD shipped (.ok D1) c { p with Nxx := Mxx, Nyy := Myy, Nxy := Mxy } = .ok (K1, KG2) := by
  obtain ⟨M, i, hM, hi, ha, hb, hr, rfl, rfl⟩ := calcKKGD_inv hm hn h1
  cases hM
  refine ⟨_, _, calcKKGD_ok shipped_ok D2 c { p with Nxx := Mxx, Nyy := Myy, Nxy := Mxy } i hi ha hb hr, ?_, ?_⟩
  · rw [← kMat_lin, ← gMat_lin]
    exact calcKKGD_ok shipped_ok (s • D1 + t • D2) c
      ⟨p.a, p.b, s * p.Nxx + t * Mxx, s * p.Nyy + t * Myy, s * p.Nxy + t * Mxy, p.m, p.n⟩ i hi ha hb hr
  · exact calcKKGD_ok shipped_ok D1 c ⟨p.a, p.b, Mxx, Myy, Mxy, p.m, p.n⟩ i hi ha hb hr

/-- `(lam, v)` solves the buckling problem `(K + lam KG) v = 0`. -/
def Spec.Buckles {N : ℕ} (K KG : SqMat N) (lam : ℝ) (v : Fin N → ℝ) : Prop :=
  v ≠ 0 ∧ (K + lam • KG).mulVec v = 0

/-- **C50** scaling all loads by `s ≠ 0` divides the buckling multipliers by `s` and keeps the modes. -/
theorem C50_load_scaling (D : Matrix (Fin 3) (Fin 3) ℝ) (c : Constraints) (p : PlateNum) (s : ℝ) (hs : s ≠ 0)
    (hm : 1 ≤ p.m) (hn : 1 ≤ p.n) (K KG : SqMat (p.m * p.n)) (h : calcKKGD shipped (.ok D) c p = .ok (K, KG)) :
    ∃ KG', calcKKGD shipped (.ok D) c { p with Nxx := s * p.Nxx, Nyy := s * p.Nyy, Nxy := s * p.Nxy } = .ok (K, KG') ∧
      ∀ lam v, Buckles K KG lam v ↔ Buckles K KG' (lam / s) v := by
  obtain ⟨M, i, hM, hi, ha, hb, hr, rfl, rfl⟩ := calcKKGD_inv hm hn h
  cases hM
  refine ⟨_, calcKKGD_ok shipped_ok D c ⟨p.a, p.b, s * p.Nxx, s * p.Nyy, s * p.Nxy, p.m, p.n⟩ i hi ha hb hr,
    fun lam v => ?_⟩
  unfold Buckles
  dsimp only
  rw [gMat_smul, smul_smul, div_mul_cancel₀ _ hs]

/-- **C50** scaling the bending stiffness by `s` multiplies the buckling multipliers by `s`. -/
theorem C50_stiffness_scaling (D : Matrix (Fin 3) (Fin 3) ℝ) (c : Constraints) (p : PlateNum) (s : ℝ) (hs : s ≠ 0)
    (hm : 1 ≤ p.m) (hn : 1 ≤ p.n) (K KG : SqMat (p.m * p.n)) (h : calcKKGD shipped (.ok D) c p = .ok (K, KG)) :
    ∃ K', calcKKGD shipped (.ok (s • D)) c p = .ok (K', KG) ∧
      ∀ lam v, Buckles K KG lam v ↔ Buckles K' KG (s * lam) v := by
  obtain ⟨M, i, hM, hi, ha, hb, hr, rfl, rfl⟩ := calcKKGD_inv hm hn h
  cases hM
  refine ⟨_, calcKKGD_ok shipped_ok (s • D) c p i hi ha hb hr, fun lam v => ?_⟩
  unfold Buckles
  rw [kMat_smul, mul_smul, ← smul_add, Matrix.smul_mulVec, smul_eq_zero]
  simp [hs]

end Composipy
