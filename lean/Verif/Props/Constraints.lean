import Verif.Model.Constraints
import Mathlib.Data.List.Sort
import Mathlib.Data.Prod.Lex
import Mathlib.Tactic.Linarith

/-!
# C40-C43: index sets chosen by the boundary conditions
-/

namespace Composipy

/-! ## Specification -/

/-- Shape function number `i` of one direction is kept when the translation (rotation) flags of the
lower edge remove 0 (1) and those of the upper edge remove 2 (3). -/
def Spec.Kept (t0 r0 t1 r1 : Prop) (i : Nat) : Prop :=
  ¬ (i = 0 ∧ t0) ∧ ¬ (i = 1 ∧ r0) ∧ ¬ (i = 2 ∧ t1) ∧ ¬ (i = 3 ∧ r1)

/-- `l` lists the first `m` kept numbers in increasing order. -/
structure Spec.IsFirst (m : Nat) (p : Nat → Prop) (l : List Nat) : Prop where
  len : l.length = m
  sorted : l.Pairwise (· < ·)
  sound : ∀ i ∈ l, p i
  complete : ∀ i ∈ l, ∀ j < i, p j → j ∈ l

open Spec

theorem Spec.IsFirst.unique {m : Nat} {p : Nat → Prop} {l1 l2 : List Nat} (h1 : IsFirst m p l1)
    (h2 : IsFirst m p l2) : l1 = l2 := by
  have key : ∀ {l1 l2 : List Nat}, IsFirst m p l1 → IsFirst m p l2 → l1 ⊆ l2 := by
    intro l1 l2 h1 h2 i hi
    by_contra hn
    -- every element of `l2` is below `i`, hence in `l1`
    have hsub : l2 ⊆ l1 := by
      intro j hj
      rcases lt_trichotomy j i with h | h | h
      · exact h1.complete i hi j h (h2.sound j hj)
      · exact h ▸ hi
      · exact absurd (h2.complete j hj i h (h1.sound i hi)) hn
    have hnd1 : l1.Nodup := h1.sorted.imp fun h => Nat.ne_of_lt h
    have hnd2 : l2.Nodup := h2.sorted.imp fun h => Nat.ne_of_lt h
    have hcons : (i :: l2).Nodup := List.nodup_cons.mpr ⟨hn, hnd2⟩
    have : (i :: l2).length ≤ l1.length :=
      (List.subperm_of_subset hcons (List.cons_subset.mpr ⟨hi, hsub⟩)).length_le
    rw [List.length_cons, h1.len, h2.len] at this
    omega
  have p12 : l1.Perm l2 := by
    have hnd1 : l1.Nodup := h1.sorted.imp fun h => Nat.ne_of_lt h
    have hnd2 : l2.Nodup := h2.sorted.imp fun h => Nat.ne_of_lt h
    exact (List.perm_ext_iff_of_nodup hnd1 hnd2).mpr fun a => ⟨fun h => key h1 h2 h, fun h => key h2 h1 h⟩
  exact List.Perm.eq_of_pairwise (fun a b _ _ hab hba => by omega) h1.sorted h2.sorted p12

/-! ## The removals -/

theorem removeIf_ok (b : Bool) (v : Nat) (l : List Nat) (hv : v ∈ l) (hnd : l.Nodup) :
    removeIf b v l = .ok (l.filter fun i => ! (b && i == v)) := by
  cases b
  · simp [removeIf]
  · simp only [removeIf, pyRemove, hv, if_true, Bool.true_and]
    rw [hnd.erase_eq_filter]
    rfl

/-- What the removals leave. -/
def keptList (t0 r0 t1 r1 : Bool) (M : Nat) : List Nat :=
  (List.range M).filter fun i =>
    !(t0 && i == 0) && !(r0 && i == 1) && !(t1 && i == 2) && !(r1 && i == 3)

theorem removals_ok (e0 e1 : Edge) (t r : Str) (m : Nat) :
    removals e0 e1 t r (List.range (m + 4)) = .ok (keptList (e0.has t) (e0.has r) (e1.has t) (e1.has r) (m + 4)) := by
  have hnd := List.nodup_range (n := m + 4)
  unfold removals
  rw [removeIf_ok _ 0 _ (by simp) hnd, ok_bind, removeIf_ok _ 1 _ (by simp) (hnd.filter _), ok_bind,
    removeIf_ok _ 2 _ (by simp) ((hnd.filter _).filter _), ok_bind,
    removeIf_ok _ 3 _ (by simp) (((hnd.filter _).filter _).filter _)]
  simp only [keptList, List.filter_filter]
  congr 2
  funext i
  cases e0.has t <;> cases e0.has r <;> cases e1.has t <;> cases e1.has r <;> simp <;>
    cases h0 : i == 0 <;> cases h1 : i == 1 <;> cases h2 : i == 2 <;> cases h3 : i == 3 <;> simp

theorem keptList_length (t0 r0 t1 r1 : Bool) (m : Nat) : m ≤ (keptList t0 r0 t1 r1 (m + 4)).length := by
  have h := List.length_eq_length_filter_add (l := List.range (m + 4))
    (fun i => !(t0 && i == 0) && !(r0 && i == 1) && !(t1 && i == 2) && !(r1 && i == 3))
  have hsub : ((List.range (m + 4)).filter fun i =>
      !(!(t0 && i == 0) && !(r0 && i == 1) && !(t1 && i == 2) && !(r1 && i == 3))) ⊆ [0, 1, 2, 3] := by
    intro i hi
    simp only [List.mem_filter, Bool.not_eq_true', Bool.and_eq_false_iff, Bool.not_eq_false', Bool.and_eq_true,
      beq_iff_eq] at hi
    simp only [List.mem_cons, List.not_mem_nil, or_false]
    tauto
  have hle := (List.subperm_of_subset ((List.nodup_range (n := m + 4)).filter fun i =>
      !(!(t0 && i == 0) && !(r0 && i == 1) && !(t1 && i == 2) && !(r1 && i == 3))) hsub).length_le
  simp only [List.length_range, List.length_cons, List.length_nil] at h hle
  unfold keptList
  omega

/-- The sliced list contains the first `m` numbers kept by the flags. -/
theorem keptList_isFirst (t0 r0 t1 r1 : Bool) (m : Nat) :
    IsFirst m (Kept (t0 = true) (r0 = true) (t1 = true) (r1 = true)) ((keptList t0 r0 t1 r1 (m + 4)).take m) := by
  have hs : (keptList t0 r0 t1 r1 (m + 4)).Pairwise (· < ·) := (List.pairwise_lt_range (n := m + 4)).filter _
  have hmem : ∀ i, i ∈ keptList t0 r0 t1 r1 (m + 4) ↔
      i < m + 4 ∧ Kept (t0 = true) (r0 = true) (t1 = true) (r1 = true) i := by
    intro i
    simp only [keptList, List.mem_filter, List.mem_range, Kept, Bool.and_eq_true, Bool.not_eq_true',
      Bool.and_eq_false_iff, beq_eq_false_iff_ne]
    cases t0 <;> cases r0 <;> cases t1 <;> cases r1 <;> simp <;> tauto
  refine ⟨?_, hs.sublist (List.take_sublist _ _), ?_, ?_⟩
  · rw [List.length_take, Nat.min_eq_left (keptList_length t0 r0 t1 r1 m)]
  · intro i hi
    exact ((hmem i).mp (List.mem_of_mem_take hi)).2
  · intro i hi j hj hp
    have hi' := (hmem i).mp (List.mem_of_mem_take hi)
    have hj' : j ∈ keptList t0 r0 t1 r1 (m + 4) := (hmem j).mpr ⟨by omega, hp⟩
    obtain ⟨a, ha, rfl⟩ := List.mem_iff_getElem.mp hi
    obtain ⟨b, hb, rfl⟩ := List.mem_iff_getElem.mp hj'
    rw [List.getElem_take] at hj
    have ha' : a < m ∧ a < (keptList t0 r0 t1 r1 (m + 4)).length := by
      rw [List.length_take] at ha; omega
    have hab : b < a := by
      by_contra hn
      rcases Nat.lt_or_ge a b with h | h
      · have := List.pairwise_iff_getElem.mp hs a b ha'.2 hb h
        omega
      · have : a = b := by omega
        subst this
        exact lt_irrefl _ hj
    rw [List.mem_iff_getElem]
    exact ⟨b, by rw [List.length_take]; omega, by rw [List.getElem_take]⟩

theorem idxLists_ok (e : Edges) (m n : Nat) : ∃ i, idxLists e m n = .ok i ∧
    IsFirst m (Kept (e.x0.has TX) (e.x0.has RX) (e.xa.has TX) (e.xa.has RX)) i.um ∧
    IsFirst m (Kept (e.x0.has TY) (e.x0.has RY) (e.xa.has TY) (e.xa.has RY)) i.vm ∧
    IsFirst m (Kept (e.x0.has TZ) (e.x0.has RZ) (e.xa.has TZ) (e.xa.has RZ)) i.wm ∧
    IsFirst n (Kept (e.y0.has TX) (e.y0.has RX) (e.yb.has TX) (e.yb.has RX)) i.un ∧
    i.vn = i.un ∧ i.wn = i.un := by
  have hU := keptList_isFirst (e.y0.has TX) (e.y0.has RX) (e.yb.has TX) (e.yb.has RX) n
  refine ⟨_, by simp only [idxLists, removals_ok, ok_bind, pure_eq_ok]; rfl, keptList_isFirst _ _ _ _ m,
    keptList_isFirst _ _ _ _ m, keptList_isFirst _ _ _ _ m, hU, ?_, ?_⟩ <;>
  · simp only []
    rw [List.take_of_length_le (Nat.le_of_eq hU.len)]

/-! ## C40 -/

/-- Pairs in increasing (row-major) order. -/
def Spec.RowMajor (l : List (Nat × Nat)) : Prop :=
  l.Pairwise fun p q => p.1 < q.1 ∨ p.1 = q.1 ∧ p.2 < q.2

theorem product_rowMajor {xs ys : List Nat} (hx : xs.Pairwise (· < ·)) (hy : ys.Pairwise (· < ·)) :
    RowMajor (xs.product ys) := by
  induction xs with
  | nil => exact List.Pairwise.nil
  | cons x xs ih =>
    rw [List.pairwise_cons] at hx
    show List.Pairwise _ (ys.map (Prod.mk x) ++ xs.product ys)
    rw [List.pairwise_append]
    refine ⟨?_, ih hx.2, ?_⟩
    · rw [List.pairwise_map]
      exact hy.imp fun h => Or.inr ⟨rfl, h⟩
    · intro p hp q hq
      obtain ⟨b, -, rfl⟩ := List.mem_map.mp hp
      exact Or.inl (hx.1 q.1 (List.mem_product.mp hq).1)

/-- What C40 asks of one index set. -/
structure Spec.GoodIdx (m n : Nat) (l : List (Nat × Nat)) : Prop where
  len : l.length = m * n
  nodup : l.Nodup
  ordered : RowMajor l

theorem goodIdx {m n : Nat} {p q : Nat → Prop} {xs ys : List Nat} (hx : IsFirst m p xs) (hy : IsFirst n q ys) :
    GoodIdx m n (xs.product ys) :=
  ⟨by rw [show xs.product ys = xs ×ˢ ys from rfl, List.length_product, hx.len, hy.len],
   List.Nodup.product (hx.sorted.imp fun h => Nat.ne_of_lt h) (hy.sorted.imp fun h => Nat.ne_of_lt h),
   product_rowMajor hx.sorted hy.sorted⟩

/-- **C40** each displacement gets `m*n` pairs, without repetition, in increasing order. -/
theorem C40_sizes (c : Constraints) (m n : Nat) (s : ShapeIdx) (h : computeIdx c m n = .ok s) :
    GoodIdx m n s.u ∧ GoodIdx m n s.v ∧ GoodIdx m n s.w := by
  unfold computeIdx at h
  cases he : chooseEdges c with
  | error e => simp [he] at h
  | ok e =>
    obtain ⟨i, hi, h1, h2, h3, h4, h5, h6⟩ := idxLists_ok e m n
    simp only [he, hi, ok_bind, pure_eq_ok, Except.ok.injEq] at h
    subst h
    exact ⟨goodIdx h1 h4, goodIdx h2 (h5 ▸ h4), goodIdx h3 (h6 ▸ h4)⟩

/-- **C40** the index sets can be computed for every constraints value whose edges can be read. -/
theorem C40_accepted_iff (c : Constraints) (m n : Nat) :
    (∃ s, computeIdx c m n = .ok s) ↔ ∃ e, chooseEdges c = .ok e := by
  unfold computeIdx
  cases he : chooseEdges c with
  | error e => simp
  | ok e =>
    obtain ⟨i, hi, -⟩ := idxLists_ok e m n
    simp [hi]

/-! ## C41 -/

theorem word_dict (w0 wa v0 vb : Str) :
    chooseEdges (.dict (some (.word w0)) (some (.word wa)) (some (.word v0)) (some (.word vb))) = (do
      let x0 ← boundaryConditions (strLower w0)
      let xa ← boundaryConditions (strLower wa)
      let y0 ← boundaryConditions (strLower v0)
      let yb ← boundaryConditions (strLower vb)
      return ⟨.flags x0, .flags xa, .flags y0, .flags yb⟩) := by
  simp only [chooseEdges, keyIsStr, getKey, Edge.isStr, ok_bind, pure_eq_ok, if_true, wordFlags]
  cases boundaryConditions (strLower w0) <;> cases boundaryConditions (strLower wa) <;>
    cases boundaryConditions (strLower v0) <;> cases boundaryConditions (strLower vb) <;> rfl

/-- The words for a simply supported edge, in any letter case. -/
def Spec.IsPinnedWord (w : Str) : Prop := strLower w = wPinned ∨ strLower w = wSimplySupported
/-- The words for a clamped edge, in any letter case. -/
def Spec.IsClampedWord (w : Str) : Prop := strLower w = wClamped ∨ strLower w = wFixed
/-- The word for a free edge, in any letter case. -/
def Spec.IsFreeWord (w : Str) : Prop := strLower w = wFree

theorem bc_pinned {w : Str} (h : IsPinnedWord w) : boundaryConditions (strLower w) = .ok pinnedFlags := by
  rcases h with h | h <;> rw [h] <;> decide +kernel

theorem bc_clamped {w : Str} (h : IsClampedWord w) : boundaryConditions (strLower w) = .ok clampedFlags := by
  rcases h with h | h <;> rw [h] <;> decide +kernel

theorem bc_free {w : Str} (h : IsFreeWord w) : boundaryConditions (strLower w) = .ok [] := by
  unfold IsFreeWord at h; rw [h]; decide +kernel

theorem bc_unknown {w : Str} (h1 : ¬ IsPinnedWord w) (h2 : ¬ IsClampedWord w) (h3 : ¬ IsFreeWord w) :
    boundaryConditions (strLower w) = .error .keyError := by
  unfold IsPinnedWord IsClampedWord IsFreeWord at *
  simp only [not_or] at h1 h2
  simp [boundaryConditions, h1, h2, h3]

/-- **C41** `'PINNED'`, the default and four pinned words give the same index sets. -/
theorem C41_pinned (m n : Nat) (w0 wa v0 vb : Str) (h0 : IsPinnedWord w0) (ha : IsPinnedWord wa)
    (g0 : IsPinnedWord v0) (gb : IsPinnedWord vb) :
    computeIdx (.dict (some (.word w0)) (some (.word wa)) (some (.word v0)) (some (.word vb))) m n =
      computeIdx (.str wPINNED) m n ∧
    computeIdx defaultConstraints m n = computeIdx (.str wPINNED) m n ∧
    ∃ s, computeIdx (.str wPINNED) m n = .ok s := by
  refine ⟨?_, ?_, ?_⟩
  · simp only [computeIdx, word_dict, bc_pinned h0, bc_pinned ha, bc_pinned g0, bc_pinned gb, ok_bind, pure_eq_ok]
    rfl
  · rfl
  · rw [C40_accepted_iff]; exact ⟨_, rfl⟩

/-- **C41** `'CLAMPED'` and four clamped words give the same index sets. -/
theorem C41_clamped (m n : Nat) (w0 wa v0 vb : Str) (h0 : IsClampedWord w0) (ha : IsClampedWord wa)
    (g0 : IsClampedWord v0) (gb : IsClampedWord vb) :
    computeIdx (.dict (some (.word w0)) (some (.word wa)) (some (.word v0)) (some (.word vb))) m n =
      computeIdx (.str wCLAMPED) m n ∧ ∃ s, computeIdx (.str wCLAMPED) m n = .ok s := by
  refine ⟨?_, ?_⟩
  · simp only [computeIdx, word_dict, bc_clamped h0, bc_clamped ha, bc_clamped g0, bc_clamped gb, ok_bind, pure_eq_ok]
    rfl
  · rw [C40_accepted_iff]; exact ⟨_, rfl⟩

/-- **C41** a dictionary of four words is accepted exactly when every word is known; otherwise
`KeyError`. -/
theorem C41_unknown_word (m n : Nat) (w0 wa v0 vb : Str) :
    ((∃ s, computeIdx (.dict (some (.word w0)) (some (.word wa)) (some (.word v0)) (some (.word vb))) m n = .ok s) ↔
      ∀ w ∈ [w0, wa, v0, vb], IsPinnedWord w ∨ IsClampedWord w ∨ IsFreeWord w) ∧
    ((∃ w ∈ [w0, wa, v0, vb], ¬ IsPinnedWord w ∧ ¬ IsClampedWord w ∧ ¬ IsFreeWord w) →
      computeIdx (.dict (some (.word w0)) (some (.word wa)) (some (.word v0)) (some (.word vb))) m n =
        .error .keyError) := by
  have known : ∀ w, (IsPinnedWord w ∨ IsClampedWord w ∨ IsFreeWord w) ∧ (∃ f, boundaryConditions (strLower w) = .ok f) ∨
      (¬ (IsPinnedWord w ∨ IsClampedWord w ∨ IsFreeWord w)) ∧ boundaryConditions (strLower w) = .error .keyError := by
    intro w
    by_cases h1 : IsPinnedWord w
    · exact Or.inl ⟨Or.inl h1, _, bc_pinned h1⟩
    · by_cases h2 : IsClampedWord w
      · exact Or.inl ⟨Or.inr (Or.inl h2), _, bc_clamped h2⟩
      · by_cases h3 : IsFreeWord w
        · exact Or.inl ⟨Or.inr (Or.inr h3), _, bc_free h3⟩
        · exact Or.inr ⟨by tauto, bc_unknown h1 h2 h3⟩
  constructor
  · rw [C40_accepted_iff, word_dict]
    simp only [List.forall_mem_cons, List.not_mem_nil, IsEmpty.forall_iff, implies_true, and_true]
    rcases known w0 with ⟨k0, f0, e0⟩ | ⟨k0, e0⟩ <;> rcases known wa with ⟨ka, fa, ea⟩ | ⟨ka, ea⟩ <;>
      rcases known v0 with ⟨k1, f1, e1⟩ | ⟨k1, e1⟩ <;> rcases known vb with ⟨kb, fb, eb⟩ | ⟨kb, eb⟩ <;>
      simp [e0, ea, e1, eb, k0, ka, k1, kb]
  · rintro ⟨w, hw, n1, n2, n3⟩
    unfold computeIdx
    rw [word_dict]
    simp only [List.mem_cons, List.not_mem_nil, or_false] at hw
    rcases known w0 with ⟨k0, f0, e0⟩ | ⟨k0, e0⟩ <;> rcases known wa with ⟨ka, fa, ea⟩ | ⟨ka, ea⟩ <;>
      rcases known v0 with ⟨k1, f1, e1⟩ | ⟨k1, e1⟩ <;> rcases known vb with ⟨kb, fb, eb⟩ | ⟨kb, eb⟩ <;>
      simp [e0, ea, e1, eb]
    rcases hw with rfl | rfl | rfl | rfl <;> tauto

/-- **C41** any other plain text, such as `'pinned'`, raises `TypeError`; a missing edge raises
`KeyError`. -/
theorem C41_other_values (m n : Nat) :
    (∀ s, s ≠ wPINNED → s ≠ wCLAMPED → computeIdx (.str s) m n = .error .typeError) ∧
    (∀ x0 xa y0 yb, (x0 = none ∨ xa = none ∨ y0 = none ∨ yb = none) →
      computeIdx (.dict x0 xa y0 yb) m n = .error .keyError) := by
  constructor
  · intro s h1 h2
    simp [computeIdx, chooseEdges, h1, h2]
  · intro x0 xa y0 yb h
    have : chooseEdges (.dict x0 xa y0 yb) = .error .keyError := by
      rcases x0 with _ | (x0 | x0)
      · rfl
      · rcases xa with _ | (xa | xa)
        · rfl
        · rcases y0 with _ | (y0 | y0)
          · rfl
          · rcases yb with _ | (yb | yb)
            · rfl
            · simp at h
            · simp at h
          · rcases yb with _ | yb
            · rfl
            · simp at h
        · rcases y0 with _ | y0
          · rfl
          · rcases yb with _ | yb
            · rfl
            · simp at h
      · rcases xa with _ | xa
        · rfl
        · rcases y0 with _ | y0
          · rfl
          · rcases yb with _ | yb
            · rfl
            · simp at h
    simp [computeIdx, this]

/-- Non-vacuity for C40, C41: mixed-case words. -/
example : IsPinnedWord "Simply_Supported".toList ∧ IsPinnedWord "PinneD".toList ∧ IsClampedWord "FIXED".toList ∧
    IsFreeWord "Free".toList := by
  unfold IsPinnedWord IsClampedWord IsFreeWord
  decide

/-! ## C42 (refuted on y edges) -/

/-- A dictionary of four flag lists. -/
def Spec.flagDict (x0 xa y0 yb : List Str) : Constraints :=
  .dict (some (.flags x0)) (some (.flags xa)) (some (.flags y0)) (some (.flags yb))

/-- One displacement honours its own flags (`t`, `r`) on the four edges: its index set is made of the
first `m` kept x-functions and the first `n` kept y-functions. -/
def Spec.Honours (x0 xa y0 yb : List Str) (t r : Str) (m n : Nat) (l : List (Nat × Nat)) : Prop :=
  ∃ xs ys, l = xs.product ys ∧ IsFirst m (Kept (t ∈ x0) (r ∈ x0) (t ∈ xa) (r ∈ xa)) xs ∧
    IsFirst n (Kept (t ∈ y0) (r ∈ y0) (t ∈ yb) (r ∈ yb)) ys

theorem flagDict_idx (x0 xa y0 yb : List Str) (m n : Nat) : ∃ s um vm wm un,
    computeIdx (flagDict x0 xa y0 yb) m n = .ok s ∧ s = ⟨um.product un, vm.product un, wm.product un⟩ ∧
    IsFirst m (Kept (TX ∈ x0) (RX ∈ x0) (TX ∈ xa) (RX ∈ xa)) um ∧
    IsFirst m (Kept (TY ∈ x0) (RY ∈ x0) (TY ∈ xa) (RY ∈ xa)) vm ∧
    IsFirst m (Kept (TZ ∈ x0) (RZ ∈ x0) (TZ ∈ xa) (RZ ∈ xa)) wm ∧
    IsFirst n (Kept (TX ∈ y0) (RX ∈ y0) (TX ∈ yb) (RX ∈ yb)) un := by
  obtain ⟨i, hi, h1, h2, h3, h4, h5, h6⟩ := idxLists_ok ⟨.flags x0, .flags xa, .flags y0, .flags yb⟩ m n
  simp only [Edge.has, List.contains_iff_mem] at h1 h2 h3 h4
  refine ⟨_, i.um, i.vm, i.wm, i.un, ?_, rfl, h1, h2, h3, h4⟩
  have : chooseEdges (flagDict x0 xa y0 yb) = .ok ⟨.flags x0, .flags xa, .flags y0, .flags yb⟩ := rfl
  simp only [computeIdx, this, hi, ok_bind, pure_eq_ok, h5, h6]

/-- **C42** what holds.  The u index set honours TX/RX on all four edges.  For v and w the x edges are
honoured, while the y edges follow TX/RX.  So v and w honour their own flags whenever the y edges
carry TY (TZ) with TX and RY (RZ) with RX.  Missing: y edges with different flags. -/
theorem C42_own_flags_partial (x0 xa y0 yb : List Str) (m n : Nat) : ∃ s,
    computeIdx (flagDict x0 xa y0 yb) m n = .ok s ∧ Honours x0 xa y0 yb TX RX m n s.u ∧
    (∃ xs ys, s.v = xs.product ys ∧ IsFirst m (Kept (TY ∈ x0) (RY ∈ x0) (TY ∈ xa) (RY ∈ xa)) xs ∧
      IsFirst n (Kept (TX ∈ y0) (RX ∈ y0) (TX ∈ yb) (RX ∈ yb)) ys) ∧
    (∃ xs ys, s.w = xs.product ys ∧ IsFirst m (Kept (TZ ∈ x0) (RZ ∈ x0) (TZ ∈ xa) (RZ ∈ xa)) xs ∧
      IsFirst n (Kept (TX ∈ y0) (RX ∈ y0) (TX ∈ yb) (RX ∈ yb)) ys) ∧
    ((∀ e ∈ [y0, yb], (TY ∈ e ↔ TX ∈ e) ∧ (RY ∈ e ↔ RX ∈ e)) → Honours x0 xa y0 yb TY RY m n s.v) ∧
    ((∀ e ∈ [y0, yb], (TZ ∈ e ↔ TX ∈ e) ∧ (RZ ∈ e ↔ RX ∈ e)) → Honours x0 xa y0 yb TZ RZ m n s.w) := by
  obtain ⟨s, um, vm, wm, un, hs, rfl, h1, h2, h3, h4⟩ := flagDict_idx x0 xa y0 yb m n
  refine ⟨_, hs, ⟨um, un, rfl, h1, h4⟩, ⟨vm, un, rfl, h2, h4⟩, ⟨wm, un, rfl, h3, h4⟩, ?_, ?_⟩
  · intro h
    simp only [List.forall_mem_cons, List.not_mem_nil, IsEmpty.forall_iff, implies_true, and_true] at h
    refine ⟨vm, un, rfl, h2, ?_⟩
    simp only [h]
    exact h4
  · intro h
    simp only [List.forall_mem_cons, List.not_mem_nil, IsEmpty.forall_iff, implies_true, and_true] at h
    refine ⟨wm, un, rfl, h3, ?_⟩
    simp only [h]
    exact h4

/-- Non-vacuity for the last two parts of C42: pinned edges. -/
example : ∀ e ∈ [pinnedFlags, clampedFlags], (TZ ∈ e ↔ TX ∈ e) ∧ (RZ ∈ e ↔ RX ∈ e) := by decide

/-- **C42** is false of the code: with only TZ on `y0` the w index set keeps y-function 0. -/
theorem C42_own_flags_false : ¬ ∀ (x0 xa y0 yb : List Str) (m n : Nat), 1 ≤ m → 1 ≤ n → ∀ s,
    computeIdx (flagDict x0 xa y0 yb) m n = .ok s →
      Honours x0 xa y0 yb TX RX m n s.u ∧ Honours x0 xa y0 yb TY RY m n s.v ∧ Honours x0 xa y0 yb TZ RZ m n s.w := by
  intro H
  obtain ⟨xs, ys, he, hx, hy⟩ := (H [] [] [TZ] [] 1 1 le_rfl le_rfl ⟨[(0, 0)], [(0, 0)], [(0, 0)]⟩ (by decide)).2.2
  have hmem : ((0, 0) : Nat × Nat) ∈ xs.product ys := he ▸ List.mem_singleton.mpr rfl
  have := (hy.sound 0 (List.mem_product.mp hmem).2).1
  exact this ⟨rfl, by simp⟩

/-- **C42** the other half of the defect: TX on `y0` alone removes y-function 0 from the deflection. -/
theorem C42_foreign_flag_applied (m n : Nat) : ∃ s,
    computeIdx (flagDict [] [] [TX] []) m n = .ok s ∧ ∀ p ∈ s.w, p.2 ≠ 0 := by
  obtain ⟨s, um, vm, wm, un, hs, rfl, -, -, -, h4⟩ := flagDict_idx [] [] [TX] [] m n
  refine ⟨_, hs, ?_⟩
  rintro ⟨a, b⟩ hp
  have := (h4.sound b (List.mem_product.mp hp).2).1
  intro h
  exact this ⟨h, by simp⟩

/-! ## C43 (refuted) -/

/-- The flags a word stands for. -/
def Spec.meaning (w : Str) : List Str :=
  if strLower w = wPinned ∨ strLower w = wSimplySupported then pinnedFlags
  else if strLower w = wFixed ∨ strLower w = wClamped then clampedFlags else []

/-- An edge value with its word replaced by what the word stands for. -/
def Spec.expand : Edge → Edge
  | .word w => .flags (meaning w)
  | .flags l => .flags l

/-- An edge value with its word replaced by no flags at all. -/
def Spec.freed : Edge → Edge
  | .word _ => .flags []
  | .flags l => .flags l

/-- The word contains none of the six flag names. -/
def Spec.Plain (w : Str) : Prop := ∀ f ∈ clampedFlags, ¬ f <:+: w

theorem mixed_choose (x0 xa y0 yb : Edge) (h : ¬ (x0.isStr ∧ xa.isStr ∧ y0.isStr ∧ yb.isStr)) :
    chooseEdges (.dict (some x0) (some xa) (some y0) (some yb)) = .ok ⟨x0, xa, y0, yb⟩ := by
  cases x0 <;> cases xa <;> cases y0 <;> cases yb <;> first | rfl | simp [Edge.isStr] at h

theorem freed_has (e : Edge) (he : ∀ w, e = .word w → Plain w) (f : Str) (hf : f ∈ clampedFlags) :
    (freed e).has f = e.has f := by
  cases e with
  | flags l => rfl
  | word w =>
    have := he w rfl f hf
    simp [freed, Edge.has, this]

theorem idxLists_congr (e e' : Edges) (m n : Nat)
    (h : ∀ f ∈ clampedFlags, e.x0.has f = e'.x0.has f ∧ e.xa.has f = e'.xa.has f ∧ e.y0.has f = e'.y0.has f ∧
      e.yb.has f = e'.yb.has f) : idxLists e m n = idxLists e' m n := by
  simp only [clampedFlags, List.forall_mem_cons, List.not_mem_nil, IsEmpty.forall_iff, implies_true, and_true] at h
  simp only [idxLists, removals, h]

/-- **C43** what the code does: in a dictionary with at least one list, every word edge is free. -/
theorem C43_word_edges_free_partial (x0 xa y0 yb : Edge) (m n : Nat)
    (hmix : ¬ (x0.isStr ∧ xa.isStr ∧ y0.isStr ∧ yb.isStr))
    (hplain : ∀ e ∈ [x0, xa, y0, yb], ∀ w, e = .word w → Plain w) :
    computeIdx (.dict (some x0) (some xa) (some y0) (some yb)) m n =
      computeIdx (.dict (some (freed x0)) (some (freed xa)) (some (freed y0)) (some (freed yb))) m n := by
  have hm2 : ¬ ((freed x0).isStr ∧ (freed xa).isStr ∧ (freed y0).isStr ∧ (freed yb).isStr) := by
    cases x0 <;> simp [freed, Edge.isStr]
  simp only [List.forall_mem_cons, List.not_mem_nil, IsEmpty.forall_iff, implies_true, and_true] at hplain
  simp only [computeIdx, mixed_choose _ _ _ _ hmix, mixed_choose _ _ _ _ hm2, ok_bind]
  rw [idxLists_congr]
  intro f hf
  exact ⟨(freed_has x0 hplain.1 f hf).symm, (freed_has xa hplain.2.1 f hf).symm,
    (freed_has y0 hplain.2.2.1 f hf).symm, (freed_has yb hplain.2.2.2 f hf).symm⟩

/-- Non-vacuity for C43: the documented words contain no flag name. -/
example : Plain wPinned ∧ Plain wClamped ∧ Plain wFixed ∧ Plain wSimplySupported ∧ Plain wFree ∧ Plain wPINNED := by
  unfold Plain
  decide +kernel

/-- **C43** is false of the code: `x0` pinned by word, the other edges lists. -/
theorem C43_word_meaning_false : ¬ ∀ (x0 xa y0 yb : Edge) (m n : Nat),
    computeIdx (.dict (some x0) (some xa) (some y0) (some yb)) m n =
      computeIdx (.dict (some (expand x0)) (some (expand xa)) (some (expand y0)) (some (expand yb))) m n := by
  intro H
  have := H (.word wPinned) (.flags []) (.flags []) (.flags []) 1 1
  revert this
  decide +kernel

end Composipy
