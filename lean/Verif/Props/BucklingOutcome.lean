import Verif.Props.Buckling
import Verif.Lemmas.Ritz

/-!
# C93: when `buckling_analysis` returns, and which exception it raises otherwise
-/

namespace Composipy
open Spec

/-! ## Exceptions of the constraint argument -/

theorem boundary_error {w : Str} {e : PyErr} (h : boundaryConditions w = .error e) : e = .keyError := by
  unfold boundaryConditions at h
  split_ifs at h
  exact (Except.error.inj h).symm

theorem getKey_error {x : Option Edge} {e : PyErr} (h : getKey x = .error e) : e = .keyError := by
  cases x with
  | none => exact (Except.error.inj h).symm
  | some x => cases h

theorem chooseEdges_error {c : Constraints} {e : PyErr} (h : chooseEdges c = .error e) :
    (e = .typeError ∧ ∃ s, c = .str s) ∨ (e = .keyError ∧ ∃ x0 xa y0 yb, c = .dict x0 xa y0 yb) := by
  cases c with
  | str s =>
    left
    refine ⟨?_, s, rfl⟩
    unfold chooseEdges at h
    simp only at h
    split_ifs at h
    exact (Except.error.inj h).symm
  | dict x0 xa y0 yb =>
    right
    refine ⟨?_, x0, xa, y0, yb, rfl⟩
    have hb : ∀ w, boundaryConditions w = .error .keyError ∨ ∃ f, boundaryConditions w = .ok f := by
      intro w
      cases hw : boundaryConditions w with
      | error e => exact Or.inl (by rw [boundary_error hw])
      | ok f => exact Or.inr ⟨f, rfl⟩
    rcases x0 with _ | (w0 | f0)
    · exact (Except.error.inj h).symm
    · rcases xa with _ | (wa | fa)
      · exact (Except.error.inj h).symm
      · rcases y0 with _ | (v0 | g0)
        · exact (Except.error.inj h).symm
        · rcases yb with _ | (vb | gb)
          · exact (Except.error.inj h).symm
          · rw [word_dict] at h
            rcases hb (strLower w0) with h1 | ⟨f1, h1⟩ <;> rw [h1] at h
            · exact (Except.error.inj h).symm
            rcases hb (strLower wa) with h2 | ⟨f2, h2⟩ <;> rw [h2] at h
            · exact (Except.error.inj h).symm
            rcases hb (strLower v0) with h3 | ⟨f3, h3⟩ <;> rw [h3] at h
            · exact (Except.error.inj h).symm
            rcases hb (strLower vb) with h4 | ⟨f4, h4⟩ <;> rw [h4] at h
            · exact (Except.error.inj h).symm
            · cases h
          · cases h
        · rcases yb with _ | yb
          · exact (Except.error.inj h).symm
          · cases h
      · rcases y0 with _ | y0 <;> rcases yb with _ | yb
        all_goals first | exact (Except.error.inj h).symm | cases h
    · rcases xa with _ | xa <;> rcases y0 with _ | y0 <;> rcases yb with _ | yb
      all_goals first | exact (Except.error.inj h).symm | cases h

/-! ## The number of usable terms -/

/-- Supports taken away from the first four shapes of one direction. -/
def Spec.removed (t0 r0 t1 r1 : Bool) : ℕ := t0.toNat + r0.toNat + t1.toNat + r1.toNat

instance keptDecidable (t0 r0 t1 r1 : Bool) : DecidablePred (Kept (t0 = true) (r0 = true) (t1 = true) (r1 = true)) := fun i => by
  unfold Kept
  infer_instance

theorem kept_card (t0 r0 t1 r1 : Bool) :
    ((Finset.range 30).filter (Kept (t0 = true) (r0 = true) (t1 = true) (r1 = true))).card + removed t0 r0 t1 r1 = 30 := by
  cases t0 <;> cases r0 <;> cases t1 <;> cases r1 <;> decide

theorem isFirst_below {t0 r0 t1 r1 : Bool} {m : ℕ} {xs : List ℕ}
    (h : IsFirst m (Kept (t0 = true) (r0 = true) (t1 = true) (r1 = true)) xs) :
    (∀ i ∈ xs, i < 30) ↔ m + removed t0 r0 t1 r1 ≤ 30 := by
  classical
  have hnd : xs.Nodup := h.sorted.imp fun h => Nat.ne_of_lt h
  have hc := kept_card t0 r0 t1 r1
  have hcard : xs.toFinset.card = m := by rw [List.toFinset_card_of_nodup hnd, h.len]
  constructor
  · intro hlt
    have : xs.toFinset ⊆ (Finset.range 30).filter (Kept (t0 = true) (r0 = true) (t1 = true) (r1 = true)) := by
      intro i hi
      have hi := List.mem_toFinset.mp hi
      exact Finset.mem_filter.mpr ⟨Finset.mem_range.mpr (hlt i hi), h.sound i hi⟩
    have := Finset.card_le_card this
    omega
  · intro hm i hi
    by_contra hge
    push Not at hge
    have hsub : insert i ((Finset.range 30).filter (Kept (t0 = true) (r0 = true) (t1 = true) (r1 = true))) ⊆ xs.toFinset := by
      intro j hj
      rw [List.mem_toFinset]
      rcases Finset.mem_insert.mp hj with rfl | hj
      · exact hi
      · obtain ⟨hj1, hj2⟩ := Finset.mem_filter.mp hj
        exact h.complete i hi j (lt_of_lt_of_le (Finset.mem_range.mp hj1) hge) hj2
    have h1 := Finset.card_le_card hsub
    rw [Finset.card_insert_of_notMem] at h1
    · omega
    · intro hmem
      have := Finset.mem_range.mp (Finset.mem_filter.mp hmem).1
      omega

/-- **C93** the tables suffice exactly when the number of terms plus the number of restrained edge shapes is at most 30 in both
directions: 26 terms for clamped edges, 28 for pinned ones, 30 for free ones. -/
theorem C93_usable_terms (c : Constraints) (m n : ℕ) (hm : 1 ≤ m) (hn : 1 ≤ n) (s : ShapeIdx) (hs : computeIdx c m n = .ok s) (e : Edges)
    (he : chooseEdges c = .ok e) : (∀ q ∈ s.w, q.1 < 30 ∧ q.2 < 30) ↔
      m + removed (e.x0.has TZ) (e.x0.has RZ) (e.xa.has TZ) (e.xa.has RZ) ≤ 30 ∧
      n + removed (e.y0.has TX) (e.y0.has RX) (e.yb.has TX) (e.yb.has RX) ≤ 30 := by
  obtain ⟨e', xs, ys, he', hw, hx, hy⟩ := w_lists hs
  obtain rfl : e = e' := Except.ok.inj (he.symm.trans he')
  rw [← isFirst_below hx, ← isFirst_below hy, hw]
  have hmem : ∀ q : ℕ × ℕ, q ∈ xs.product ys ↔ q.1 ∈ xs ∧ q.2 ∈ ys := fun q =>
    List.mem_product (a := q.1) (b := q.2) (l₁ := xs) (l₂ := ys)
  have hx0 : ∃ i, i ∈ xs := List.exists_mem_of_length_pos (by rw [hx.len]; exact hm)
  have hy0 : ∃ i, i ∈ ys := List.exists_mem_of_length_pos (by rw [hy.len]; exact hn)
  constructor
  · intro h
    obtain ⟨i0, hi0⟩ := hx0
    obtain ⟨j0, hj0⟩ := hy0
    exact ⟨fun i hi => (h (i, j0) ((hmem _).mpr ⟨hi, hj0⟩)).1, fun j hj => (h (i0, j) ((hmem _).mpr ⟨hi0, hj⟩)).2⟩
  · rintro ⟨h1, h2⟩ q hq
    exact ⟨h1 _ ((hmem q).mp hq).1, h2 _ ((hmem q).mp hq).2⟩

/-! ## Zero sides -/

theorem kept_four (t0 r0 t1 r1 : Prop) : Kept t0 r0 t1 r1 4 := by simp [Kept]

theorem isFirst_head {p : ℕ → Prop} (h4 : p 4) {m : ℕ} {i : ℕ} {xs : List ℕ} (h : IsFirst m p (i :: xs)) : i ≤ 4 := by
  by_contra hlt
  push Not at hlt
  have := h.complete i (by simp) 4 hlt h4
  rcases List.mem_cons.mp this with rfl | h'
  · omega
  · have := (List.pairwise_cons.mp h.sorted).1 4 h'
    omega

/-- **C93** a plate of zero length or width cannot be analysed: `ZeroDivisionError`. -/
theorem C93_zero_side (D : M3) (c : Constraints) (p : PlateNum) (hm : 1 ≤ p.m) (hn : 1 ≤ p.n) (s : ShapeIdx)
    (hs : computeIdx c p.m p.n = .ok s) (h0 : p.a = 0 ∨ p.b = 0) : calcKKGD shipped (.ok D) c p = .error .zeroDivisionError := by
  obtain ⟨e, xs, ys, he, hw, hx, hy⟩ := w_lists hs
  rw [calcKKGD_eq _ D c p s hs]
  obtain ⟨i, xs, rfl⟩ : ∃ i xs', xs = i :: xs' := by
    cases xs with
    | nil => have := hx.len; simp at this; omega
    | cons i xs => exact ⟨i, xs, rfl⟩
  obtain ⟨j, ys, rfl⟩ : ∃ i xs', ys = i :: xs' := by
    cases ys with
    | nil => have := hy.len; simp at this; omega
    | cons i xs => exact ⟨i, xs, rfl⟩
  have hi := isFirst_head (kept_four _ _ _ _) hx
  have hj := isFirst_head (kept_four _ _ _ _) hy
  have hi' : i < 30 := by omega
  have hj' : j < 30 := by omega
  have hk : calcK33 shipped p.a p.b i j i j (D 0 0) (D 1 0) (D 1 1) (D 2 0) (D 2 1) (D 2 2) = .error .zeroDivisionError := by
    unfold calcK33 rmul
    have := shipped_ok
    simp only [this.fxixi_fxixi i i hi' hi', this.ff j j hj' hj', this.fxixi_f i i hi' hi', this.f_fxixi j j hj' hj',
      this.f_fxixi i i hi' hi', this.fxixi_f j j hj' hj', this.ff i i hi' hi', this.fxixi_fxixi j j hj' hj',
      this.fxixi_fxi i i hi' hi', this.f_fxi j j hj' hj', this.fxi_fxixi i i hi' hi', this.fxi_f j j hj' hj', this.fxi_f i i hi' hi',
      this.fxi_fxixi j j hj' hj', this.f_fxi i i hi' hi', this.fxixi_fxi j j hj' hj', this.fxi_fxi i i hi' hi',
      this.fxi_fxi j j hj' hj', ok_bind, pure_eq_ok]
    by_cases ha : p.a = 0
    · simp [pyDiv, ha]
    · have hb : p.b = 0 := h0.resolve_left ha
      simp [pyDiv, ha, hb]
  rw [hw]
  simp [List.product, List.mapM_cons, hk]

/-! ## The outcome -/

/-- **C93** the outcome of `buckling_analysis`, in the order of the checks of the code. -/
theorem C93_outcome (S : EigSolver) (D : Except PyErr M3) (c : Constraints) (p : PlateNum) (hm : 1 ≤ p.m) (hn : 1 ≤ p.n)
    (numEig : ℤ) (st : PlateState (p.m * p.n)) :
    (∀ e, D = .error e → (bucklingAnalysis S D c p numEig st).1 = .error e) ∧
    ∀ M, D = .ok M →
      (∀ e, chooseEdges c = .error e → (bucklingAnalysis S D c p numEig st).1 = .error e ∧ (e = .typeError ∨ e = .keyError)) ∧
      ∀ e, chooseEdges c = .ok e →
        (p.a = 0 ∨ p.b = 0 → (bucklingAnalysis S D c p numEig st).1 = .error .zeroDivisionError) ∧
        (p.a ≠ 0 → p.b ≠ 0 → 30 < p.m + removed (e.x0.has TZ) (e.x0.has RZ) (e.xa.has TZ) (e.xa.has RZ) ∨
            30 < p.n + removed (e.y0.has TX) (e.y0.has RX) (e.yb.has TX) (e.yb.has RX) →
          (bucklingAnalysis S D c p numEig st).1 = .error .keyError) ∧
        (p.a ≠ 0 → p.b ≠ 0 → p.m + removed (e.x0.has TZ) (e.x0.has RZ) (e.xa.has TZ) (e.xa.has RZ) ≤ 30 →
            p.n + removed (e.y0.has TX) (e.y0.has RX) (e.yb.has TX) (e.yb.has RX) ≤ 30 →
          ∃ K KG, calcKKGD shipped D c p = .ok (K, KG) ∧
            (numEig ≤ 0 ∨ p.m * p.n ≤ 2 → (bucklingAnalysis S D c p numEig st).1 = .error .valueError) ∧
            (0 < numEig → 2 < p.m * p.n → (bucklingAnalysis S D c p numEig st).1 =
              (S _ KG K (min numEig (p.m * p.n - 2)).toNat).map fun out => (out.map fun q => npDiv (-1) q.1, out.map Prod.snd))) := by
  refine ⟨fun e h => by rw [h]; rfl, ?_⟩
  rintro M rfl
  refine ⟨fun e he => ?_, fun e he => ?_⟩
  · have hs : computeIdx c p.m p.n = .error e := by simp [computeIdx, he]
    refine ⟨by simp [bucklingAnalysis, hs], ?_⟩
    rcases chooseEdges_error he with ⟨h, -⟩ | ⟨h, -⟩
    · exact Or.inl h
    · exact Or.inr h
  · obtain ⟨s, hs⟩ := (C40_accepted_iff c p.m p.n).mpr ⟨e, he⟩
    have huse := C93_usable_terms c p.m p.n hm hn s hs e he
    refine ⟨fun h0 => ?_, fun ha hb hbad => ?_, fun ha hb h1 h2 => ?_⟩
    · simp [bucklingAnalysis, hs, C93_zero_side M c p hm hn s hs h0]
    · have : ∃ q ∈ s.w, ¬ (q.1 < 30 ∧ q.2 < 30) := by
        by_contra hno
        push Not at hno
        have := huse.mp fun q hq => by
          by_contra hq'
          exact absurd (hno q hq) (by simpa using hq')
        omega
      simp [bucklingAnalysis, hs, (C51_computed_iff M c p s hs ha hb).2 this]
    · obtain ⟨⟨K, KG⟩, hK⟩ := (C51_computed_iff M c p s hs ha hb).1 (huse.mpr ⟨h1, h2⟩)
      refine ⟨K, KG, hK, fun h => C53_refused S _ c p numEig st ⟨_, hK⟩ h.symm, fun hk hN => ?_⟩
      have hpos : ¬ min numEig ((p.m * p.n : ℕ) - 2 : ℤ) ≤ 0 := by
        rw [not_le, lt_min_iff]
        exact ⟨hk, by omega⟩
      simp only [bucklingAnalysis, hs, hK, eigshCall, if_neg hpos]
      push_cast
      cases hS : S _ KG K (min numEig ((p.m : ℤ) * (p.n : ℤ) - 2)).toNat with
      | error e => rfl
      | ok out => rfl

/-- **C93** `buckling_analysis` returns exactly when the laminate can be read, the constraints are understood, the tables suffice, both
sides are non-zero, at least one eigenvalue is asked for, there are at least three shapes and the eigensolver returns. -/
theorem C93_returns_iff (S : EigSolver) (D : Except PyErr M3) (c : Constraints) (p : PlateNum) (hm : 1 ≤ p.m) (hn : 1 ≤ p.n)
    (numEig : ℤ) (st : PlateState (p.m * p.n)) :
    (∃ r, (bucklingAnalysis S D c p numEig st).1 = .ok r) ↔
      (∃ M, D = .ok M) ∧ (∃ e, chooseEdges c = .ok e ∧ p.m + removed (e.x0.has TZ) (e.x0.has RZ) (e.xa.has TZ) (e.xa.has RZ) ≤ 30 ∧
        p.n + removed (e.y0.has TX) (e.y0.has RX) (e.yb.has TX) (e.yb.has RX) ≤ 30) ∧ p.a ≠ 0 ∧ p.b ≠ 0 ∧ 1 ≤ numEig ∧ 3 ≤ p.m * p.n ∧
      ∃ K KG out, calcKKGD shipped D c p = .ok (K, KG) ∧ S _ KG K (min numEig (p.m * p.n - 2)).toNat = .ok out := by
  obtain ⟨h1, h2⟩ := C93_outcome S D c p hm hn numEig st
  constructor
  · rintro ⟨r, hr⟩
    cases D with
    | error e => rw [h1 e rfl] at hr; cases hr
    | ok M =>
    obtain ⟨h3, h4⟩ := h2 M rfl
    cases he : chooseEdges c with
    | error e => rw [(h3 e he).1] at hr; cases hr
    | ok e =>
    obtain ⟨h5, h6, h7⟩ := h4 e he
    by_cases ha : p.a = 0
    · rw [h5 (Or.inl ha)] at hr; cases hr
    by_cases hb : p.b = 0
    · rw [h5 (Or.inr hb)] at hr; cases hr
    by_cases hbad : 30 < p.m + removed (e.x0.has TZ) (e.x0.has RZ) (e.xa.has TZ) (e.xa.has RZ) ∨
            30 < p.n + removed (e.y0.has TX) (e.y0.has RX) (e.yb.has TX) (e.yb.has RX)
    · rw [h6 ha hb hbad] at hr; cases hr
    push Not at hbad
    obtain ⟨K, KG, hK, h8, h9⟩ := h7 ha hb hbad.1 hbad.2
    by_cases hk : numEig ≤ 0 ∨ p.m * p.n ≤ 2
    · rw [h8 hk] at hr; cases hr
    push Not at hk
    rw [h9 hk.1 hk.2] at hr
    refine ⟨⟨M, rfl⟩, ⟨e, rfl, hbad.1, hbad.2⟩, ha, hb, by omega, by omega, K, KG, ?_⟩
    cases hS : S _ KG K (min numEig (p.m * p.n - 2)).toNat with
    | error e => rw [hS] at hr; cases hr
    | ok out => exact ⟨out, hK, rfl⟩
  · rintro ⟨⟨M, rfl⟩, ⟨e, he, hx, hy⟩, ha, hb, hk, hN, K, KG, out, hK, hS⟩
    obtain ⟨K', KG', hK', -, h9⟩ := ((h2 M rfl).2 e he).2.2 ha hb hx hy
    rw [hK] at hK'
    obtain ⟨rfl, rfl⟩ := Prod.mk.inj (Except.ok.inj hK')
    rw [h9 (by omega) (by omega), hS]
    exact ⟨_, rfl⟩

/-- **C93** apart from exceptions of the laminate and of the eigensolver, only four exceptions occur. -/
theorem C93_only_errors (S : EigSolver) (M : M3) (c : Constraints) (p : PlateNum) (hm : 1 ≤ p.m) (hn : 1 ≤ p.n)
    (numEig : ℤ) (st : PlateState (p.m * p.n)) (err : PyErr) (h : (bucklingAnalysis S (.ok M) c p numEig st).1 = .error err) :
    err = .typeError ∨ err = .keyError ∨ err = .zeroDivisionError ∨ err = .valueError ∨
      ∃ K KG k, calcKKGD shipped (.ok M) c p = .ok (K, KG) ∧ S _ KG K k = .error err := by
  obtain ⟨-, h2⟩ := C93_outcome S (.ok M) c p hm hn numEig st
  obtain ⟨h3, h4⟩ := h2 M rfl
  cases he : chooseEdges c with
  | error e =>
    rw [(h3 e he).1] at h
    obtain rfl := Except.error.inj h
    rcases (h3 _ he).2 with h | h
    · exact Or.inl h
    · exact Or.inr (Or.inl h)
  | ok e =>
  obtain ⟨h5, h6, h7⟩ := h4 e he
  by_cases h0 : p.a = 0 ∨ p.b = 0
  · rw [h5 h0] at h
    exact Or.inr (Or.inr (Or.inl (Except.error.inj h).symm))
  push Not at h0
  by_cases hbad : 30 < p.m + removed (e.x0.has TZ) (e.x0.has RZ) (e.xa.has TZ) (e.xa.has RZ) ∨
          30 < p.n + removed (e.y0.has TX) (e.y0.has RX) (e.yb.has TX) (e.yb.has RX)
  · rw [h6 h0.1 h0.2 hbad] at h
    exact Or.inr (Or.inl (Except.error.inj h).symm)
  push Not at hbad
  obtain ⟨K, KG, hK, h8, h9⟩ := h7 h0.1 h0.2 hbad.1 hbad.2
  by_cases hk : numEig ≤ 0 ∨ p.m * p.n ≤ 2
  · rw [h8 hk] at h
    exact Or.inr (Or.inr (Or.inr (Or.inl (Except.error.inj h).symm)))
  push Not at hk
  rw [h9 hk.1 hk.2] at h
  refine Or.inr (Or.inr (Or.inr (Or.inr ⟨K, KG, (min numEig (p.m * p.n - 2)).toNat, hK, ?_⟩)))
  cases hS : S _ KG K (min numEig (p.m * p.n - 2)).toNat with
  | error e => rw [hS] at h; rw [← Except.error.inj h]
  | ok out => rw [hS] at h; cases h

/-- **C93** the limits of the named supports: 28 terms for `'PINNED'`, 26 for `'CLAMPED'`. -/
theorem C93_named_limits (S : EigSolver) (M : M3) (p : PlateNum) (hm : 1 ≤ p.m) (hn : 1 ≤ p.n) (ha : p.a ≠ 0) (hb : p.b ≠ 0)
    (numEig : ℤ) (st : PlateState (p.m * p.n)) :
    (28 < p.m ∨ 28 < p.n → (bucklingAnalysis S (.ok M) (.str wPINNED) p numEig st).1 = .error .keyError) ∧
    (26 < p.m ∨ 26 < p.n → (bucklingAnalysis S (.ok M) (.str wCLAMPED) p numEig st).1 = .error .keyError) ∧
    (p.m ≤ 28 → p.n ≤ 28 → ∃ r, calcKKGD shipped (.ok M) (.str wPINNED) p = .ok r) ∧
    (p.m ≤ 26 → p.n ≤ 26 → ∃ r, calcKKGD shipped (.ok M) (.str wCLAMPED) p = .ok r) := by
  have hp := ((C93_outcome S (.ok M) (.str wPINNED) p hm hn numEig st).2 M rfl).2 _ rfl
  have hc := ((C93_outcome S (.ok M) (.str wCLAMPED) p hm hn numEig st).2 M rfl).2 _ rfl
  simp only [show Edge.has (.flags pinnedFlags) TZ = true from rfl, show Edge.has (.flags pinnedFlags) RZ = false from rfl,
    show Edge.has (.flags pinnedFlags) TX = true from rfl, show Edge.has (.flags pinnedFlags) RX = false from rfl,
    show removed true false true false = 2 from rfl] at hp
  simp only [show Edge.has (.flags clampedFlags) TZ = true from rfl, show Edge.has (.flags clampedFlags) RZ = true from rfl,
    show Edge.has (.flags clampedFlags) TX = true from rfl, show Edge.has (.flags clampedFlags) RX = true from rfl,
    show removed true true true true = 4 from rfl] at hc
  refine ⟨fun h => hp.2.1 ha hb (by omega), fun h => hc.2.1 ha hb (by omega), fun h1 h2 => ?_, fun h1 h2 => ?_⟩
  · obtain ⟨K, KG, h, -⟩ := hp.2.2 ha hb (by omega) (by omega)
    exact ⟨_, h⟩
  · obtain ⟨K, KG, h, -⟩ := hc.2.2 ha hb (by omega) (by omega)
    exact ⟨_, h⟩

/-- Non-vacuity of C93: a plate that is analysed, and the four refusals. -/
example (S : EigSolver) : ∃ p : PlateNum, 1 ≤ p.m ∧ 1 ≤ p.n ∧ (∀ S : EigSolver, (∀ N A M k, S N A M k = .ok []) →
      ∃ r, (bucklingAnalysis S (.ok 1) (.str wPINNED) p 5 (.fresh _)).1 = .ok r) ∧
    (bucklingAnalysis S (.ok 1) (.str wFree) p 5 (.fresh _)).1 = .error .typeError ∧
    (bucklingAnalysis S (.ok 1) (.str wPINNED) p 0 (.fresh _)).1 = .error .valueError := by
  refine ⟨⟨1, 1, -1, 0, 0, 3, 3⟩, by norm_num, by norm_num, fun S' hS => ?_, ?_, ?_⟩
  · obtain ⟨-, -, h⟩ := ((C93_outcome S' (.ok 1) (.str wPINNED) ⟨1, 1, -1, 0, 0, 3, 3⟩ (by norm_num) (by norm_num) 5 (.fresh _)).2 1 rfl).2 _ rfl
    obtain ⟨K, KG, -, -, h⟩ := h one_ne_zero one_ne_zero (by decide) (by decide)
    exact ⟨_, by rw [h (by norm_num) (by norm_num), hS]; rfl⟩
  · exact (((C93_outcome S (.ok 1) (.str wFree) ⟨1, 1, -1, 0, 0, 3, 3⟩ (by norm_num) (by norm_num) 5 (.fresh _)).2 1 rfl).1 .typeError rfl).1
  · obtain ⟨-, -, h⟩ := ((C93_outcome S (.ok 1) (.str wPINNED) ⟨1, 1, -1, 0, 0, 3, 3⟩ (by norm_num) (by norm_num) 0 (.fresh _)).2 1 rfl).2 _ rfl
    obtain ⟨K, KG, -, h, -⟩ := h one_ne_zero one_ne_zero (by decide) (by decide)
    exact h (Or.inl le_rfl)

end Composipy
