import Verif.Props.Invariants

/-!
# C98: the set of safe loads
-/

namespace Composipy
open Spec Matrix

/-- The load case has a margin table without negative entries. -/
def Spec.SafeLoad (l : Lam) (N : V6) : Prop :=
  ∃ R, calculateMargin l N = .ok R ∧ ∀ r ∈ R, ∀ i, ¬ Negative (r.margin i)

/-- All allowables of the laminate are positive. -/
def Spec.PosLaminate (l : Lam) : Prop := ∀ p ∈ l.layup, ∀ m, p.2 = .ortho m → PosAllowables m

/-- Within the max-stress box of the material. -/
def Spec.InBox (m : OrthoMat ℝ) (σ : V3) : Prop :=
  (-m.c1 ≤ σ 0 ∧ σ 0 ≤ m.t1) ∧ (-m.c2 ≤ σ 1 ∧ σ 1 ≤ m.t2) ∧ |σ 2| ≤ m.s

/-- **C98** a load is safe exactly when every row of the stress table lies in the max-stress box of its ply. -/
theorem C98_box (l : Lam) (hs : IsStack l) (hp : PosLaminate l) (N : V6) :
    SafeLoad l N ↔ HasAllowables l ∧ ∃ S, calculateStress l N = .ok S ∧
      ∀ (j : ℕ) (s : Row), S[j]? = some s → ∀ p m, l.layup[j / 2]? = some p → p.2 = .ortho m → InBox m s.m12 := by
  constructor
  · rintro ⟨R, hR, hsafe⟩
    obtain ⟨ha, S, hS, hRl, hSl, -⟩ := margin_rows hs N R hR
    refine ⟨ha, S, hS, fun j s hj p m hpj hm => ?_⟩
    have hlt : j < R.length := by
      have := (List.getElem?_eq_some_iff.mp hj).1
      omega
    obtain ⟨hk, m', S', s', hm', hS', hs', hspec⟩ := C35_margins l hs N R hR j R[j] (List.getElem?_eq_getElem hlt)
    rw [hS] at hS'
    obtain rfl := Except.ok.inj hS'
    rw [hj] at hs'
    obtain rfl := Option.some.inj hs'
    rw [List.getElem?_eq_getElem hk] at hpj
    obtain rfl := Option.some.inj hpj
    rw [hm] at hm'
    obtain rfl := Mat.ortho.inj hm'
    exact (hspec (hp _ (List.getElem_mem hk) m hm)).safe.mp (hsafe _ (List.getElem_mem hlt))
  · rintro ⟨ha, S, hS, hbox⟩
    obtain ⟨R, hR⟩ := (C35_computable l hs N).1.mpr ⟨ha, S, hS⟩
    refine ⟨R, hR, fun r hr => ?_⟩
    obtain ⟨j, hj⟩ := List.mem_iff_getElem?.mp hr
    obtain ⟨hk, m, S', s, hm, hS', hs', hspec⟩ := C35_margins l hs N R hR j r hj
    rw [hS] at hS'
    obtain rfl := Except.ok.inj hS'
    exact (hspec (hp _ (List.getElem_mem hk) m hm)).safe.mpr (hbox j s hs' _ m (List.getElem?_eq_getElem hk) hm)

theorem box_convex (m : OrthoMat ℝ) (x y : V3) (c d : ℝ) (hc : 0 ≤ c) (hd : 0 ≤ d) (h1 : c + d = 1) (hx : InBox m x)
    (hy : InBox m y) : InBox m (c • x + d • y) := by
  obtain ⟨⟨a1, a2⟩, ⟨a3, a4⟩, a5⟩ := hx
  obtain ⟨⟨b1, b2⟩, ⟨b3, b4⟩, b5⟩ := hy
  rw [abs_le] at a5 b5
  have key : ∀ u v L : ℝ, u ≤ L → v ≤ L → c * u + d * v ≤ L := by
    intro u v L hu hv
    calc c * u + d * v ≤ c * L + d * L := add_le_add (mul_le_mul_of_nonneg_left hu hc) (mul_le_mul_of_nonneg_left hv hd)
      _ = L := by rw [← add_mul, h1, one_mul]
  have key' : ∀ u v L : ℝ, L ≤ u → L ≤ v → L ≤ c * u + d * v := by
    intro u v L hu hv
    have := key (-u) (-v) (-L) (by linarith) (by linarith)
    linarith
  simp only [InBox, Pi.add_apply, Pi.smul_apply, smul_eq_mul]
  exact ⟨⟨key' _ _ _ a1 b1, key _ _ _ a2 b2⟩, ⟨key' _ _ _ a3 b3, key _ _ _ a4 b4⟩,
    abs_le.mpr ⟨key' _ _ _ a5.1 b5.1, key _ _ _ a5.2 b5.2⟩⟩

/-- **C98** the safe loads form a convex set: any mixture of two safe load cases is safe. -/
theorem C98_convex (l : Lam) (hs : IsStack l) (hp : PosLaminate l) (N1 N2 : V6) (h1 : SafeLoad l N1) (h2 : SafeLoad l N2)
    (c d : ℝ) (hc : 0 ≤ c) (hd : 0 ≤ d) (hcd : c + d = 1) : SafeLoad l (c • N1 + d • N2) := by
  rw [C98_box l hs hp] at *
  obtain ⟨ha, S1, hS1, b1⟩ := h1
  obtain ⟨-, S2, hS2, b2⟩ := h2
  refine ⟨ha, _, C30_stress_linear l hs N1 N2 c d S1 S2 hS1 hS2, fun j s hj p m hpj hm => ?_⟩
  rw [List.getElem?_zipWith_eq_some] at hj
  obtain ⟨s1, s2, g1, g2, rfl⟩ := hj
  exact box_convex m _ _ c d hc hd hcd (b1 j s1 g1 p m hpj hm) (b2 j s2 g2 p m hpj hm)

/-- **C98** no load is safe, whenever the table can be computed for some load. -/
theorem C98_unloaded (l : Lam) (hs : IsStack l) (hp : PosLaminate l) (N : V6) (R : List MarginRow)
    (hR : calculateMargin l N = .ok R) : SafeLoad l 0 := by
  obtain ⟨ha, S, hS, -⟩ := margin_rows hs N R hR
  rw [C98_box l hs hp]
  have := C30_stress_linear l hs N N 0 0 S S hS hS
  simp only [zero_smul, add_zero] at this
  refine ⟨ha, _, this, fun j s hj p m hpj hm => ?_⟩
  rw [List.getElem?_zipWith_eq_some] at hj
  obtain ⟨s1, s2, g1, g2, rfl⟩ := hj
  obtain ⟨q1, q2, q3, q4, q5⟩ := hp p (List.mem_of_getElem? hpj) m hm
  simp only [InBox, combineRow, zero_smul, add_zero, Pi.zero_apply, abs_zero]
  exact ⟨⟨by linarith, q1.le⟩, ⟨by linarith, q3.le⟩, q5.le⟩

/-- **C98** a part of a safe load is safe. -/
theorem C98_part (l : Lam) (hs : IsStack l) (hp : PosLaminate l) (N : V6) (h : SafeLoad l N) (c : ℝ) (h0 : 0 ≤ c) (h1 : c ≤ 1) :
    SafeLoad l (c • N) := by
  obtain ⟨R, hR, -⟩ := id h
  have := C98_convex l hs hp N 0 h (C98_unloaded l hs hp N R hR) c (1 - c) h0 (by linarith) (by ring)
  simpa using this

theorem margin_finite (a s : ℝ) (ha : 0 < a) : (marginT a s = .pinf ∨ ∃ x, marginT a s = .fin x) ∧
    (marginC a s = .pinf ∨ ∃ x, marginC a s = .fin x) ∧ (marginS a s = .pinf ∨ ∃ x, marginS a s = .fin x) := by
  rw [marginT_eq a s ha, marginC_eq a s ha, marginS_eq a s ha]
  refine ⟨?_, ?_, ?_⟩ <;> split <;> simp

/-- **C98** `margin + 1` is the load factor at failure: the load can be multiplied by `c > 0` exactly up to the smallest finite
entry of the margin table plus one. -/
theorem C98_factor (l : Lam) (hs : IsStack l) (hp : PosLaminate l) (N : V6) (R : List MarginRow)
    (hR : calculateMargin l N = .ok R) (c : ℝ) (hc : 0 < c) :
    SafeLoad l (c • N) ↔ ∀ r ∈ R, ∀ i x, r.margin i = .fin x → c ≤ x + 1 := by
  have hfin : ∀ r ∈ R, ∀ i, r.margin i = .pinf ∨ ∃ x, r.margin i = .fin x := by
    intro r hr i
    obtain ⟨j, hj⟩ := List.mem_iff_getElem?.mp hr
    obtain ⟨hk, m, S, s, hm, -, -, -, -, -, hmar, -⟩ := margin_row hs N R hR j r hj
    obtain ⟨h1, h2, h3, h4, h5⟩ := hp _ (List.getElem_mem hk) m hm
    rw [hmar]
    fin_cases i
    · exact (margin_finite m.t1 (s.m12 0) h1).1
    · exact (margin_finite m.c1 (s.m12 0) h2).2.1
    · exact (margin_finite m.t2 (s.m12 1) h3).1
    · exact (margin_finite m.c2 (s.m12 1) h4).2.1
    · exact (margin_finite m.s (s.m12 2) h5).2.2
  have hneg : ∀ x : ℝ, Negative (rescale c (.fin x)) ↔ x + 1 < c := by
    intro x
    simp only [Negative, rescale, XF.lt]
    rw [sub_neg, div_lt_one hc]
  constructor
  · rintro ⟨R', hR', hsafe⟩ r hr i x hx
    rw [C38_load_scaling l hs N c hc R hR] at hR'
    obtain rfl := Except.ok.inj hR'
    have := hsafe _ (List.mem_map.mpr ⟨r, hr, rfl⟩) i
    simp only [rescaleRow, hx, hneg] at this
    linarith
  · intro h
    refine ⟨_, C38_load_scaling l hs N c hc R hR, fun r' hr' i => ?_⟩
    obtain ⟨r, hr, rfl⟩ := List.mem_map.mp hr'
    simp only [rescaleRow]
    rcases hfin r hr i with hx | ⟨x, hx⟩
    · rw [hx]
      simp [Negative, rescale, XF.lt]
    · rw [hx, hneg]
      have := h r hr i x hx
      linarith

theorem margin_pos (a s x : ℝ) (ha : 0 < a) : (marginT a s = .fin x → 0 < x + 1) ∧ (marginC a s = .fin x → 0 < x + 1) ∧
    (marginS a s = .fin x → 0 < x + 1) := by
  rw [marginT_eq a s ha, marginC_eq a s ha, marginS_eq a s ha]
  refine ⟨?_, ?_, ?_⟩
  · split
    next h => intro e; obtain rfl := XF.fin.inj e; rw [sub_add_cancel]; exact div_pos ha h
    next => intro e; cases e
  · split
    next h => intro e; obtain rfl := XF.fin.inj e; rw [sub_add_cancel]; exact div_pos ha (by linarith)
    next => intro e; cases e
  · split
    next => intro e; cases e
    next h => intro e; obtain rfl := XF.fin.inj e; rw [sub_add_cancel]; exact div_pos ha (abs_pos.mpr h)

/-- **C98** every laminate carries some part of every load. -/
theorem C98_some (l : Lam) (hs : IsStack l) (hp : PosLaminate l) (N : V6) (R : List MarginRow)
    (hR : calculateMargin l N = .ok R) : ∃ c : ℝ, 0 < c ∧ SafeLoad l (c • N) := by
  have hpos : ∀ r ∈ R, ∀ i x, r.margin i = .fin x → 0 < x + 1 := by
    intro r hr i x hx
    obtain ⟨j, hj⟩ := List.mem_iff_getElem?.mp hr
    obtain ⟨hk, m, S, s, hm, -, -, -, -, -, hmar, -⟩ := margin_row hs N R hR j r hj
    obtain ⟨h1, h2, h3, h4, h5⟩ := hp _ (List.getElem_mem hk) m hm
    rw [hmar] at hx
    fin_cases i
    · exact (margin_pos m.t1 (s.m12 0) x h1).1 hx
    · exact (margin_pos m.c1 (s.m12 0) x h2).2.1 hx
    · exact (margin_pos m.t2 (s.m12 1) x h3).1 hx
    · exact (margin_pos m.c2 (s.m12 1) x h4).2.1 hx
    · exact (margin_pos m.s (s.m12 2) x h5).2.2 hx
  have hrow : ∀ r ∈ R, ∃ c : ℝ, 0 < c ∧ ∀ i x, r.margin i = .fin x → c ≤ x + 1 := by
    intro r hr
    have hi : ∀ i, ∃ c : ℝ, 0 < c ∧ ∀ x, r.margin i = .fin x → c ≤ x + 1 := by
      intro i
      cases hx : r.margin i with
      | fin x =>
        refine ⟨x + 1, hpos r hr i x hx, fun y hy => ?_⟩
        rw [XF.fin.inj hy]
      | nan => exact ⟨1, one_pos, fun y hy => by cases hy⟩
      | ninf => exact ⟨1, one_pos, fun y hy => by cases hy⟩
      | pinf => exact ⟨1, one_pos, fun y hy => by cases hy⟩
    choose g g0 g1 using hi
    exact ⟨Finset.univ.inf' ⟨0, Finset.mem_univ _⟩ g, (Finset.lt_inf'_iff _).mpr fun i _ => g0 i, fun i x hx =>
      (Finset.inf'_le g (Finset.mem_univ i)).trans (g1 i x hx)⟩
  have hall : ∀ L : List MarginRow, (∀ r ∈ L, ∃ c : ℝ, 0 < c ∧ ∀ i x, r.margin i = .fin x → c ≤ x + 1) →
      ∃ c : ℝ, 0 < c ∧ ∀ r ∈ L, ∀ i x, r.margin i = .fin x → c ≤ x + 1 := by
    intro L hL
    induction L with
    | nil => exact ⟨1, one_pos, by simp⟩
    | cons r L ih =>
      obtain ⟨c, c0, h⟩ := ih fun q hq => hL q (by simp [hq])
      obtain ⟨d, d0, h'⟩ := hL r (by simp)
      refine ⟨min c d, lt_min c0 d0, fun q hq i x hx => ?_⟩
      rcases List.mem_cons.mp hq with rfl | hq
      · exact (min_le_right c d).trans (h' i x hx)
      · exact (min_le_left c d).trans (h q hq i x hx)
  obtain ⟨c, c0, h⟩ := hall R hrow
  exact ⟨c, c0, (C98_factor l hs hp N R hR c c0).mpr h⟩

/-- **C98** no laminate carries arbitrarily large loads: every load other than zero becomes unsafe when multiplied enough. -/
theorem C98_finite (l : Lam) (hs : IsStack l) (hn : NonnegThick l.layup) (hp : PosLaminate l) (N : V6) (h0 : N ≠ 0)
    (R : List MarginRow) (hR : calculateMargin l N = .ok R) : ∃ c : ℝ, 0 < c ∧ ∀ d ≥ c, ¬ SafeLoad l (d • N) := by
  obtain ⟨ha, S, hS, hRl, hSl, -⟩ := margin_rows hs N R hR
  by_cases hex : ∃ r ∈ R, ∃ i x, r.margin i = .fin x
  · obtain ⟨r, hr, i, x, hx⟩ := hex
    refine ⟨|x + 1| + 1, by positivity, fun d hd hsafe => ?_⟩
    have hd0 : 0 < d := lt_of_lt_of_le (by positivity) hd
    have := (C98_factor l hs hp N R hR d hd0).mp hsafe r hr i x hx
    have := le_abs_self (x + 1)
    linarith
  · exfalso
    push Not at hex
    have hz : ∀ (j : ℕ) (s : Row), S[j]? = some s → s.m12 = 0 := by
      intro j s hj
      have hlt : j < R.length := by
        have := (List.getElem?_eq_some_iff.mp hj).1
        omega
      obtain ⟨hk, m, S', s', hm, hS', hs', hspec⟩ := C35_margins l hs N R hR j R[j] (List.getElem?_eq_getElem hlt)
      rw [hS] at hS'
      obtain rfl := Except.ok.inj hS'
      rw [hj] at hs'
      obtain rfl := Option.some.inj hs'
      have sp := hspec (hp _ (List.getElem_mem hk) m hm)
      have hno := hex _ (List.getElem_mem hlt)
      have e0 : s.m12 0 = 0 := by
        rcases lt_trichotomy (s.m12 0) 0 with h | h | h
        · exact absurd (sp.c1_val h) (hno 1 _)
        · exact h
        · exact absurd (sp.t1_val h) (hno 0 _)
      have e1 : s.m12 1 = 0 := by
        rcases lt_trichotomy (s.m12 1) 0 with h | h | h
        · exact absurd (sp.c2_val h) (hno 3 _)
        · exact h
        · exact absurd (sp.t2_val h) (hno 2 _)
      have e2 : s.m12 2 = 0 := by
        by_contra h
        exact hno 4 _ (sp.s_val h)
      ext i
      fin_cases i
      · exact e0
      · exact e1
      · exact e2
    have hxy : ∀ (j : ℕ) (s : Row), S[j]? = some s → s.xy = 0 := by
      intro j s hj
      have hm := hz j s hj
      rw [hs.stress_eq] at hS
      cases he : epsilon0 l N with
      | error e => simp [he] at hS
      | ok e =>
        simp only [he, ok_map, Except.ok.injEq] at hS
        subst hS
        obtain ⟨p, hp', hmem⟩ := List.mem_flatMap.mp (List.mem_of_getElem? hj)
        simp only [List.mem_cons, List.not_mem_nil, or_false] at hmem
        have hinj : ∀ (t : ℝ) (v : V3), Treal t *ᵥ v = 0 → v = 0 := by
          intro t v hv
          have := congrArg ((Teng t)ᵀ *ᵥ ·) hv
          simp only [Matrix.mulVec_zero] at this
          rwa [Matrix.mulVec_mulVec, ← Treal_inv, Matrix.nonsing_inv_mul _ (Treal_det_isUnit t), Matrix.one_mulVec] at this
        rcases hmem with rfl | rfl
        · exact hinj _ _ hm
        · exact hinj _ _ hm
    have hf : Interpolates (fun _ => 0) S := by
      intro k rb rt h1 h2 z _ _
      simp [hxy _ _ h1, hxy _ _ h2]
    apply h0
    ext i
    rcases i with i | i
    · rw [← (C34_equilibrium l hs hn N S hS _ hf i).1]; simp
    · rw [← (C34_equilibrium l hs hn N S hS _ hf i).2]; simp

/-- Non-vacuity for C98: a carbon laminate under tension. -/
example : ∃ (l : Lam) (N : V6) (R : List MarginRow), IsStack l ∧ NonnegThick l.layup ∧ PosLaminate l ∧ N ≠ 0 ∧
    calculateMargin l N = .ok R ∧ ∃ c : ℝ, 0 < c ∧ SafeLoad l (c • N) := by
  obtain ⟨l, -, hs, hlay, hne, hadm⟩ := carbon_list [0, 45, 45, 0] (by simp)
  have hp : PosLaminate l := by
    intro p hp m hm
    rw [hlay] at hp
    obtain ⟨a, -, rfl⟩ := List.mem_map.mp hp
    obtain rfl := Mat.ortho.inj hm
    norm_num [PosAllowables]
  let N : V6 := Sum.elim (fun _ => 1) (fun _ => 0)
  obtain ⟨e, he⟩ := C29_admissible l N hs hne hadm
  have ha : HasAllowables l := by
    intro p hp
    rw [hlay] at hp
    obtain ⟨a, -, rfl⟩ := List.mem_map.mp hp
    exact ⟨_, rfl⟩
  have hR : calculateMargin l N = .ok (marginRows l e) := by rw [hs.margin_eq ha, he]; rfl
  have hN : N ≠ 0 := fun h => one_ne_zero (α := ℝ) (congrFun h (Sum.inl 0))
  refine ⟨l, N, _, hs, fun p hp => (hadm p hp).1.le, hp, hN, hR, ?_⟩
  exact C98_some l hs hp N _ hR

end Composipy
