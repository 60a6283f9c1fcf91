import Verif.Lemmas.Rounding
import Verif.Props.Laminate
import Verif.Props.Symmetry
import Mathlib.Data.Int.Log

/-!
# C110: interfaces and stiffness matrices in floating-point arithmetic
-/

namespace Composipy
open Spec

namespace FloatArith
variable {F : FloatArith}

theorem z0_within (L : List (ℝ × Mat)) (ht : NonnegThick L) :
    Within (F.q ^ (L.length + 1)) (F.fl (-(F.totalThickness L) / 2)) (-(height L) / 2) (height L / 2) := by
  have h := (totalThickness_within (F := F) L ht).neg
  have h2 : Within 1 (1 / 2 : ℝ) (1 / 2) (1 / 2) := by
    have := Within.exact (1 / 2 : ℝ)
    rwa [abs_of_pos (by norm_num)] at this
  have h3 := fl_within (F := F) (h.mul (F.qpow_ge _) h2)
  rw [mul_one, ← pow_succ] at h3
  convert h3 using 1 <;> ring_nf

theorem half_within (c : ℝ) (hc : 0 < c) : Within F.q (F.fl c) c c := by
  have := fl_within (F := F) (Within.exact c)
  rwa [abs_of_pos hc, one_mul] at this

theorem wA_within (N : ℕ) (H : ℝ) (y0 x0 y1 x1 : ℝ) (h0 : Within (F.q ^ N) y0 x0 H) (h1 : Within (F.q ^ N) y1 x1 H) :
    Within (F.q ^ (N + 1)) (F.wA y0 y1) (Composipy.wA x0 x1) (2 * H) := by
  have := fl_within (F := F) (h1.sub h0)
  rw [← pow_succ] at this
  rw [two_mul]
  exact this

theorem wB_within (N : ℕ) (H : ℝ) (y0 x0 y1 x1 : ℝ) (h0 : Within (F.q ^ N) y0 x0 H) (h1 : Within (F.q ^ N) y1 x1 H) :
    Within (F.q ^ (2 * N + 4)) (F.wB y0 y1) (Composipy.wB x0 x1) (H ^ 2) := by
  have h := fl_within (F := F) ((pw_within (F := F) (F.qpow_ge N) h1 2).sub (pw_within (F := F) (F.qpow_ge N) h0 2))
  have h' := fl_within (F := F) ((half_within (F := F) (1/2) (by norm_num)).mul F.q_ge h)
  unfold FloatArith.wB Composipy.wB
  convert h' using 1 <;> ring

theorem wD_within (N : ℕ) (H : ℝ) (y0 x0 y1 x1 : ℝ) (h0 : Within (F.q ^ N) y0 x0 H) (h1 : Within (F.q ^ N) y1 x1 H) :
    Within (F.q ^ (3 * N + 4)) (F.wD y0 y1) (Composipy.wD x0 x1) (2 / 3 * H ^ 3) := by
  have h := fl_within (F := F) ((pw_within (F := F) (F.qpow_ge N) h1 3).sub (pw_within (F := F) (F.qpow_ge N) h0 3))
  have h' := fl_within (F := F) ((half_within (F := F) (1/3) (by norm_num)).mul F.q_ge h)
  unfold FloatArith.wD Composipy.wD
  convert h' using 1 <;> ring

/-- The common bound of the three stiffness loops. -/
theorem loop_within (L : List (ℝ × Mat)) (ht : NonnegThick L) (w w' : ℝ → ℝ → ℝ) (W : ℝ) (r : ℕ)
    (hw : ∀ y0 x0 y1 x1 : ℝ, Within (F.q ^ (2 * L.length + 1)) y0 x0 (height L / 2) →
      Within (F.q ^ (2 * L.length + 1)) y1 x1 (height L / 2) → Within (F.q ^ r) (w' y0 y1) (w x0 x1) W)
    (Qs Qf : List M3) (X : M3) (g : ℝ) (hg : 1 ≤ g) (hlen : Qs.length = L.length)
    (hQ : List.Forall₂ (fun Q' Q => ∀ i j, Within g (Q' i j) (Q i j) (X i j)) Qf Qs) :
    ∃ M', F.loopMatrix L Qf w' = .ok M' ∧ ∀ i j,
      |M' i j - mom w (-(height L) / 2) ((L.map fun p => p.2.thickness).zip (Qs.map fun Q => Q i j))| ≤
        (g * F.q ^ (r + 1 + L.length) - 1) * (W * (L.length * X i j)) := by
  have hlen' : Qf.length = L.length := hQ.length_eq.trans hlen
  refine ⟨_, loopMatrix_ok L Qf hlen' w', fun i j => ?_⟩
  -- the quadruples (thickness, computed entry, exact entry, size)
  set ts := L.map fun p => p.2.thickness with hts
  set K : List (ℝ × ℝ × ℝ × ℝ) := (ts.zip (Qf.zip Qs)).map fun p => (p.1, p.2.1 i j, p.2.2 i j, X i j) with hK
  have htl : ts.length = L.length := by simp [hts]
  have hKl : K.length = L.length := by simp [hK, htl, hlen', hlen]
  have e1 : (K.map fun p => (p.1, p.2.1)) = ts.zip (Qf.map fun Q => Q i j) := by
    apply List.ext_getElem
    · simp [hK, htl, hlen', hlen]
    · intro k h1 h2
      simp [hK]
  have e2 : (K.map fun p => (p.1, p.2.2.1)) = ts.zip (Qs.map fun Q => Q i j) := by
    apply List.ext_getElem
    · simp [hK, htl, hlen', hlen]
    · intro k h1 h2
      simp [hK]
  have e3 : (K.map fun p => p.1) = ts := by
    apply List.ext_getElem
    · simp [hK, htl, hlen', hlen]
    · intro k h1 h2
      simp [hK]
  have e4 : (K.map fun p => p.2.2.2).sum = L.length * X i j := by
    have : (K.map fun p => p.2.2.2) = List.replicate L.length (X i j) := by
      apply List.eq_replicate_iff.mpr
      refine ⟨by simp [hKl], ?_⟩
      intro x hx
      obtain ⟨p, hp, rfl⟩ := List.mem_map.mp hx
      obtain ⟨p', _, rfl⟩ := List.mem_map.mp hp
      rfl
    rw [this, List.sum_replicate, nsmul_eq_mul]
  have hmem : ∀ p ∈ K, 0 ≤ p.1 ∧ Within g p.2.1 p.2.2.1 p.2.2.2 := by
    intro p hp
    obtain ⟨p', hp', rfl⟩ := List.mem_map.mp hp
    obtain ⟨t, Q', Q⟩ := p'
    have hm := List.of_mem_zip hp'
    refine ⟨?_, ?_⟩
    · obtain ⟨r, hr, hr'⟩ := List.mem_map.mp hm.1
      exact hr' ▸ ht r hr
    · exact (List.forall₂_iff_zip.mp hQ).2 hm.2 i j
  have hh : 0 ≤ height L := by
    apply List.sum_nonneg
    intro x hx
    obtain ⟨p, hp, rfl⟩ := List.mem_map.mp hx
    exact ht p hp
  have h := momRound_within (F := F) w w' (height L / 2) W g hg (r + 1) r (2 * L.length + 1) hw K hmem (L.length + 1)
    (by omega) _ _ (z0_within L ht) (by rw [e3, hts, ← height]; linarith) 0 0 0 ⟨by simp, by simp⟩ le_rfl
  rw [e1, e2, e4, hKl, zero_add, zero_add] at h
  exact h.2

end FloatArith

theorem height_nonneg {L : List (ℝ × Mat)} (ht : NonnegThick L) : 0 ≤ height L := by
  apply List.sum_nonneg
  intro x hx
  obtain ⟨p, hp, rfl⟩ := List.mem_map.mp hx
  exact ht p hp

theorem stack_mom (l : Lam) (Qs : List M3) (hQs : l.Qlayup = .ok Qs) (w : ℝ → ℝ → ℝ) :
    Qs.length = l.layup.length ∧ ∃ M, l.loopMatrix w = .ok M ∧
      ∀ i j, M i j = mom w (-(height l.layup) / 2) ((l.layup.map fun p => p.2.thickness).zip (Qs.map fun Q => Q i j)) := by
  have hall : AllOk l.layup := l.Qlayup_ok_iff.mp ⟨Qs, hQs⟩
  have hQ : Qs = l.layup.map plyQ! := by
    rw [l.Qlayup_ok hall] at hQs; cases hQs; rfl
  refine ⟨by simp [hQ], _, l.loopMatrix_ok w hall, fun i j => ?_⟩
  rw [mom_entry, bottom, totalThickness_eq, ← height]
  congr 1
  rw [hQ, List.map_map, List.map_map, List.zip_map']
  rfl

/-- The stiffnesses `Qf` were computed for the exact stiffnesses `Qs`: the entries of both lists differ by at most `(g-1) X`, where `X` bounds
the exact entries. -/
def Spec.Computed (g : ℝ) (X : M3) (Qf Qs : List M3) : Prop :=
  List.Forall₂ (fun Q' Q => ∀ i j, Within g (Q' i j) (Q i j) (X i j)) Qf Qs

/-! ## C110 -/

/-- **C110** computed interfaces: one more than plies, each within `(1+u)^(2n+1) - 1` of the half thickness. -/
theorem C110_z_position (F : FloatArith) (l : Lam) (ht : NonnegThick l.layup) :
    (F.zPositionOf l.layup).length = l.layup.length + 1 ∧
    ∀ (k : ℕ) (y z : ℝ), (F.zPositionOf l.layup)[k]? = some y → l.zPosition[k]? = some z →
      |y - z| ≤ ((1 + F.u) ^ (l.layup.length + 1 + k) - 1) * (height l.layup / 2) := by
  refine ⟨by simp [FloatArith.zPositionOf_eq, FloatArith.zRound_length], fun k y z hy hz => ?_⟩
  rw [FloatArith.zPositionOf_eq] at hy
  rw [Lam.zPosition, zPositionOf_eq, totalThickness_eq, ← height] at hz
  have h := FloatArith.zRound_within (F := F) (height l.layup / 2) (l.layup.map fun p => p.2.thickness)
    (by intro t h; obtain ⟨p, hp, rfl⟩ := List.mem_map.mp h; exact ht p hp) _ _ _ (FloatArith.z0_within l.layup ht)
    (by rw [← height]; linarith) k y z hy hz
  exact h.2

/-- **C110** computed `A` of a stack: every entry is within a small fraction of the total thickness times the sizes of the stiffness entries. -/
theorem C110_A (F : FloatArith) (l : Lam) (hs : IsStack l) (ht : NonnegThick l.layup) (Qs Qf : List M3) (hQs : l.Qlayup = .ok Qs)
    (X : M3) (g : ℝ) (hg : 1 ≤ g) (hQ : Computed g X Qf Qs) :
    ∃ A A', l.A = .ok A ∧ F.loopMatrix l.layup Qf F.wA = .ok A' ∧ ∀ i j,
      |A' i j - A i j| ≤ (g * (1 + F.u) ^ (3 * l.layup.length + 3) - 1) * (height l.layup * (l.layup.length * X i j)) := by
  obtain ⟨hlen, A, hA, hA'⟩ := stack_mom l Qs hQs wA
  obtain ⟨M, hM, h⟩ := FloatArith.loop_within (F := F) l.layup ht wA F.wA _ _ (FloatArith.wA_within _ _) Qs Qf X g hg hlen hQ
  refine ⟨A, M, by rw [hs.A_eq, hA], hM, fun i j => ?_⟩
  rw [hA' i j]
  convert h i j using 2
  · unfold FloatArith.q; ring_nf
  · ring

/-- **C110** computed `B` of a stack. -/
theorem C110_B (F : FloatArith) (l : Lam) (ht : NonnegThick l.layup) (Qs Qf : List M3) (hQs : l.Qlayup = .ok Qs)
    (X : M3) (g : ℝ) (hg : 1 ≤ g) (hQ : Computed g X Qf Qs) :
    ∃ B B', l.B = .ok B ∧ F.loopMatrix l.layup Qf F.wB = .ok B' ∧ ∀ i j,
      |B' i j - B i j| ≤ (g * (1 + F.u) ^ (5 * l.layup.length + 7) - 1) * (height l.layup ^ 2 / 4 * (l.layup.length * X i j)) := by
  obtain ⟨hlen, A, hA, hA'⟩ := stack_mom l Qs hQs wB
  obtain ⟨M, hM, h⟩ := FloatArith.loop_within (F := F) l.layup ht wB F.wB _ _ (FloatArith.wB_within _ _) Qs Qf X g hg hlen hQ
  refine ⟨A, M, hA, hM, fun i j => ?_⟩
  rw [hA' i j]
  convert h i j using 2
  · unfold FloatArith.q; ring_nf
  · ring

/-- **C110** computed `D` of a stack. -/
theorem C110_D (F : FloatArith) (l : Lam) (hs : IsStack l) (ht : NonnegThick l.layup) (Qs Qf : List M3) (hQs : l.Qlayup = .ok Qs)
    (X : M3) (g : ℝ) (hg : 1 ≤ g) (hQ : Computed g X Qf Qs) :
    ∃ D D', l.D = .ok D ∧ F.loopMatrix l.layup Qf F.wD = .ok D' ∧ ∀ i j,
      |D' i j - D i j| ≤ (g * (1 + F.u) ^ (7 * l.layup.length + 8) - 1) * (height l.layup ^ 3 / 12 * (l.layup.length * X i j)) := by
  obtain ⟨hlen, A, hA, hA'⟩ := stack_mom l Qs hQs wD
  obtain ⟨M, hM, h⟩ := FloatArith.loop_within (F := F) l.layup ht wD F.wD _ _ (FloatArith.wD_within _ _) Qs Qf X g hg hlen hQ
  refine ⟨A, M, by rw [hs.D_eq, hA], hM, fun i j => ?_⟩
  rw [hA' i j]
  convert h i j using 2
  · unfold FloatArith.q; ring_nf
  · ring

/-- **C110** the coupling matrix of a symmetric stack is computed as nearly zero. -/
theorem C110_symmetric (F : FloatArith) (l : Lam) (hs : IsStack l) (ht : NonnegThick l.layup) (hsym : l.layup.reverse = l.layup)
    (Qs Qf : List M3) (hQs : l.Qlayup = .ok Qs) (X : M3) (g : ℝ) (hg : 1 ≤ g) (hQ : Computed g X Qf Qs) :
    ∃ B', F.loopMatrix l.layup Qf F.wB = .ok B' ∧ ∀ i j,
      |B' i j| ≤ (g * (1 + F.u) ^ (5 * l.layup.length + 7) - 1) * (height l.layup ^ 2 / 4 * (l.layup.length * X i j)) := by
  obtain ⟨B, B', hB, hB', h⟩ := C110_B F l ht Qs Qf hQs X g hg hQ
  have h0 := C17_symmetric_B_zero l hs hsym B hB
  refine ⟨B', hB', fun i j => ?_⟩
  have := h i j
  rwa [h0, Matrix.zero_apply, sub_zero] at this

/-- **C110** without rounding the computed matrices are those of the exact model. -/
theorem C110_exact (F : FloatArith) (hu : F.u = 0) (l : Lam) (hs : IsStack l) (Qs : List M3) (hQs : l.Qlayup = .ok Qs) :
    F.loopMatrix l.layup Qs F.wA = l.A ∧ F.loopMatrix l.layup Qs F.wB = l.B ∧ F.loopMatrix l.layup Qs F.wD = l.D ∧
    F.zPositionOf l.layup = l.zPosition := by
  have hfl : F.fl = id := by
    funext x
    have := F.near x
    rw [hu, zero_mul] at this
    exact sub_eq_zero.mp (abs_nonpos_iff.mp this)
  have hpw : F.pw = fun x n => x ^ n := by
    funext x n
    have := F.nearPw x n
    rw [hu, zero_mul] at this
    exact sub_eq_zero.mp (abs_nonpos_iff.mp this)
  have hz : F.zPositionOf l.layup = l.zPosition := by
    simp only [FloatArith.zPositionOf, Lam.zPosition, Composipy.zPositionOf, FloatArith.totalThickness, totalThickness, hfl, id]
  have hadd : ∀ (w : ℝ) (acc Q : M3), F.addTerm w acc Q = acc + w • Q := by
    intro w acc Q
    funext i j
    simp [FloatArith.addTerm, hfl]
  have hloop : ∀ w : ℝ → ℝ → ℝ, F.loopMatrix l.layup Qs w = l.loopMatrix w := by
    intro w
    simp only [FloatArith.loopMatrix, Lam.loopMatrix, hQs, ok_bind, hz, FloatArith.momentLoop, Composipy.momentLoop, hadd]
  have h1 : F.wA = wA := by funext a b; simp [FloatArith.wA, wA, hfl]
  have h2 : F.wB = wB := by funext a b; simp [FloatArith.wB, wB, hfl, hpw]
  have h3 : F.wD = wD := by funext a b; simp [FloatArith.wD, wD, hfl, hpw]
  exact ⟨by rw [hloop, h1, hs.A_eq], by rw [hloop, h2]; rfl, by rw [hloop, h3, hs.D_eq], hz⟩

/-- Rounding that keeps the order of numbers and leaves rounded numbers alone. -/
structure Spec.Ordered (F : FloatArith) : Prop where
  mono : ∀ x y, x ≤ y → F.fl x ≤ F.fl y
  idem : ∀ x, F.fl (F.fl x) = F.fl x

theorem momRound_nonneg (F : FloatArith) (hF : Ordered F) (L : List (ℝ × ℝ)) (hL : ∀ p ∈ L, 0 ≤ p.1 ∧ 0 ≤ p.2) (z a : ℝ) (hz : F.fl z = z)
    (ha : 0 ≤ a) : 0 ≤ FloatArith.momRound F F.wA z a L := by
  induction L generalizing z a with
  | nil => exact ha
  | cons p L ih =>
    obtain ⟨t, Q⟩ := p
    obtain ⟨ht, hQ⟩ := hL (t, Q) (by simp)
    have hpos : ∀ x, 0 ≤ x → 0 ≤ F.fl x := by
      intro x hx
      have := hF.mono 0 x hx
      rwa [FloatArith.fl_zero] at this
    have h1 : z ≤ F.fl (z + t) := by
      have := hF.mono z (z + t) (by simpa using ht)
      rwa [hz] at this
    apply ih (fun p hp => hL p (by simp [hp])) _ _ (hF.idem _)
    apply hpos
    apply add_nonneg ha
    apply hpos
    exact mul_nonneg (hpos _ (by linarith)) hQ

theorem zRound_mono (F : FloatArith) (hF : Ordered F) (ts : List ℝ) (hts : ∀ t ∈ ts, 0 ≤ t) (z : ℝ) (hz : F.fl z = z) (k : ℕ) (a b : ℝ)
    (ha : (FloatArith.zRound F z ts)[k]? = some a) (hb : (FloatArith.zRound F z ts)[k + 1]? = some b) : a ≤ b := by
  induction ts generalizing z k with
  | nil => simp [FloatArith.zRound] at hb
  | cons t ts ih =>
    cases k with
    | zero =>
      simp only [FloatArith.zRound, List.getElem?_cons_zero, Option.some.injEq, zero_add, List.getElem?_cons_succ,
        FloatArith.zRound_head] at ha hb
      have := hF.mono z (z + t) (by simpa using hts t (by simp))
      rw [hz] at this
      rwa [← ha, ← hb]
    | succ k =>
      simp only [FloatArith.zRound, List.getElem?_cons_succ] at ha hb
      exact ih (fun t ht => hts t (by simp [ht])) _ (hF.idem _) k ha hb

/-- **C110** with such a rounding the computed interfaces never decrease, and entries of `A` whose ply stiffnesses were computed as nonnegative are
nonnegative. -/
theorem C110_ordered (F : FloatArith) (hF : Ordered F) (l : Lam) (ht : NonnegThick l.layup) :
    (∀ (k : ℕ) (a b : ℝ), (F.zPositionOf l.layup)[k]? = some a → (F.zPositionOf l.layup)[k + 1]? = some b → a ≤ b) ∧
    ∀ Qf : List M3, Qf.length = l.layup.length → ∃ A', F.loopMatrix l.layup Qf F.wA = .ok A' ∧
      ∀ i j, (∀ Q ∈ Qf, 0 ≤ Q i j) → 0 ≤ A' i j := by
  constructor
  · intro k a b ha hb
    rw [FloatArith.zPositionOf_eq] at ha hb
    refine zRound_mono F hF _ ?_ _ (hF.idem _) k a b ha hb
    intro t h; obtain ⟨p, hp, rfl⟩ := List.mem_map.mp h; exact ht p hp
  · intro Qf hlen
    refine ⟨_, FloatArith.loopMatrix_ok l.layup Qf hlen F.wA, fun i j hQ => ?_⟩
    apply momRound_nonneg F hF _ _ _ _ (hF.idem _) le_rfl
    intro p hp
    have hm := List.of_mem_zip (a := p.1) (b := p.2) hp
    refine ⟨?_, ?_⟩
    · obtain ⟨r, hr, hr'⟩ := List.mem_map.mp hm.1
      exact hr' ▸ ht r hr
    · obtain ⟨Q, hQ', hr⟩ := List.mem_map.mp hm.2
      exact hr ▸ hQ Q hQ'

end Composipy
