import Verif.Props.Constraints
import Verif.Props.Bardell

/-!
# C44: the selected shape functions satisfy the edge conditions
-/

namespace Composipy
open Polynomial Spec

/-- Deflection of shape `(i, j)` at `(xi, eta)` in `[-1,1] x [-1,1]`. -/
noncomputable def Spec.deflection (p : ℕ × ℕ) (xi eta : ℝ) : ℝ := (shape p.1).eval xi * (shape p.2).eval eta

/-- The deflection vanishes along the edge `xi = c`. -/
def Spec.PinnedX (p : ℕ × ℕ) (c : ℝ) : Prop := ∀ eta, deflection p c eta = 0
/-- The normal slope vanishes along the edge `xi = c`. -/
def Spec.FlatX (p : ℕ × ℕ) (c : ℝ) : Prop := ∀ eta, deriv (fun xi => deflection p xi eta) c = 0
/-- The deflection vanishes along the edge `eta = c`. -/
def Spec.PinnedY (p : ℕ × ℕ) (c : ℝ) : Prop := ∀ xi, deflection p xi c = 0
/-- The normal slope vanishes along the edge `eta = c`. -/
def Spec.FlatY (p : ℕ × ℕ) (c : ℝ) : Prop := ∀ xi, deriv (fun eta => deflection p xi eta) c = 0

theorem pinnedX_of {p : ℕ × ℕ} {c : ℝ} (h : (shape p.1).eval c = 0) : PinnedX p c := by
  intro eta; simp [deflection, h]

theorem pinnedY_of {p : ℕ × ℕ} {c : ℝ} (h : (shape p.2).eval c = 0) : PinnedY p c := by
  intro xi; simp [deflection, h]

theorem flatX_of {p : ℕ × ℕ} {c : ℝ} (h : (derivative (shape p.1)).eval c = 0) : FlatX p c := by
  intro eta
  have := (((shape p.1).hasDerivAt c).mul_const ((shape p.2).eval eta)).deriv
  rw [h, zero_mul] at this
  exact this

theorem flatY_of {p : ℕ × ℕ} {c : ℝ} (h : (derivative (shape p.2)).eval c = 0) : FlatY p c := by
  intro xi
  have := (((shape p.2).hasDerivAt c).const_mul ((shape p.1).eval xi)).deriv
  rw [h, mul_zero] at this
  exact this

/-- Function numbers and the end quantities they do not control. -/
theorem end_values (i : ℕ) : (i ≠ 0 → (shape i).eval (-1) = 0) ∧ (i ≠ 1 → (derivative (shape i)).eval (-1) = 0) ∧
    (i ≠ 2 → (shape i).eval 1 = 0) ∧ (i ≠ 3 → (derivative (shape i)).eval 1 = 0) := by
  obtain ⟨a, b, c, d⟩ := C45_low_values
  match i with
  | 0 => simp [a]
  | 1 => simp [b]
  | 2 => simp [c]
  | 3 => simp [d]
  | k + 4 =>
    obtain ⟨h1, h2, h3, h4⟩ := C45_bubble (k + 4) (by omega)
    exact ⟨fun _ => h1, fun _ => h3, fun _ => h2, fun _ => h4⟩

theorem word_has (w : Str) (f : List Str) (hf : boundaryConditions (strLower w) = .ok f) :
    (IsPinnedWord w → TZ ∈ f ∧ TX ∈ f) ∧ (IsClampedWord w → TZ ∈ f ∧ TX ∈ f ∧ RZ ∈ f ∧ RX ∈ f) := by
  constructor
  · intro h
    rw [bc_pinned h] at hf
    cases hf
    decide
  · intro h
    rw [bc_clamped h] at hf
    cases hf
    decide

/-- **C44** for word constraints every selected deflection shape vanishes along the pinned edges, and
vanishes together with its normal slope along the clamped edges, for every `m` and `n`. -/
theorem C44_edge_conditions (w0 wa v0 vb : Str) (m n : ℕ) (s : ShapeIdx)
    (h : computeIdx (.dict (some (.word w0)) (some (.word wa)) (some (.word v0)) (some (.word vb))) m n = .ok s)
    (p : ℕ × ℕ) (hp : p ∈ s.w) :
    (IsPinnedWord w0 ∨ IsClampedWord w0 → PinnedX p (-1)) ∧ (IsClampedWord w0 → FlatX p (-1)) ∧
    (IsPinnedWord wa ∨ IsClampedWord wa → PinnedX p 1) ∧ (IsClampedWord wa → FlatX p 1) ∧
    (IsPinnedWord v0 ∨ IsClampedWord v0 → PinnedY p (-1)) ∧ (IsClampedWord v0 → FlatY p (-1)) ∧
    (IsPinnedWord vb ∨ IsClampedWord vb → PinnedY p 1) ∧ (IsClampedWord vb → FlatY p 1) := by
  unfold computeIdx at h
  rw [word_dict] at h
  cases h0 : boundaryConditions (strLower w0) with
  | error e => simp [h0] at h
  | ok f0 =>
  cases ha : boundaryConditions (strLower wa) with
  | error e => simp [h0, ha] at h
  | ok fa =>
  cases g0 : boundaryConditions (strLower v0) with
  | error e => simp [h0, ha, g0] at h
  | ok k0 =>
  cases gb : boundaryConditions (strLower vb) with
  | error e => simp [h0, ha, g0, gb] at h
  | ok kb =>
    obtain ⟨i, hi, -, -, i3, i4, -, i6⟩ := idxLists_ok ⟨.flags f0, .flags fa, .flags k0, .flags kb⟩ m n
    simp only [h0, ha, g0, gb, hi, ok_bind, pure_eq_ok, Except.ok.injEq] at h
    subst h
    have hp' : p.1 ∈ i.wm ∧ p.2 ∈ i.wn := List.mem_product.mp (show (p.1, p.2) ∈ i.wm ×ˢ i.wn from hp)
    rw [i6] at hp'
    have kx := i3.sound _ hp'.1
    have ky := i4.sound _ hp'.2
    simp only [Edge.has, List.contains_iff_mem, Kept] at kx ky
    obtain ⟨x1, x2, x3, x4⟩ := kx
    obtain ⟨y1, y2, y3, y4⟩ := ky
    obtain ⟨a1, a2⟩ := word_has w0 f0 h0
    obtain ⟨b1, b2⟩ := word_has wa fa ha
    obtain ⟨c1, c2⟩ := word_has v0 k0 g0
    obtain ⟨d1, d2⟩ := word_has vb kb gb
    obtain ⟨e1, e2, e3, e4⟩ := end_values p.1
    obtain ⟨f1, f2, f3, f4⟩ := end_values p.2
    refine ⟨fun h => pinnedX_of (e1 fun hz => x1 ⟨hz, ?_⟩), fun h => flatX_of (e2 fun hz => x2 ⟨hz, ?_⟩),
      fun h => pinnedX_of (e3 fun hz => x3 ⟨hz, ?_⟩), fun h => flatX_of (e4 fun hz => x4 ⟨hz, ?_⟩),
      fun h => pinnedY_of (f1 fun hz => y1 ⟨hz, ?_⟩), fun h => flatY_of (f2 fun hz => y2 ⟨hz, ?_⟩),
      fun h => pinnedY_of (f3 fun hz => y3 ⟨hz, ?_⟩), fun h => flatY_of (f4 fun hz => y4 ⟨hz, ?_⟩)⟩
    · rcases h with h | h
      exacts [(a1 h).1, (a2 h).1]
    · exact (a2 h).2.2.1
    · rcases h with h | h
      exacts [(b1 h).1, (b2 h).1]
    · exact (b2 h).2.2.1
    · rcases h with h | h
      exacts [(c1 h).2, (c2 h).2.1]
    · exact (c2 h).2.2.2
    · rcases h with h | h
      exacts [(d1 h).2, (d2 h).2.1]
    · exact (d2 h).2.2.2

/-- Non-vacuity for C44: `x0` clamped, `xa` free, `y0` pinned, `yb` clamped; `(0, 4)` is excluded and
`(2, 1)` selected. -/
example : ∃ s, computeIdx (.dict (some (.word wClamped)) (some (.word wFree)) (some (.word wPinned))
    (some (.word wClamped))) 3 2 = .ok s ∧ (2, 1) ∈ s.w ∧ (0, 4) ∉ s.w := by
  refine ⟨_, rfl, ?_⟩
  decide +kernel

/-- **C44** free edges are not constrained: with a free `x0` the function that moves the edge is used. -/
theorem C44_free_edge_moves (wa v0 vb : Str) (m n : ℕ) (hm : 1 ≤ m) (hn : 1 ≤ n) (s : ShapeIdx)
    (h : computeIdx (.dict (some (.word wFree)) (some (.word wa)) (some (.word v0)) (some (.word vb))) m n = .ok s) :
    ∃ p ∈ s.w, ¬ PinnedX p (-1) := by
  unfold computeIdx at h
  rw [word_dict] at h
  have h0 : boundaryConditions (strLower wFree) = .ok [] := by decide +kernel
  rw [h0] at h
  cases ha : boundaryConditions (strLower wa) with
  | error e => simp [ha] at h
  | ok fa =>
  cases g0 : boundaryConditions (strLower v0) with
  | error e => simp [ha, g0] at h
  | ok k0 =>
  cases gb : boundaryConditions (strLower vb) with
  | error e => simp [ha, g0, gb] at h
  | ok kb =>
    obtain ⟨i, hi, -, -, i3, i4, -, i6⟩ := idxLists_ok ⟨.flags [], .flags fa, .flags k0, .flags kb⟩ m n
    simp only [ha, g0, gb, hi, ok_bind, pure_eq_ok, Except.ok.injEq] at h
    subst h
    -- index 0 is kept, hence first
    have hlen := i3.len
    have h0mem : 0 ∈ i.wm := by
      obtain ⟨x, hx⟩ : ∃ x, x ∈ i.wm := by
        cases hw : i.wm with
        | nil => rw [hw] at hlen; simp at hlen; omega
        | cons x xs => exact ⟨x, by simp⟩
      rcases Nat.eq_zero_or_pos x with rfl | hpos
      · exact hx
      · refine i3.complete x hx 0 hpos ?_
        simp [Kept, Edge.has]
    obtain ⟨y, hy⟩ : ∃ y, y ∈ i.wn := by
      have hl := i4.len
      rw [← i6] at hl
      cases hw : i.wn with
      | nil => rw [hw] at hl; simp at hl; omega
      | cons x xs => exact ⟨x, by simp⟩
    refine ⟨(0, y), List.mem_product.mpr ⟨h0mem, hy⟩, ?_⟩
    intro hpin
    -- the y factor would vanish identically
    have hone : (shape 0).eval (-1) = 1 := C45_low_values.1.1
    have hz : ∀ eta, (shape y).eval eta = 0 := by
      intro eta
      have := hpin eta
      simpa [deflection, hone] using this
    have hzero : shape y = 0 := Polynomial.funext fun x => by simpa using hz x
    match y with
    | 0 => have := C45_low_values.1.1; rw [hzero] at this; simp at this
    | 1 => have := C45_low_values.2.1.2.2.1; rw [hzero] at this; simp at this
    | 2 => have := C45_low_values.2.2.1.2.1; rw [hzero] at this; simp at this
    | 3 => have := C45_low_values.2.2.2.2.2.2; rw [hzero] at this; simp at this
    | k + 4 =>
      have := C45_orthogonal (k + 4) (k + 4) (by omega) (by omega)
      rw [hzero, if_pos rfl] at this
      simp [pint] at this
      have h2 : (0 : ℝ) < 2 * ((k : ℝ) + 4) - 3 := by
        have : (0 : ℝ) ≤ k := Nat.cast_nonneg k
        linarith
      exact absurd this.symm (div_pos two_pos h2).ne'

end Composipy
