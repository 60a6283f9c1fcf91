import Verif.Model.Rounded
import Verif.Lemmas.Moments
import Verif.Spec.Stack
import Mathlib.Analysis.SpecialFunctions.Trigonometric.Bounds
import Mathlib.Analysis.SpecialFunctions.Trigonometric.Deriv
import Mathlib.Tactic.Positivity
import Mathlib.Tactic.Ring
import Mathlib.Tactic.Linarith

/-!
Propagation of rounding errors.
-/

namespace Composipy

namespace Spec

/-- `y` is a computed value of `x`, whose terms have sizes adding up to at most `X`: the error is at most `(g-1) X`. -/
def Within (g y x X : ℝ) : Prop := |x| ≤ X ∧ |y - x| ≤ (g - 1) * X

end Spec
open Spec

namespace Spec.Within

theorem nonneg {g y x X : ℝ} (h : Within g y x X) : 0 ≤ X := (abs_nonneg _).trans h.1

theorem exact (x : ℝ) : Within 1 x x |x| := ⟨le_rfl, by simp⟩

theorem mono {g g' y x X X' : ℝ} (h : Within g y x X) (hg1 : 1 ≤ g) (hg : g ≤ g') (hX : X ≤ X') : Within g' y x X' :=
  ⟨h.1.trans hX, h.2.trans (by
    have := h.nonneg
    exact mul_le_mul (by linarith) hX this (by linarith))⟩

theorem size {g y x X : ℝ} (h : Within g y x X) : |y| ≤ g * X := by
  have h1 : |y| ≤ |y - x| + |x| := by
    have := abs_add_le (y - x) x
    simpa using this
  linarith [h.1, h.2]

theorem neg {g y x X : ℝ} (h : Within g y x X) : Within g (-y) (-x) X :=
  ⟨by simpa using h.1, by rw [← neg_add', abs_neg]; simpa [sub_eq_add_neg] using h.2⟩

theorem add {g y x X y' x' X' : ℝ} (h : Within g y x X) (h' : Within g y' x' X') : Within g (y + y') (x + x') (X + X') := by
  refine ⟨(abs_add_le _ _).trans (add_le_add h.1 h'.1), ?_⟩
  have : y + y' - (x + x') = (y - x) + (y' - x') := by ring
  rw [this, mul_add]
  exact (abs_add_le _ _).trans (add_le_add h.2 h'.2)

theorem sub {g y x X y' x' X' : ℝ} (h : Within g y x X) (h' : Within g y' x' X') : Within g (y - y') (x - x') (X + X') := by
  rw [sub_eq_add_neg, sub_eq_add_neg]
  exact h.add h'.neg

theorem mul {g g' y x X y' x' X' : ℝ} (hg : 1 ≤ g) (h : Within g y x X) (h' : Within g' y' x' X') :
    Within (g * g') (y * y') (x * x') (X * X') := by
  refine ⟨by rw [abs_mul]; exact mul_le_mul h.1 h'.1 (abs_nonneg _) h.nonneg, ?_⟩
  have e : y * y' - x * x' = y * (y' - x') + (y - x) * x' := by ring
  rw [e]
  refine (abs_add_le _ _).trans ?_
  rw [abs_mul, abs_mul]
  have h1 : |y| * |y' - x'| ≤ (g * X) * ((g' - 1) * X') :=
    mul_le_mul h.size h'.2 (abs_nonneg _) (mul_nonneg (by linarith) h.nonneg)
  have h2 : |y - x| * |x'| ≤ ((g - 1) * X) * X' :=
    mul_le_mul h.2 h'.1 (abs_nonneg _) (mul_nonneg (by linarith) h.nonneg)
  calc _ ≤ (g * X) * ((g' - 1) * X') + ((g - 1) * X) * X' := add_le_add h1 h2
    _ = _ := by ring

/-- A rounding after the operation. -/
theorem step {g u y y' x X : ℝ} (h : Within g y x X) (hu : 0 ≤ u) (hr : |y' - y| ≤ u * |y|) : Within (g * (1 + u)) y' x X := by
  refine ⟨h.1, ?_⟩
  have e : y' - x = (y' - y) + (y - x) := by ring
  rw [e]
  refine (abs_add_le _ _).trans ?_
  have := mul_le_mul_of_nonneg_left h.size hu
  calc _ ≤ u * (g * X) + (g - 1) * X := add_le_add (hr.trans this) h.2
    _ = _ := by ring

theorem pow {g y x X : ℝ} (hg : 1 ≤ g) (h : Within g y x X) (n : ℕ) : Within (g ^ n) (y ^ n) (x ^ n) (X ^ n) := by
  induction n with
  | zero => simpa using exact 1
  | succ n ih =>
    rw [pow_succ, pow_succ, pow_succ, pow_succ]
    exact ih.mul (one_le_pow₀ hg) h

end Spec.Within

namespace FloatArith
variable (F : FloatArith)

theorem u_nonneg : 0 ≤ F.u := by
  have h := F.near 1
  have h2 := abs_nonneg (F.fl 1 - 1)
  simp only [abs_one, mul_one] at h
  exact h2.trans h

/-- The growth of an error by one rounding. -/
def q : ℝ := 1 + F.u

theorem q_ge : 1 ≤ F.q := by unfold q; linarith [F.u_nonneg]

theorem q_pos : 0 < F.q := lt_of_lt_of_le one_pos F.q_ge

theorem qpow_ge (n : ℕ) : 1 ≤ F.q ^ n := one_le_pow₀ F.q_ge

theorem qpow_mono {n m : ℕ} (h : n ≤ m) : F.q ^ n ≤ F.q ^ m := pow_le_pow_right₀ F.q_ge h

variable {F}

theorem fl_within {g y x X : ℝ} (h : Within g y x X) : Within (g * F.q) (F.fl y) x X := h.step F.u_nonneg (F.near y)

theorem pw_within {g y x X : ℝ} (hg : 1 ≤ g) (h : Within g y x X) (n : ℕ) : Within (g ^ n * F.q) (F.pw y n) (x ^ n) (X ^ n) :=
  (h.pow hg n).step F.u_nonneg (F.nearPw y n)

theorem fl_zero : F.fl 0 = 0 := by simpa using F.near 0

/-! ## Interfaces -/

/-- Rounded running sums. -/
theorem total_within (L : List (ℝ × Mat)) (ht : NonnegThick L) (n : ℕ) (a s : ℝ) (hs : 0 ≤ s) (h : Within (F.q ^ n) a s s) :
    Within (F.q ^ (n + L.length)) (L.foldl (fun tot p => F.fl (tot + p.2.thickness)) a) (s + height L) (s + height L) := by
  induction L generalizing n a s with
  | nil => simpa [height] using h
  | cons p L ih =>
    have hp : 0 ≤ p.2.thickness := ht p (by simp)
    have h1 : Within (F.q ^ n) p.2.thickness p.2.thickness p.2.thickness := by
      have := Within.exact p.2.thickness
      rw [abs_of_nonneg hp] at this
      exact this.mono le_rfl (F.qpow_ge n) le_rfl
    have h2 := fl_within (F := F) (h.add h1)
    rw [← pow_succ] at h2
    have := ih (fun r hr => ht r (by simp [hr])) (n + 1) _ _ (by linarith) h2
    simp only [List.foldl_cons, List.length_cons, height, List.map_cons, List.sum_cons] at this ⊢
    rw [show n + (L.length + 1) = n + 1 + L.length by ring, ← add_assoc]
    exact this

theorem totalThickness_within (L : List (ℝ × Mat)) (ht : NonnegThick L) :
    Within (F.q ^ L.length) (F.totalThickness L) (height L) (height L) := by
  have := total_within (F := F) L ht 0 0 0 le_rfl ⟨by simp, by simp⟩
  simpa [totalThickness] using this

/-- Rounded interface heights from `z` upwards. -/
def zRound (F : FloatArith) (z : ℝ) : List ℝ → List ℝ
  | [] => [z]
  | t :: ts => z :: zRound F (F.fl (z + t)) ts

theorem zRound_length (z : ℝ) (ts : List ℝ) : (zRound F z ts).length = ts.length + 1 := by
  induction ts generalizing z with
  | nil => rfl
  | cons t ts ih => simp [zRound, ih]

theorem zRound_head (z : ℝ) (ts : List ℝ) : (zRound F z ts)[0]? = some z := by
  cases ts <;> rfl

theorem zRound_fold (L : List (ℝ × Mat)) (z : ℝ) (pre : List ℝ) :
    (L.foldl (fun st p => (F.fl (st.1 + p.2.thickness), st.2 ++ [F.fl (st.1 + p.2.thickness)])) (z, pre ++ [z])).2 =
      pre ++ zRound F z (L.map fun p => p.2.thickness) := by
  induction L generalizing z pre with
  | nil => simp [zRound]
  | cons p L ih =>
    simp only [List.foldl_cons, List.map_cons, zRound]
    rw [ih]; simp

theorem zPositionOf_eq (L : List (ℝ × Mat)) :
    F.zPositionOf L = zRound F (F.fl (-(F.totalThickness L) / 2)) (L.map fun p => p.2.thickness) := by
  have := zRound_fold (F := F) L (F.fl (-(F.totalThickness L) / 2)) []
  simpa [zPositionOf] using this

/-- One more interface. -/
theorem next_within (n : ℕ) (H y z t : ℝ) (hz : Within (F.q ^ n) y z H) (h0 : 0 ≤ t) (htop : z + t ≤ H) :
    Within (F.q ^ (n + 1)) (F.fl (y + t)) (z + t) H := by
  have hz1 : |z + t| ≤ H := by
    have := abs_le.mp hz.1
    exact abs_le.mpr ⟨by linarith, by linarith⟩
  refine ⟨hz1, ?_⟩
  have h1 : |y - z| ≤ (F.q ^ n - 1) * H := hz.2
  have h2 : |y + t| ≤ F.q ^ n * H := by
    have e : y + t = (z + t) + (y - z) := by ring
    rw [e]
    refine (abs_add_le _ _).trans ?_
    linarith
  have h3 := F.near (y + t)
  have e : F.fl (y + t) - (z + t) = (F.fl (y + t) - (y + t)) + (y - z) := by ring
  rw [e]
  refine (abs_add_le _ _).trans ?_
  have h4 := mul_le_mul_of_nonneg_left h2 F.u_nonneg
  have h5 : F.q ^ (n + 1) = F.q ^ n + F.q ^ n * F.u := by rw [pow_succ, q]; ring
  rw [h5]
  linarith

/-- All computed interfaces. -/
theorem zRound_within (H : ℝ) (ts : List ℝ) (hts : ∀ t ∈ ts, 0 ≤ t) (n : ℕ) (y z : ℝ) (hz : Within (F.q ^ n) y z H) (htop : z + ts.sum ≤ H)
    (k : ℕ) (a b : ℝ) (ha : (zRound F y ts)[k]? = some a) (hb : (zList z ts)[k]? = some b) : Within (F.q ^ (n + k)) a b H := by
  induction ts generalizing n y z k with
  | nil =>
    cases k with
    | zero =>
      simp only [zRound, zList, List.getElem?_cons_zero, Option.some.injEq] at ha hb
      rwa [← ha, ← hb]
    | succ k => simp [zRound] at ha
  | cons t ts ih =>
    cases k with
    | zero =>
      simp only [zRound, zList, List.getElem?_cons_zero, Option.some.injEq] at ha hb
      rwa [← ha, ← hb]
    | succ k =>
      simp only [zRound, zList, List.getElem?_cons_succ, List.sum_cons] at ha hb htop
      have hsum : 0 ≤ ts.sum := List.sum_nonneg fun t ht => hts t (by simp [ht])
      have := ih (fun t ht => hts t (by simp [ht])) (n + 1) _ _ (next_within (F := F) n H y z t hz (hts t (by simp)) (by linarith))
        (by linarith) k ha hb
      rwa [show n + (k + 1) = n + 1 + k by ring]

/-- Rounded weighted sum over layers. -/
def momRound (F : FloatArith) (w : ℝ → ℝ → ℝ) (z a : ℝ) : List (ℝ × ℝ) → ℝ
  | [] => a
  | (t, Q) :: rest => momRound F w (F.fl (z + t)) (F.fl (a + F.fl (w z (F.fl (z + t)) * Q))) rest

theorem loop_zRound (w : ℝ → ℝ → ℝ) (ts : List ℝ) (Qs : List M3) (h : Qs.length = ts.length) (z : ℝ) (pre : List ℝ) (acc : M3) :
    (Qs.zipIdx pre.length).foldlM (fun acc (Qi : M3 × Nat) => do
      let zk1 ← pyIdx (pre ++ zRound F z ts) (Qi.2 + 1)
      let zk0 ← pyIdx (pre ++ zRound F z ts) Qi.2
      return F.addTerm (w zk0 zk1) acc Qi.1) acc =
      Except.ok (fun i j => momRound F w z (acc i j) (ts.zip (Qs.map fun Q => Q i j))) := by
  induction ts generalizing Qs z pre acc with
  | nil =>
    cases Qs with
    | nil => rfl
    | cons Q Qs => simp at h
  | cons t ts ih =>
    cases Qs with
    | nil => simp at h
    | cons Q Qs =>
      simp only [List.zipIdx_cons, List.foldlM_cons]
      have h0 : pyIdx (pre ++ zRound F z (t :: ts)) pre.length = .ok z := by
        simp [zRound, pyIdx]
      have h1 : pyIdx (pre ++ zRound F z (t :: ts)) (pre.length + 1) = .ok (F.fl (z + t)) := by
        rw [pyIdx_append]
        simp [zRound, pyIdx, zRound_head]
      simp only [h0, h1, ok_bind, pure_eq_ok]
      have h2 := ih Qs (by simpa using h) (F.fl (z + t)) (pre ++ [z])
        (F.addTerm (w z (F.fl (z + t))) acc Q)
      simp only [List.append_assoc, List.singleton_append, List.length_append, List.length_singleton] at h2
      simp only [zRound, List.map_cons, List.zip_cons_cons, momRound]
      exact h2

theorem loopMatrix_ok (L : List (ℝ × Mat)) (Qs : List M3) (h : Qs.length = L.length) (w : ℝ → ℝ → ℝ) :
    F.loopMatrix L Qs w = .ok (fun i j => momRound F w (F.fl (-(F.totalThickness L) / 2)) 0
      ((L.map fun p => p.2.thickness).zip (Qs.map fun Q => Q i j))) := by
  have := loop_zRound (F := F) w (L.map fun p => p.2.thickness) Qs (by simpa using h) (F.fl (-(F.totalThickness L) / 2)) [] 0
  rw [loopMatrix, momentLoop, zPositionOf_eq]
  exact this

/-- The sum over the layers with rounding: `n` roundings in the heights so far, `r` in the weights. -/
theorem momRound_within (w w' : ℝ → ℝ → ℝ) (H W g : ℝ) (hg : 1 ≤ g) (e r N : ℕ)
    (hw : ∀ y0 x0 y1 x1 : ℝ, Within (F.q ^ N) y0 x0 H → Within (F.q ^ N) y1 x1 H → Within (F.q ^ r) (w' y0 y1) (w x0 x1) W)
    (L : List (ℝ × ℝ × ℝ × ℝ)) (hL : ∀ p ∈ L, 0 ≤ p.1 ∧ Within g p.2.1 p.2.2.1 p.2.2.2)
    (n : ℕ) (hN : n + L.length ≤ N) (y z : ℝ) (hz : Within (F.q ^ n) y z H) (htop : z + (L.map fun p => p.1).sum ≤ H)
    (a b S : ℝ) (ha : Within (g * F.q ^ e) a b S) (hre : r + 1 ≤ e) :
    Within (g * F.q ^ (e + L.length)) (momRound F w' y a (L.map fun p => (p.1, p.2.1)))
      (b + mom w z (L.map fun p => (p.1, p.2.2.1))) (S + W * (L.map fun p => p.2.2.2).sum) := by
  induction L generalizing n y z a b S e with
  | nil => simpa [momRound, mom] using ha
  | cons p L ih =>
    obtain ⟨t, Q', Q, X⟩ := p
    obtain ⟨ht, hQ⟩ := hL (t, Q', Q, X) (by simp)
    have ht' : 0 ≤ (L.map fun p => p.1).sum := by
      apply List.sum_nonneg
      intro x hx
      obtain ⟨p, hp, rfl⟩ := List.mem_map.mp hx
      exact (hL p (by simp [hp])).1
    simp only [List.map_cons, List.sum_cons, List.length_cons] at htop hN ⊢
    have hnext := next_within (F := F) n H y z t hz ht (by linarith)
    have hww := hw y z _ _ (hz.mono (F.qpow_ge n) (F.qpow_mono (by omega)) le_rfl)
      (hnext.mono (F.qpow_ge _) (F.qpow_mono (by omega)) le_rfl)
    have hterm := fl_within (F := F) (hww.mul (F.qpow_ge r) hQ)
    have hterm' : Within (g * F.q ^ e) (F.fl (w' y (F.fl (y + t)) * Q')) (w z (z + t) * Q) (W * X) := by
      refine hterm.mono ?_ ?_ le_rfl
      · exact one_le_mul_of_one_le_of_one_le (one_le_mul_of_one_le_of_one_le (F.qpow_ge r) hg) F.q_ge
      · rw [show F.q ^ r * g * F.q = g * F.q ^ (r + 1) by ring]
        exact mul_le_mul_of_nonneg_left (F.qpow_mono hre) (by linarith)
    have hacc := fl_within (F := F) (ha.add hterm')
    rw [mul_assoc, ← pow_succ] at hacc
    have := ih (e + 1) (fun p hp => hL p (by simp [hp])) (n + 1) (by omega) _ _ hnext (by linarith) _ _ _ hacc (by omega)
    simp only [momRound, mom, smul_eq_mul]
    rw [show e + (L.length + 1) = e + 1 + L.length by ring, ← add_assoc, mul_add, ← add_assoc]
    exact this

end FloatArith

end Composipy
