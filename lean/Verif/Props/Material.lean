import Verif.Lemmas.Rotation
import Verif.Spec.Tensor
import Verif.Lemmas.Validation
import Mathlib.Tactic.Positivity

/-!
# C04 - C07, C09: ply stiffness and material comparison
-/

namespace Composipy
open Spec Matrix

/-! ## C04 -/

/-- Plane-stress compliance of an orthotropic material. -/
noncomputable def Spec.compliance (e1 e2 v12 g12 : ℝ) : M3 :=
  !![1/e1, -v12/e1, 0; -v12/e1, 1/e2, 0; 0, 0, 1/g12]

/-- **C04** `Q_0` exists, is symmetric and is the two-sided inverse of the compliance. -/
theorem C04_Q0_inverse_compliance (m : OrthoMat ℝ) (h1 : m.e1 ≠ 0) (h2 : m.e2 ≠ 0)
    (hg : m.g12 ≠ 0) (hv : m.v12 ^ 2 * m.e2 ≠ m.e1) :
    ∃ Q, m.Q0 = .ok Q ∧ Q.IsSymm ∧
      Q * compliance m.e1 m.e2 m.v12 m.g12 = 1 ∧ compliance m.e1 m.e2 m.v12 m.g12 * Q = 1 := by
  have hd : 1 - m.v12 * m.v21 ≠ 0 := by
    intro h
    apply hv
    rw [OrthoMat.v21] at h
    field_simp at h
    linarith
  have hd' : m.e1 - m.v12 ^ 2 * m.e2 ≠ 0 := sub_ne_zero.mpr (Ne.symm hv)
  refine ⟨_, m.Q0_of_ne hd, ?_, ?_⟩
  · ext i j; fin_cases i <;> fin_cases j <;> simp
  · rw [mul_eq_one_comm (a := compliance _ _ _ _), and_self]
    ext i j
    fin_cases i <;> fin_cases j <;>
      simp [compliance, OrthoMat.v21, Matrix.mul_apply, Fin.sum_univ_three, Matrix.one_apply] <;> field_simp <;>
      ring_nf

example : ∃ Q, (⟨132000, 10300, 1/4, 5500, 0.1, 0, 0, 0, 0, 0⟩ : OrthoMat ℝ).Q0 = .ok Q :=
  let ⟨Q, h, _⟩ := C04_Q0_inverse_compliance ⟨132000, 10300, 1/4, 5500, 0.1, 0, 0, 0, 0, 0⟩
    (by norm_num) (by norm_num) (by norm_num) (by norm_num)
  ⟨Q, h⟩

/-! ## C05 -/

/-- **C05** exact failure condition of `Q_0`. -/
theorem C05_Q0_raises_iff (m : OrthoMat ℝ) (h1 : m.e1 ≠ 0) :
    m.Q0 = .error .zeroDivisionError ↔ m.v12 ^ 2 * m.e2 = m.e1 := by
  have hd : 1 - m.v12 * (m.v12 * (m.e2 / m.e1)) = 0 ↔ m.v12 ^ 2 * m.e2 = m.e1 := by
    rw [sub_eq_zero]
    field_simp
    exact eq_comm
  rw [← hd]
  by_cases h : 1 - m.v12 * (m.v12 * (m.e2 / m.e1)) = 0
  · simp [OrthoMat.Q0, OrthoMat.v21, pyDiv, h]
  · simp [OrthoMat.Q0, OrthoMat.v21, pyDiv, h]

/-- **C05** no other exception. -/
theorem C05_Q0_only_zeroDiv (m : OrthoMat ℝ) (e : PyErr) (h : m.Q0 = .error e) :
    e = .zeroDivisionError := by
  by_cases hd : 1 - m.v12 * m.v21 = 0
  · simp [OrthoMat.Q0, pyDiv, hd] at h; exact h.symm
  · simp [OrthoMat.Q0, pyDiv, hd] at h

/-- **C05** exact condition for a positive definite `Q_0`. -/
theorem C05_Q0_posDef_iff (m : OrthoMat ℝ) (h1 : 0 < m.e1) (h2 : 0 < m.e2) (hg : 0 < m.g12) :
    (∃ Q, m.Q0 = .ok Q ∧ IsPD Q) ↔ m.v12 ^ 2 * m.e2 < m.e1 := by
  constructor
  · rintro ⟨Q, hQ, -, hpd⟩
    have hd : 1 - m.v12 * m.v21 ≠ 0 := by
      intro hd; simp [OrthoMat.Q0, pyDiv, hd] at hQ
    rw [m.Q0_of_ne hd, Except.ok.injEq] at hQ
    have h := hpd ![1, 0, 0] (by intro h; simpa using congrFun h 0)
    rw [← hQ] at h
    simp [Matrix.mulVec, dotProduct, Fin.sum_univ_three] at h
    have : 0 < 1 - m.v12 * m.v21 := by
      by_contra hn
      push Not at hn
      exact absurd h (not_lt.mpr (div_nonpos_of_nonneg_of_nonpos h1.le hn))
    rw [OrthoMat.v21] at this
    have h3 : m.v12 * (m.v12 * (m.e2 / m.e1)) = (m.v12 ^ 2 * m.e2) / m.e1 := by ring
    rw [h3, sub_pos, div_lt_one h1] at this
    exact this
  · intro hv
    have hd : 0 < 1 - m.v12 * m.v21 := by
      rw [OrthoMat.v21, show m.v12 * (m.v12 * (m.e2 / m.e1)) = (m.v12 ^ 2 * m.e2) / m.e1 by ring,
        sub_pos, div_lt_one h1]
      exact hv
    refine ⟨_, m.Q0_of_ne hd.ne', ?_, ?_⟩
    · ext i j; fin_cases i <;> fin_cases j <;> simp
    · intro x hx
      set d := 1 - m.v12 * m.v21 with hdd
      have key : x ⬝ᵥ (!![m.e1 / d, m.v12 * m.e2 / d, 0; m.v12 * m.e2 / d, m.e2 / d, 0;
          0, 0, m.g12] *ᵥ x) =
          (m.e2 * (x 1 + m.v12 * x 0) ^ 2 + (m.e1 - m.v12 ^ 2 * m.e2) * x 0 ^ 2) / d
            + m.g12 * x 2 ^ 2 := by
        simp [Matrix.mulVec, dotProduct, Fin.sum_univ_three]
        field_simp
        ring
      rw [key]
      have hw : 0 < m.e1 - m.v12 ^ 2 * m.e2 := sub_pos.mpr hv
      by_cases hx2 : x 2 = 0
      · have h4 : 0 < m.e2 * (x 1 + m.v12 * x 0) ^ 2 + (m.e1 - m.v12 ^ 2 * m.e2) * x 0 ^ 2 := by
          by_cases hx0 : x 0 = 0
          · have hx1 : x 1 ≠ 0 := by
              intro hx1; apply hx; ext i; fin_cases i <;> simp [hx0, hx1, hx2]
            rw [hx0]; simp; positivity
          · have : 0 < (m.e1 - m.v12 ^ 2 * m.e2) * x 0 ^ 2 := by positivity
            have : 0 ≤ m.e2 * (x 1 + m.v12 * x 0) ^ 2 := by positivity
            linarith
        rw [hx2]; simp; positivity
      · have h5 : 0 < m.g12 * x 2 ^ 2 := by positivity
        have h6 : 0 ≤ (m.e2 * (x 1 + m.v12 * x 0) ^ 2 + (m.e1 - m.v12 ^ 2 * m.e2) * x 0 ^ 2) / d := by
          positivity
        linarith

/-- **C05** the claim as stated is false: an accepted material whose `Q_0` cannot be read. -/
theorem C05_accepted_but_unreadable :
    ∃ (a : OrthoMat PyVal) (m : OrthoMat PyFloat) (r : OrthoMat ℝ), a.init = .ok m ∧
      m.toReal? = some r ∧ 0 < r.e1 ∧ 0 < r.e2 ∧ 0 < r.g12 ∧
      r.Q0 = .error .zeroDivisionError := by
  refine ⟨OrthoMat.args (.num (.fin 1)) (.num (.fin 4)) (.num (.fin (1/2))) (.num (.fin 1))
    (.num (.fin 1)), ⟨.fin 1, .fin 4, .fin (1/2), .fin 1, .fin 1, .fin 0, .fin 0, .fin 0, .fin 0,
      .fin 0⟩, ⟨1, 4, 1/2, 1, 1, 0, 0, 0, 0, 0⟩, ?_, rfl, by norm_num, by norm_num, by norm_num, ?_⟩
  · rcases ortho_init_cases (OrthoMat.args (.num (.fin 1)) (.num (.fin 4)) (.num (.fin (1/2)))
      (.num (.fin 1)) (.num (.fin 1))) with ⟨m, hc, -, -, h⟩ | ⟨m, hc, -, hz, -⟩ | ⟨hn, -⟩
    · rw [h, OrthoConverts.unique hc]
      simp [OrthoConverts, OrthoMat.args, PyVal.toFloat]
    · have := hc.1
      simp only [OrthoMat.args, PyVal.toFloat, hz, Option.some.injEq, XF.fin.injEq] at this
      norm_num at this
    · refine absurd ⟨⟨.fin 1, .fin 4, .fin (1/2), .fin 1, .fin 1, .fin 0, .fin 0, .fin 0, .fin 0,
        .fin 0⟩, ?_, ?_⟩ hn
      · simp [OrthoConverts, OrthoMat.args, PyVal.toFloat]
      · simp only [OrthoRanges, InRange]; norm_num; simp
  · rw [C05_Q0_raises_iff _ (by norm_num)]; norm_num

/-- **C05** ... and one whose `Q_0` is readable but not positive definite. -/
theorem C05_accepted_but_indefinite :
    ∃ r : OrthoMat ℝ, 0 < r.e1 ∧ 0 < r.e2 ∧ 0 < r.g12 ∧ |r.v12| ≤ 1/2 ∧
      ∃ Q, r.Q0 = .ok Q ∧ ¬ IsPD Q := by
  have h := (C05_Q0_posDef_iff ⟨1, 8, 1/2, 1, 1, 0, 0, 0, 0, 0⟩ (by norm_num) (by norm_num)
    (by norm_num)).not.mpr (by norm_num)
  push Not at h
  cases hq : (⟨1, 8, 1/2, 1, 1, 0, 0, 0, 0, 0⟩ : OrthoMat ℝ).Q0 with
  | error e =>
    have := C05_Q0_only_zeroDiv _ _ hq
    subst this
    rw [C05_Q0_raises_iff _ (by norm_num)] at hq
    norm_num at hq
  | ok Q => exact ⟨_, by norm_num, by norm_num, by norm_num, by norm_num [abs_of_pos], Q, hq, h Q hq⟩

/-! ## C06 -/

/-- **C06** the isotropic formula is the orthotropic one with equal moduli. -/
theorem C06_iso_eq_ortho (m : IsoMat ℝ) (he : m.e ≠ 0) (th t1 c1 t2 c2 s : ℝ) :
    m.Q0 = (⟨m.e, m.e, m.v, m.g, th, t1, c1, t2, c2, s⟩ : OrthoMat ℝ).Q0 := by
  simp [IsoMat.Q0, OrthoMat.Q0, OrthoMat.v21, div_self he]

/-- **C06** an accepted isotropic material always has a readable `Q_0`. -/
theorem C06_iso_never_raises (m : IsoMat ℝ) (hv : |m.v| ≤ 1/2) : ∃ Q, m.Q0 = .ok Q := by
  have hd : 1 - m.v * m.v ≠ 0 := by
    have := abs_le.mp hv
    nlinarith [this.1, this.2]
  exact ⟨_, m.Q0_of_ne hd⟩

/-- **C06** it is positive definite for positive moduli. -/
theorem C06_iso_posDef (m : IsoMat ℝ) (hv : |m.v| ≤ 1/2) (he : 0 < m.e) (hg : 0 < m.g) :
    ∃ Q, m.Q0 = .ok Q ∧ IsPD Q := by
  rw [C06_iso_eq_ortho m he.ne' 0 0 0 0 0 0, C05_Q0_posDef_iff _ he he hg]
  have := abs_le.mp hv
  have h2 : m.v ^ 2 < 1 := by nlinarith [this.1, this.2]
  simp only
  nlinarith

theorem rotQ_iso_entries (t a b g : ℝ) :
    rotQ t !![a, b, 0; b, a, 0; 0, 0, g] =
      !![a, b, 0; b, a, 0; 0, 0, g] + (g - (a - b) / 2) •
        !![4 * cosd t ^ 2 * sind t ^ 2, -4 * cosd t ^ 2 * sind t ^ 2,
            -2 * cosd t * sind t * (cosd t ^ 2 - sind t ^ 2);
          -4 * cosd t ^ 2 * sind t ^ 2, 4 * cosd t ^ 2 * sind t ^ 2,
            2 * cosd t * sind t * (cosd t ^ 2 - sind t ^ 2);
          -2 * cosd t * sind t * (cosd t ^ 2 - sind t ^ 2),
            2 * cosd t * sind t * (cosd t ^ 2 - sind t ^ 2), -4 * cosd t ^ 2 * sind t ^ 2] := by
  have h := cosd_sq_add t
  have hc : cosd t ^ 2 = 1 - sind t ^ 2 := by linarith
  ext i j
  fin_cases i <;> fin_cases j <;>
    simp [rotQ, Teng, Matrix.mul_apply, Fin.sum_univ_three] <;> ring_nf <;>
    simp only [show cosd t ^ 4 = (cosd t ^ 2) ^ 2 by ring, show cosd t ^ 3 = cosd t ^ 2 * cosd t by ring, hc]
      <;> ring

/-- **C06** orientation independence: with `g = e/(2(1+v))` the ply contributes the same stiffness at
every angle. -/
theorem C06_iso_rotation_invariant (m : IsoMat ℝ) (hv : |m.v| ≤ 1/2) (hg : m.g = m.e / (2 * (1 + m.v)))
    (t : ℝ) : plyQ (t, .iso m) = plyQ (0, .iso m) := by
  have h1 := abs_le.mp hv
  have hd : 1 - m.v * m.v ≠ 0 := by nlinarith [h1.1, h1.2]
  have h2 : 1 + m.v ≠ 0 := by linarith [h1.1]
  have h3 : 1 - m.v ≠ 0 := by linarith [h1.2]
  simp only [plyQ_eq, Mat.Q0, m.Q0_of_ne hd, ok_map,
    rotQ_iso_entries]
  have : m.g - (m.e / (1 - m.v * m.v) - m.v * m.e / (1 - m.v * m.v)) / 2 = 0 := by
    rw [hg]; rw [show 1 - m.v * m.v = (1 - m.v) * (1 + m.v) by ring] at hd ⊢
    field_simp; ring
  rw [this]; simp

/-- **C06** conversely, invariance (already under 45 degrees) forces the isotropic shear modulus. -/
theorem C06_iso_rotation_invariant_conv (m : IsoMat ℝ) (hv : |m.v| ≤ 1/2)
    (h : plyQ (45, .iso m) = plyQ (0, .iso m)) : m.g = m.e / (2 * (1 + m.v)) := by
  have h1 := abs_le.mp hv
  have hd : 1 - m.v * m.v ≠ 0 := by nlinarith [h1.1, h1.2]
  have h2 : 1 + m.v ≠ 0 := by linarith [h1.1]
  have h3 : 1 - m.v ≠ 0 := by linarith [h1.2]
  simp only [plyQ_eq, Mat.Q0, m.Q0_of_ne hd, ok_map,
    rotQ_iso_entries, Except.ok.injEq] at h
  have h00 := congrFun (congrFun h 0) 0
  have hc : cosd 45 ^ 2 = 1/2 := by
    rw [cosd, show (45 : ℝ) * Real.pi / 180 = Real.pi / 4 by ring, Real.cos_pi_div_four, div_pow,
      Real.sq_sqrt (by norm_num)]; norm_num
  have hs : sind 45 ^ 2 = 1/2 := by have := cosd_sq_add 45; linarith
  simp [hc, hs] at h00
  rw [show 1 - m.v * m.v = (1 - m.v) * (1 + m.v) by ring] at hd h00
  field_simp at h00 ⊢
  nlinarith [h00]

/-- Non-vacuity for C06. -/
example : plyQ (37, .iso ⟨70000, 0.25, 28000, 1, 0, 0, 0⟩) =
    plyQ (0, .iso ⟨70000, 0.25, 28000, 1, 0, 0, 0⟩) :=
  C06_iso_rotation_invariant _ (by norm_num [abs_of_pos]) (by norm_num) _

/-! ## C07 -/

/-- No attribute is NaN. -/
def Spec.NoNaN (m : OrthoMat PyFloat) : Prop :=
  m.e1 ≠ .nan ∧ m.e2 ≠ .nan ∧ m.v12 ≠ .nan ∧ m.g12 ≠ .nan ∧ m.thickness ≠ .nan ∧ m.t1 ≠ .nan ∧
  m.c1 ≠ .nan ∧ m.t2 ≠ .nan ∧ m.c2 ≠ .nan ∧ m.s ≠ .nan

/-- No attribute is NaN. -/
def Spec.IsoNoNaN (m : IsoMat PyFloat) : Prop :=
  m.e ≠ .nan ∧ m.v ≠ .nan ∧ m.g ≠ .nan ∧ m.thickness ≠ .nan ∧ m.t ≠ .nan ∧ m.c ≠ .nan ∧ m.s ≠ .nan

theorem eqv_iff {x y : PyFloat} (h : x ≠ .nan) : XF.eqv x y ↔ x = y := by
  cases x <;> cases y <;> simp_all [XF.eqv]

/-- **C07** `==` of orthotropic materials is equality of the ten mechanical values. -/
theorem C07_ortho_eq (m o : OrthoMat PyFloat) (h : NoNaN m) :
    ∃ b, m.pyEq (.ortho o) = .ok b ∧ (b = true ↔ m = o) := by
  obtain ⟨h1, h2, h3, h4, h5, h6, h7, h8, h9, h10⟩ := h
  refine ⟨_, rfl, ?_⟩
  cases m; cases o
  simp only [Bool.and_eq_true, decide_eq_true_eq, OrthoMat.mk.injEq] at *
  rw [eqv_iff h1, eqv_iff h2, eqv_iff h3, eqv_iff h4, eqv_iff h5, eqv_iff h6, eqv_iff h7,
    eqv_iff h8, eqv_iff h9, eqv_iff h10]
  tauto

/-- **C07** the same for isotropic materials. -/
theorem C07_iso_eq (m o : IsoMat PyFloat) (h : IsoNoNaN m) :
    ∃ b, m.pyEq (.iso o) = .ok b ∧ (b = true ↔ m = o) := by
  obtain ⟨h1, h2, h3, h4, h5, h6, h7⟩ := h
  refine ⟨_, rfl, ?_⟩
  cases m; cases o
  simp only [Bool.and_eq_true, decide_eq_true_eq, IsoMat.mk.injEq] at *
  rw [eqv_iff h1, eqv_iff h2, eqv_iff h3, eqv_iff h4, eqv_iff h5, eqv_iff h6, eqv_iff h7]
  tauto

/-- **C07** a material with a NaN value is not even equal to itself. -/
theorem C07_nan_not_reflexive (m : OrthoMat PyFloat) (h : ¬ NoNaN m) :
    m.pyEq (.ortho m) = .ok false := by
  have key : ∀ x : PyFloat, XF.eqv x x ↔ x ≠ .nan := by
    intro x; cases x <;> simp [XF.eqv]
  simp only [OrthoMat.pyEq, key, Except.ok.injEq]
  by_contra hc
  apply h
  simp only [Bool.not_eq_false, Bool.and_eq_true, decide_eq_true_eq] at hc
  simp only [NoNaN]; tauto

/-- **C07** reflexive, symmetric, transitive. -/
theorem C07_ortho_equivalence (m o p : OrthoMat PyFloat) (hm : NoNaN m) (ho : NoNaN o) :
    m.pyEq (.ortho m) = .ok true ∧
    (m.pyEq (.ortho o) = o.pyEq (.ortho m)) ∧
    (m.pyEq (.ortho o) = .ok true → o.pyEq (.ortho p) = .ok true → m.pyEq (.ortho p) = .ok true) := by
  obtain ⟨b1, e1, i1⟩ := C07_ortho_eq m m hm
  obtain ⟨b2, e2, i2⟩ := C07_ortho_eq m o hm
  obtain ⟨b3, e3, i3⟩ := C07_ortho_eq o m ho
  obtain ⟨b4, e4, i4⟩ := C07_ortho_eq o p ho
  obtain ⟨b5, e5, i5⟩ := C07_ortho_eq m p hm
  rw [e1, e2, e3, e4, e5]
  refine ⟨by rw [i1.mpr rfl], ?_, ?_⟩
  · congr 1
    rw [Bool.eq_iff_iff, i2, i3]; exact eq_comm
  · intro h4 h5
    cases h4; cases h5
    rw [i5.mpr ((i2.mp rfl).trans (i4.mp rfl))]

/-- **C07** comparing with anything of another class raises `ValueError`. -/
theorem C07_other_class_raises (m : OrthoMat PyFloat) (i i' : IsoMat PyFloat) :
    m.pyEq .other = .error .valueError ∧ m.pyEq (.iso i) = .error .valueError ∧
    i.pyEq .other = .error .valueError ∧ i.pyEq (.ortho m) = .error .valueError ∧
    (∀ o, i'.pyEq o = .error .valueError ↔ ¬ ∃ k, o = .iso k) := by
  refine ⟨rfl, rfl, rfl, rfl, ?_⟩
  intro o
  cases o <;> simp [IsoMat.pyEq]

/-- Non-vacuity for C07: a material with an infinite strength but no NaN. -/
example : NoNaN ⟨.fin 1, .fin 1, .fin 0, .fin 1, .fin 1, .pinf, .fin 0, .fin 0, .fin 0, .fin 0⟩ := by
  simp [NoNaN]

/-! ## C09 -/

theorem cos2d (t : ℝ) : Real.cos (2 * (t * (Real.pi / 180))) = cosd t ^ 2 - sind t ^ 2 := by
  rw [Real.cos_two_mul', cosd, sind, mul_div_assoc]

theorem sin2d (t : ℝ) : Real.sin (2 * (t * (Real.pi / 180))) = 2 * sind t * cosd t := by
  rw [Real.sin_two_mul, cosd, sind, mul_div_assoc]

theorem cos4d (t : ℝ) : Real.cos (4 * (t * (Real.pi / 180))) =
    (cosd t ^ 2 - sind t ^ 2) ^ 2 - (2 * sind t * cosd t) ^ 2 := by
  rw [show 4 * (t * (Real.pi / 180)) = 2 * (2 * (t * (Real.pi / 180))) by ring, Real.cos_two_mul',
    cos2d, sin2d]

theorem sin4d (t : ℝ) : Real.sin (4 * (t * (Real.pi / 180))) =
    2 * (2 * sind t * cosd t) * (cosd t ^ 2 - sind t ^ 2) := by
  rw [show 4 * (t * (Real.pi / 180)) = 2 * (2 * (t * (Real.pi / 180))) by ring, Real.sin_two_mul,
    cos2d, sin2d]

/-- The stiffness built from invariants and the four harmonics. -/
noncomputable def Spec.invariantQ (U : Invariants) (c2 s2 c4 s4 : ℝ) : M3 :=
  !![U.U1 + U.U2*c2 + U.U3*c4, U.U4 - U.U3*c4, U.U2/2*s2 + U.U3*s4;
     U.U4 - U.U3*c4, U.U1 - U.U2*c2 + U.U3*c4, U.U2/2*s2 - U.U3*s4;
     U.U2/2*s2 + U.U3*s4, U.U2/2*s2 - U.U3*s4, U.U5 - U.U3*c4]

theorem rotQ_invariants (t a b d g : ℝ) :
    rotQ t !![a, b, 0; b, d, 0; 0, 0, g] =
      invariantQ (invariantsOf !![a, b, 0; b, d, 0; 0, 0, g])
        (Real.cos (2 * (t * (Real.pi / 180)))) (Real.sin (2 * (t * (Real.pi / 180))))
        (Real.cos (4 * (t * (Real.pi / 180)))) (Real.sin (4 * (t * (Real.pi / 180)))) := by
  have h := cosd_sq_add t
  have hc : cosd t ^ 2 = 1 - sind t ^ 2 := by linarith
  rw [cos2d, sin2d, cos4d, sin4d]
  ext i j
  fin_cases i <;> fin_cases j <;>
    simp [rotQ, Teng, invariantQ, invariantsOf, Matrix.mul_apply, Fin.sum_univ_three] <;> ring_nf <;>
    simp only [show cosd t ^ 4 = (cosd t ^ 2) ^ 2 by ring,
      show cosd t ^ 3 = cosd t ^ 2 * cosd t by ring, hc] <;> ring

/-- **C09** the invariants give the rotated stiffness of every orthotropic ply at every angle. -/
theorem C09_invariants_rotate (m : OrthoMat ℝ) (U : Invariants) (hU : m.invariants = .ok U) (t : ℝ) :
    plyQ (t, .ortho m) = .ok (invariantQ U
      (Real.cos (2 * (t * (Real.pi / 180)))) (Real.sin (2 * (t * (Real.pi / 180))))
      (Real.cos (4 * (t * (Real.pi / 180)))) (Real.sin (4 * (t * (Real.pi / 180))))) ∧
    U.U5 = (U.U1 - U.U4) / 2 := by
  by_cases hd : 1 - m.v12 * m.v21 = 0
  · simp [OrthoMat.invariants, OrthoMat.Q0, pyDiv, hd] at hU
  · simp only [OrthoMat.invariants, m.Q0_of_ne hd, ok_bind, pure_eq_ok, Except.ok.injEq] at hU
    simp only [plyQ_eq, Mat.Q0, m.Q0_of_ne hd, ok_map,
      rotQ_invariants, hU, true_and]
    rw [← hU]
    simp [invariantsOf]; ring

/-- **C09** invariants are available exactly when `Q_0` is. -/
theorem C09_invariants_ok_iff (m : OrthoMat ℝ) :
    (∃ U, m.invariants = .ok U) ↔ ∃ Q, m.Q0 = .ok Q := by
  unfold OrthoMat.invariants
  cases m.Q0 <;> simp

/-- **C09** isotropic materials have no `Invariants` (`AttributeError`). -/
theorem C09_iso_no_invariants (m : IsoMat ℝ) : (Mat.iso m).invariants = .error .attributeError := rfl

/-- Non-vacuity for C09. -/
example : ∃ U, (⟨132000, 10300, 1/4, 5500, 0.1, 0, 0, 0, 0, 0⟩ : OrthoMat ℝ).invariants = .ok U := by
  rw [C09_invariants_ok_iff]
  obtain ⟨Q, h, -⟩ := C04_Q0_inverse_compliance ⟨132000, 10300, 1/4, 5500, 0.1, 0, 0, 0, 0, 0⟩
    (by norm_num) (by norm_num) (by norm_num) (by norm_num)
  exact ⟨Q, h⟩

end Composipy
