import Verif.Props.Symmetry
import Mathlib.Analysis.Matrix.PosDef

/-!
# C19-C21, C25-C27: lamination parameters
-/

namespace Composipy
open Spec Matrix

/-! ## Pure form of `xiA`, `xiD` -/

/-- Thickness and harmonics of a ply. -/
noncomputable def harmLayer (p : ℝ × Mat) : ℝ × V4 := (p.2.thickness, xiTerm p.1)

theorem IsStack.fields {l : Lam} (h : IsStack l) :
    l.stacking = .angles (l.layup.map Prod.fst) ∧ l.plies = .list (l.layup.map Prod.snd) := by
  obtain ⟨s, p, h⟩ := h
  cases p with
  | single m =>
    simp only [Lam.init, Except.ok.injEq] at h; subst h
    simp [List.map_fst_zip, List.map_snd_zip]
  | list ps =>
    simp only [Lam.init] at h
    split at h
    · cases h
    · rename_i hl
      simp only [ne_eq, Decidable.not_not] at hl
      simp only [Except.ok.injEq] at h; subst h
      simp [List.map_fst_zip, List.map_snd_zip, hl]

theorem xiLoop_layup (w : ℝ → ℝ → ℝ) (L : List (ℝ × Mat)) :
    xiLoop w (zPositionOf L) (L.map Prod.fst) = .ok (mom w (bottom L) (L.map harmLayer)) := by
  have := loop_zList xiTerm w (L.map fun p => p.2.thickness) (L.map Prod.fst) (by simp) (bottom L) [] 0
  simp only [List.nil_append, List.length_nil, zero_add, List.map_map, List.zip_map'] at this
  simp only [xiLoop, zPositionOf_eq]
  exact this

theorem IsStack.xiA_eq {l : Lam} (h : IsStack l) : l.xiAread =
    .ok fun i => npDiv (mom wA (bottom l.layup) (l.layup.map harmLayer) i) (totalThickness l.layup) := by
  have hw : (fun zk0 zk1 => zk1 - zk0 : ℝ → ℝ → ℝ) = wA := rfl
  simp only [Lam.xiAread, h.fields.1, h.fields.2, Plies.sumThickness, Stacking.toAngles, ok_bind,
    Lam.zPosition, xiLoop_layup, pure_eq_ok, hw]
  rw [totalThickness_eq, List.map_map]
  rfl

theorem IsStack.xiD_eq {l : Lam} (h : IsStack l) : l.xiDread =
    .ok fun i => npDiv (12 * mom wD (bottom l.layup) (l.layup.map harmLayer) i)
      (totalThickness l.layup ^ 3) := by
  have hw : ∀ (z : ℝ) (L : List (ℝ × V4)),
      mom (fun zk0 zk1 => zk1^3 - zk0^3) z L = (3 : ℝ) • mom wD z L := by
    intro z L
    induction L generalizing z with
    | nil => simp [mom]
    | cons p L ih =>
      obtain ⟨t, Q⟩ := p
      simp only [mom, ih, smul_add, smul_smul, wD]
      congr 2; ring
  simp only [Lam.xiDread, h.fields.1, h.fields.2, Plies.sumThickness, Stacking.toAngles, ok_bind,
    Lam.zPosition, xiLoop_layup, pure_eq_ok, hw]
  rw [totalThickness_eq, List.map_map]
  congr 1
  funext i
  rw [Pi.smul_apply, smul_eq_mul, ← mul_assoc]
  norm_num
  rfl

section
variable {V : Type} [AddCommGroup V] [Module ℝ V]

theorem mom_const (w : ℝ → ℝ → ℝ) (hw : ∀ a b c, w a b + w b c = w a c) (z : ℝ) (L : List ℝ) (c : V) :
    mom w z (L.map fun t => (t, c)) = w z (z + L.sum) • c := by
  induction L generalizing z with
  | nil =>
    have := hw z z z
    have h0 : w z z = 0 := by linarith
    simp [mom, h0]
  | cons t L ih =>
    simp only [List.map_cons, mom, ih, ← add_smul, hw, List.sum_cons, add_assoc]

theorem mom_add (w : ℝ → ℝ → ℝ) {α : Type} (th : α → ℝ) (f g : α → V) (z : ℝ) (L : List α) :
    mom w z (L.map fun p => (th p, f p + g p)) =
      mom w z (L.map fun p => (th p, f p)) + mom w z (L.map fun p => (th p, g p)) := by
  induction L generalizing z with
  | nil => simp [mom]
  | cons p L ih => simp only [List.map_cons, mom, ih, smul_add]; abel

end

theorem wA_add (a b c : ℝ) : wA a b + wA b c = wA a c := by simp only [wA]; ring
theorem wD_add (a b c : ℝ) : wD a b + wD b c = wD a c := by simp only [wD]; ring

theorem wA_full (L : List (ℝ × Mat)) :
    wA (bottom L) (bottom L + (L.map fun p => p.2.thickness).sum) = totalThickness L := by
  rw [← totalThickness_eq, bottom_add, bottom, wA]; ring

theorem wD_full (L : List (ℝ × Mat)) :
    wD (bottom L) (bottom L + (L.map fun p => p.2.thickness).sum) = totalThickness L ^ 3 / 12 := by
  rw [← totalThickness_eq, bottom_add, bottom, wD]; ring

/-! ## C19 -/

/-- The part of the ply stiffness that is linear in the harmonics. -/
noncomputable def harm (U : Invariants) : V4 →ₗ[ℝ] M3 where
  toFun v := !![U.U2*v 0 + U.U3*v 2, -(U.U3*v 2), U.U2/2*v 1 + U.U3*v 3;
     -(U.U3*v 2), -(U.U2*v 0) + U.U3*v 2, U.U2/2*v 1 - U.U3*v 3;
     U.U2/2*v 1 + U.U3*v 3, U.U2/2*v 1 - U.U3*v 3, -(U.U3*v 2)]
  map_add' v w := by
    ext i j
    fin_cases i <;> fin_cases j <;> simp <;> ring
  map_smul' c v := by
    ext i j
    fin_cases i <;> fin_cases j <;> simp <;> ring

/-- The part of the ply stiffness that does not depend on the angle. -/
noncomputable def isoPart (U : Invariants) : M3 :=
  !![U.U1, U.U4, 0; U.U4, U.U1, 0; 0, 0, U.U5]

theorem invariantQ_eq (U : Invariants) (v : V4) :
    invariantQ U (v 0) (v 1) (v 2) (v 3) = isoPart U + harm U v := by
  ext i j
  fin_cases i <;> fin_cases j <;> simp [invariantQ, isoPart, harm] <;> ring

theorem plyQ!_invariants (m : OrthoMat ℝ) (U : Invariants) (hU : m.invariants = .ok U) (t : ℝ) :
    plyQ! (t, .ortho m) = isoPart U + harm U (xiTerm t) := by
  have h := (C09_invariants_rotate m U hU t).1
  simp only [plyQ!, h]
  exact invariantQ_eq U (xiTerm t)

theorem mom_ortho (w : ℝ → ℝ → ℝ) (hw : ∀ a b c, w a b + w b c = w a c) (z : ℝ) (m : OrthoMat ℝ)
    (U : Invariants) (hU : m.invariants = .ok U) (L : List (ℝ × Mat)) (hL : ∀ p ∈ L, p.2 = .ortho m) :
    mom w z (L.map layer) = w z (z + (L.map fun p => p.2.thickness).sum) • isoPart U +
      harm U (mom w z (L.map harmLayer)) := by
  have h1 : L.map layer = L.map fun p => (p.2.thickness, isoPart U + harm U (xiTerm p.1)) := by
    apply List.map_congr_left
    intro p hp
    have := plyQ!_invariants m U hU p.1
    rw [← hL p hp] at this
    simp only [layer]
    rw [← this]
  rw [h1, mom_add w (fun p : ℝ × Mat => p.2.thickness), ← mom_map_linear]
  congr 1
  · rw [← mom_const w hw, List.map_map]; rfl
  · rw [List.map_map]; rfl

/-- **C19** the lamination parameters of a positive-thickness stack of one orthotropic material, fed
back together with the total thickness, give the same `A` and `D` (and the same exception when the
material's `Q_0` cannot be read). -/
theorem C19_roundtrip (s : List ℝ) (m : OrthoMat ℝ) (l : Lam)
    (hl : Lam.init (.angles s) (.single (.ortho m)) = .ok l) (hT : 0 < height l.layup) :
    ∃ a d : Fin 4 → ℝ, l.xiAread = .ok (fun i => .fin (a i)) ∧ l.xiDread = .ok (fun i => .fin (d i)) ∧
      ∀ l', Lam.init (.dict ⟨some (.vec [a 0, a 1, a 2, a 3]), none, some (.vec [d 0, d 1, d 2, d 3]),
          some (.num (height l.layup))⟩) (.single (.ortho m)) = .ok l' →
        l'.A = l.A ∧ l'.D = l.D := by
  have hs : IsStack l := ⟨_, _, hl⟩
  have hlay : ∀ p ∈ l.layup, p.2 = .ortho m := by
    obtain ⟨l2, hl2, h2⟩ := C10_single s (.ortho m)
    rw [hl] at hl2; cases hl2
    rw [h2]
    intro p hp
    obtain ⟨a, -, rfl⟩ := List.mem_map.mp hp
    rfl
  have hne : l.layup ≠ [] := by
    intro h; simp [height, h] at hT
  have hTe : height l.layup = totalThickness l.layup := (totalThickness_eq _).symm
  rw [hTe] at hT ⊢
  set T := totalThickness l.layup with hTdef
  have hT0 : T ≠ 0 := hT.ne'
  have hT30 : T ^ 3 ≠ 0 := pow_ne_zero _ hT0
  set vA := mom wA (bottom l.layup) (l.layup.map harmLayer) with hvA
  set vD := mom wD (bottom l.layup) (l.layup.map harmLayer) with hvD
  refine ⟨fun i => vA i / T, fun i => 12 * vD i / T ^ 3, ?_, ?_, ?_⟩
  · rw [hs.xiA_eq]; congr 1; funext i; simp only [npDiv, ← hTdef, if_neg hT0, ← hvA]
  · rw [hs.xiD_eq]; congr 1; funext i; simp only [npDiv, ← hTdef, if_neg hT30, ← hvD]
  · intro l' hl'
    simp only [Lam.init, Option.getD_some, Except.ok.injEq] at hl'
    subst hl'
    rw [hs.A_eq, hs.D_eq]
    simp only [Lam.A, Lam.D, lpA, lpD, Plies.invariants, Mat.invariants]
    cases hU : m.invariants with
    | error e =>
      have hno : ¬ AllOk l.layup := by
        intro hall
        obtain ⟨p, hp⟩ := List.exists_mem_of_ne_nil _ hne
        have h3 := (plyQ_ok_iff p).mp (hall p hp)
        rw [hlay p hp] at h3
        obtain ⟨U, hU'⟩ := (C09_invariants_ok_iff m).mpr h3
        rw [hU] at hU'; cases hU'
      have he : e = .zeroDivisionError := by
        unfold OrthoMat.invariants at hU
        cases hQ : m.Q0 with
        | ok Q => simp [hQ] at hU
        | error e' =>
          simp only [hQ, error_bind, Except.error.injEq] at hU
          rw [← hU]; exact C05_Q0_only_zeroDiv m e' hQ
      simp [l.loopMatrix_err _ hno, he]
    | ok U =>
      have hall : AllOk l.layup := by
        intro p hp
        rw [plyQ_ok_iff, hlay p hp]
        exact (C09_invariants_ok_iff m).mp ⟨U, hU⟩
      rw [l.loopMatrix_ok _ hall, l.loopMatrix_ok _ hall,
        mom_ortho wA wA_add _ m U hU _ hlay, mom_ortho wD wD_add _ m U hU _ hlay, wA_full, wD_full,
        ← hvA, ← hvD, ← hTdef]
      simp only [ok_bind, LPVal.unpack4, LPVal.asNum, pure_eq_ok, Except.ok.injEq]
      constructor
      · ext i j
        fin_cases i <;> fin_cases j <;> simp [isoPart, harm] <;> field_simp <;> ring
      · ext i j
        fin_cases i <;> fin_cases j <;> simp [isoPart, harm] <;> field_simp <;> ring

/-- **C19** with an isotropic material the lamination-parameter laminate cannot be read at all. -/
theorem C19_iso_refused (d : LPDict) (m : IsoMat ℝ) (l : Lam)
    (h : Lam.init (.dict d) (.single (.iso m)) = .ok l) (hA : l.xiA ≠ .none) :
    l.A = .error .attributeError := by
  have hp : l.plies = .single (.iso m) := by
    unfold Lam.init at h
    cases hD : d.xiD <;> cases hT : d.T <;> simp [hD, hT] at h
    rw [← h]
  cases hx : l.xiA <;> simp_all [Lam.A, lpA, Plies.invariants, Mat.invariants]

/-- Non-vacuity for C19. -/
example : ∃ l, Lam.init (.angles [0, 45, 30]) (.single carbon) = .ok l ∧ 0 < height l.layup := by
  obtain ⟨l, hl, h⟩ := C10_single [0, 45, 30] carbon
  refine ⟨l, hl, ?_⟩
  simp only [height, h]
  norm_num [carbon, Mat.thickness]

/-! ## C20 -/

/-- The full feasibility region of lamination parameters. -/
def Spec.Feasible (xi : Fin 4 → ℝ) : Prop :=
  (∀ i, -1 ≤ xi i ∧ xi i ≤ 1) ∧
  xi 0 ^ 2 + xi 1 ^ 2 ≤ 1 ∧
  xi 2 ^ 2 + xi 3 ^ 2 ≤ 1 ∧
  2 * xi 0 ^ 2 - 1 ≤ xi 2 ∧
  2 * xi 1 ^ 2 - 1 ≤ - xi 2 ∧
  2 * xi 0 ^ 2 * (1 - xi 2) + 2 * xi 1 ^ 2 * (1 + xi 2) + xi 2 ^ 2 + xi 3 ^ 2
    - 4 * xi 0 * xi 1 * xi 3 ≤ 1

/-- A finite average of harmonics. -/
def IsMix (v : V4) : Prop :=
  ∃ L : List (ℝ × ℝ), (∀ p ∈ L, 0 ≤ p.1) ∧ (L.map Prod.fst).sum = 1 ∧
    v = (L.map fun p => p.1 • xiTerm p.2).sum

/-- A finite average of harmonics of angles in `A`. -/
def MixOf (A : List ℝ) (v : V4) : Prop :=
  ∃ L : List (ℝ × ℝ), (∀ p ∈ L, 0 ≤ p.1 ∧ p.2 ∈ A) ∧ (L.map Prod.fst).sum = 1 ∧
    v = (L.map fun p => p.1 • xiTerm p.2).sum

theorem MixOf.isMix {A : List ℝ} {v : V4} (h : MixOf A v) : IsMix v := by
  obtain ⟨L, h1, h2⟩ := h
  exact ⟨L, fun p hp => (h1 p hp).1, h2⟩

/-- Quadratic form of first harmonics. -/
theorem IsMix.quad {v : V4} (h : IsMix v) (x y z : ℝ) :
    0 ≤ x^2 + y^2 * ((1 + v 2) / 2) + z^2 * ((1 - v 2) / 2) + 2*x*y*v 0 + 2*x*z*v 1 + y*z*v 3 := by
  obtain ⟨L, hL, hsum, rfl⟩ := h
  have key : ∀ L : List (ℝ × ℝ), (∀ p ∈ L, 0 ≤ p.1) →
      let v := (L.map fun p => p.1 • xiTerm p.2).sum
      let s := (L.map Prod.fst).sum
      0 ≤ s*x^2 + y^2 * ((s + v 2) / 2) + z^2 * ((s - v 2) / 2) + 2*x*y*v 0 + 2*x*z*v 1 + y*z*v 3 := by
    intro L
    induction L with
    | nil => intro _; simp
    | cons p L ih =>
      intro hp
      have h1 := ih fun q hq => hp q (by simp [hq])
      have h2 : 0 ≤ p.1 := hp p (by simp)
      simp only at h1 ⊢
      simp only [List.map_cons, List.sum_cons, Pi.add_apply, Pi.smul_apply, smul_eq_mul]
      set a := p.2 * (Real.pi / 180)
      have e0 : xiTerm p.2 0 = Real.cos (2*a) := rfl
      have e1 : xiTerm p.2 1 = Real.sin (2*a) := rfl
      have e2 : xiTerm p.2 2 = 2 * Real.cos (2*a) ^ 2 - 1 := by
        show Real.cos (4*a) = _
        rw [show 4*a = 2*(2*a) by ring, Real.cos_two_mul]
      have e3 : xiTerm p.2 3 = 2 * Real.sin (2*a) * Real.cos (2*a) := by
        show Real.sin (4*a) = _
        rw [show 4*a = 2*(2*a) by ring, Real.sin_two_mul]
      have hcs := Real.sin_sq_add_cos_sq (2*a)
      rw [e0, e1, e2, e3]
      have h3 := mul_nonneg h2 (sq_nonneg (x + y * Real.cos (2*a) + z * Real.sin (2*a)))
      have h4 : Real.sin (2*a) ^ 2 = 1 - Real.cos (2*a) ^ 2 := by linarith
      have h5 : p.1 * (x + y * Real.cos (2*a) + z * Real.sin (2*a)) ^ 2 =
          p.1*x^2 + y^2 * (p.1 * Real.cos (2*a) ^ 2) + z^2 * (p.1 * (1 - Real.cos (2*a) ^ 2))
            + 2*x*y*(p.1 * Real.cos (2*a)) + 2*x*z*(p.1 * Real.sin (2*a))
            + y*z*(p.1 * (2 * Real.sin (2*a) * Real.cos (2*a))) := by
        rw [← h4]; ring
      rw [h5] at h3
      linarith
  have := key L hL
  simp only [hsum] at this
  linarith

/-- Disk of the second harmonics. -/
theorem IsMix.disk {v : V4} (h : IsMix v) (y z : ℝ) (hyz : y^2 + z^2 = 1) : y * v 2 + z * v 3 ≤ 1 := by
  obtain ⟨L, hL, hsum, rfl⟩ := h
  have key : ∀ L : List (ℝ × ℝ), (∀ p ∈ L, 0 ≤ p.1) →
      let v := (L.map fun p => p.1 • xiTerm p.2).sum
      y * v 2 + z * v 3 ≤ (L.map Prod.fst).sum := by
    intro L
    induction L with
    | nil => intro _; simp
    | cons p L ih =>
      intro hp
      have h1 := ih fun q hq => hp q (by simp [hq])
      have h2 : 0 ≤ p.1 := hp p (by simp)
      simp only at h1 ⊢
      simp only [List.map_cons, List.sum_cons, Pi.add_apply, Pi.smul_apply, smul_eq_mul]
      have hcs : xiTerm p.2 3 ^ 2 + xiTerm p.2 2 ^ 2 = 1 :=
        Real.sin_sq_add_cos_sq (4 * (p.2 * (Real.pi / 180)))
      have h3 : y * xiTerm p.2 2 + z * xiTerm p.2 3 ≤ 1 := by
        nlinarith [sq_nonneg (y - xiTerm p.2 2), sq_nonneg (z - xiTerm p.2 3)]
      nlinarith [mul_le_mul_of_nonneg_left h3 h2]
  have := key L hL
  simp only [hsum] at this
  exact this

theorem IsMix.feasible {v : V4} (h : IsMix v) : Feasible v := by
  have q := h.quad
  have d1 : v 0 ^ 2 + v 1 ^ 2 ≤ 1 := by nlinarith [q (v 0) (-1) 0, q (v 1) 0 (-1)]
  have d2 : v 2 ^ 2 + v 3 ^ 2 ≤ 1 := by
    by_contra hcon
    push Not at hcon
    set r := Real.sqrt (v 2 ^ 2 + v 3 ^ 2) with hr
    have hr2 : r ^ 2 = v 2 ^ 2 + v 3 ^ 2 := Real.sq_sqrt (by positivity)
    have hr1 : 1 < r := by
      rw [hr]; exact Real.lt_sqrt_of_sq_lt (by simpa using hcon)
    have hr0 : r ≠ 0 := by linarith
    have := h.disk (v 2 / r) (v 3 / r) (by field_simp; linarith)
    have e : v 2 / r * v 2 + v 3 / r * v 3 = r := by
      field_simp; linarith
    linarith
  have d3 : 2 * v 0 ^ 2 - 1 ≤ v 2 := by nlinarith [q (v 0) (-1) 0]
  have d4 : 2 * v 1 ^ 2 - 1 ≤ - v 2 := by nlinarith [q (v 1) 0 (-1)]
  refine ⟨?_, d1, d2, d3, d4, ?_⟩
  · intro i
    fin_cases i
    all_goals
      first
        | (show -1 ≤ v 0 ∧ v 0 ≤ 1; constructor <;> nlinarith [sq_nonneg (v 1)])
        | (show -1 ≤ v 1 ∧ v 1 ≤ 1; constructor <;> nlinarith [sq_nonneg (v 0)])
        | (show -1 ≤ v 2 ∧ v 2 ≤ 1; constructor <;> nlinarith [sq_nonneg (v 3)])
        | (show -1 ≤ v 3 ∧ v 3 ≤ 1; constructor <;> nlinarith [sq_nonneg (v 2)])
  · set M : M3 := !![1, v 0, v 1; v 0, (1 + v 2)/2, v 3/2; v 1, v 3/2, (1 - v 2)/2] with hM
    have hpsd : M.PosSemidef := by
      refine Matrix.PosSemidef.of_dotProduct_mulVec_nonneg ?_ ?_
      · ext i j
        fin_cases i <;> fin_cases j <;> simp [hM]
      · intro x
        have := q (x 0) (x 1) (x 2)
        simp [hM, dotProduct, Matrix.mulVec, Fin.sum_univ_three]
        linarith
    have hdet := hpsd.det_nonneg
    rw [hM, Matrix.det_fin_three] at hdet
    simp at hdet
    nlinarith

theorem mom_mix (w : ℝ → ℝ → ℝ) (hmono : ∀ a b, a ≤ b → 0 ≤ w a b) (hw : ∀ a b c, w a b + w b c = w a c)
    (L : List (ℝ × Mat)) (hL : NonnegThick L) (z : ℝ) :
    ∃ W : List (ℝ × ℝ), (∀ p ∈ W, 0 ≤ p.1 ∧ p.2 ∈ L.map Prod.fst) ∧
      (W.map Prod.fst).sum = w z (z + (L.map fun p => p.2.thickness).sum) ∧
      mom w z (L.map harmLayer) = (W.map fun p => p.1 • xiTerm p.2).sum := by
  induction L generalizing z with
  | nil =>
    refine ⟨[], by simp, ?_, by simp [mom]⟩
    have := hw z z z
    simp; linarith
  | cons p L ih =>
    obtain ⟨W, h1, h2, h3⟩ := ih (fun q hq => hL q (by simp [hq])) (z + p.2.thickness)
    have hp : 0 ≤ p.2.thickness := hL p (by simp)
    refine ⟨(w z (z + p.2.thickness), p.1) :: W, ?_, ?_, ?_⟩
    · intro q hq
      rcases List.mem_cons.mp hq with rfl | hq
      · exact ⟨hmono _ _ (by linarith), by simp⟩
      · exact ⟨(h1 q hq).1, List.mem_cons_of_mem _ (h1 q hq).2⟩
    · simp only [List.map_cons, List.sum_cons, h2, hw, add_assoc]
    · simp only [List.map_cons, List.sum_cons, harmLayer, mom]
      rw [← h3]

theorem mix_scale {A : List ℝ} {v : V4} {W : List (ℝ × ℝ)} (c : ℝ) (hc : 0 ≤ c) (h1 : ∀ p ∈ W, 0 ≤ p.1 ∧ p.2 ∈ A)
    (h2 : c * (W.map Prod.fst).sum = 1) (h3 : v = (W.map fun p => p.1 • xiTerm p.2).sum) :
    MixOf A (c • v) := by
  refine ⟨W.map fun p => (c * p.1, p.2), ?_, ?_, ?_⟩
  · intro p hp
    obtain ⟨q, hq, rfl⟩ := List.mem_map.mp hp
    exact ⟨mul_nonneg hc (h1 q hq).1, (h1 q hq).2⟩
  · rw [List.map_map, ← h2, ← List.sum_map_mul_left]; rfl
  · rw [h3, List.smul_sum, List.map_map, List.map_map]
    congr 1
    apply List.map_congr_left
    intro p _
    simp [smul_smul]

theorem wA_mono (a b : ℝ) (h : a ≤ b) : 0 ≤ wA a b := by simp only [wA]; linarith
theorem wD_mono (a b : ℝ) (h : a ≤ b) : 0 ≤ wD a b := by
  simp only [wD]
  have := (Odd.strictMono_pow (R := ℝ) (n := 3) (by decide)).monotone h
  linarith

/-- Lamination parameters of a stack are averages. -/
theorem xi_mix (l : Lam) (hs : IsStack l) (hn : NonnegThick l.layup) (hT : 0 < height l.layup) :
    ∃ a d : V4, l.xiAread = .ok (fun i => .fin (a i)) ∧ l.xiDread = .ok (fun i => .fin (d i)) ∧
      MixOf (l.layup.map Prod.fst) a ∧ MixOf (l.layup.map Prod.fst) d := by
  have hTe : height l.layup = totalThickness l.layup := (totalThickness_eq _).symm
  rw [hTe] at hT
  set T := totalThickness l.layup with hTdef
  have hT0 : T ≠ 0 := hT.ne'
  have hT30 : T ^ 3 ≠ 0 := pow_ne_zero _ hT0
  obtain ⟨WA, a1, a2, a3⟩ := mom_mix wA wA_mono wA_add l.layup hn (bottom l.layup)
  obtain ⟨WD, d1, d2, d3⟩ := mom_mix wD wD_mono wD_add l.layup hn (bottom l.layup)
  rw [wA_full, ← hTdef] at a2
  rw [wD_full, ← hTdef] at d2
  refine ⟨(1/T) • mom wA (bottom l.layup) (l.layup.map harmLayer),
    (12/T^3) • mom wD (bottom l.layup) (l.layup.map harmLayer), ?_, ?_,
    mix_scale _ (by positivity) a1 (by rw [a2]; field_simp) a3,
    mix_scale _ (by positivity) d1 (by rw [d2]; field_simp) d3⟩
  · rw [hs.xiA_eq]; congr 1; funext i
    simp only [npDiv, ← hTdef, if_neg hT0, Pi.smul_apply, smul_eq_mul, XF.fin.injEq]; ring
  · rw [hs.xiD_eq]; congr 1; funext i
    simp only [npDiv, ← hTdef, if_neg hT30, Pi.smul_apply, smul_eq_mul, XF.fin.injEq]; ring

/-- **C20** the lamination parameters of every real stack are feasible. -/
theorem C20_feasible (l : Lam) (hs : IsStack l) (hn : NonnegThick l.layup) (hT : 0 < height l.layup) :
    ∃ a d : Fin 4 → ℝ, l.xiAread = .ok (fun i => .fin (a i)) ∧ l.xiDread = .ok (fun i => .fin (d i)) ∧
      Feasible a ∧ Feasible d := by
  obtain ⟨a, d, h1, h2, h3, h4⟩ := xi_mix l hs hn hT
  exact ⟨a, d, h1, h2, h3.isMix.feasible, h4.isMix.feasible⟩

/-- **C20** without thickness (in particular for the empty stack) the four numbers are NaN. -/
theorem C20_empty (p : Plies) (l : Lam) (h : Lam.init (.angles []) p = .ok l) :
    l.xiAread = .ok (fun _ => .nan) ∧ l.xiDread = .ok (fun _ => .nan) := by
  have hs : IsStack l := ⟨_, _, h⟩
  have hlay : l.layup = [] := by
    cases p with
    | single m => simp only [Lam.init, Except.ok.injEq] at h; subst h; simp
    | list ps =>
      simp only [Lam.init] at h
      split at h
      · cases h
      · simp only [Except.ok.injEq] at h; subst h; simp
  rw [hs.xiA_eq, hs.xiD_eq, hlay]
  simp [totalThickness, mom, npDiv]

/-- The feasible set is not everything: the inequality has content. -/
example : ¬ Feasible ![1, 0, -1, 0] := by
  rintro ⟨-, -, -, h, -⟩
  simp at h; norm_num at h

/-! ## C21, lamination parameters -/

theorem npDiv_scale (k a b : ℝ) (hk : 0 < k) : npDiv (k * a) (k * b) = npDiv a b := by
  have hk0 : k ≠ 0 := hk.ne'
  simp only [npDiv, mul_eq_zero, hk0, false_or, mul_neg_iff, hk, true_and, not_lt.mpr hk.le, false_and,
    or_false]
  by_cases hb : b = 0
  · simp [hb]
  · simp only [hb, if_false]
    rw [mul_div_mul_left _ _ hk0]

/-- **C21** scaling all thicknesses by `k > 0` leaves the lamination parameters unchanged. -/
theorem C21_xi_unchanged (l l' : Lam) (hs : IsStack l) (hs' : IsStack l') (k : ℝ) (hk : 0 < k)
    (h : l'.layup = scaleLayup k l.layup) : l'.xiAread = l.xiAread ∧ l'.xiDread = l.xiDread := by
  have hT : totalThickness (scaleLayup k l.layup) = k * totalThickness l.layup := by
    simp only [totalThickness_eq, scaleLayup, List.map_map]
    rw [← List.sum_map_mul_left]
    congr 1
    apply List.map_congr_left
    intro p _
    simp [withThickness_thickness]
  have hmap : (scaleLayup k l.layup).map harmLayer =
      (l.layup.map harmLayer).map fun p => (k * p.1, p.2) := by
    simp [scaleLayup, harmLayer, withThickness_thickness]
  have hb : bottom (scaleLayup k l.layup) = k * bottom l.layup := by
    simp only [bottom, hT]; ring
  rw [hs.xiA_eq, hs'.xiA_eq, hs.xiD_eq, hs'.xiD_eq, h, hT, hmap, hb,
    mom_scale wA k 1 (by intro a b; simp [wA]; ring), mom_scale wD k 3 (by intro a b; simp [wD]; ring)]
  constructor
  · congr 1; funext i
    simp only [pow_one, Pi.smul_apply, smul_eq_mul]
    exact npDiv_scale _ _ _ hk
  · congr 1; funext i
    simp only [Pi.smul_apply, smul_eq_mul, mul_pow]
    rw [show 12 * (k ^ 3 * mom wD (bottom l.layup) (l.layup.map harmLayer) i) =
      k ^ 3 * (12 * mom wD (bottom l.layup) (l.layup.map harmLayer) i) by ring]
    exact npDiv_scale _ _ _ (by positivity)

/-! ## C25 -/

/-- **C25** a dictionary is accepted exactly when it has both keys `xiD` and `T`. -/
theorem C25_accepts_iff (d : LPDict) (p : Plies) :
    (∃ l, Lam.init (.dict d) p = .ok l) ↔ (∃ x, d.xiD = some x) ∧ ∃ t, d.T = some t := by
  unfold Lam.init
  cases hD : d.xiD <;> cases hT : d.T <;> simp [hD, hT]

/-- **C25** otherwise `UnboundLocalError`. -/
theorem C25_refuses (d : LPDict) (p : Plies) (h : d.xiD = none ∨ d.T = none) :
    Lam.init (.dict d) p = .error .unboundLocalError := by
  unfold Lam.init
  rcases h with h | h
  · simp [h]
  · cases hD : d.xiD <;> simp [h, hD]

/-- **C25** an accepted laminate stores the four entries (missing `xiA`, `xiB` are `None`), has no
plies in its layup, and a missing `xiA` behaves exactly like `'xiA': None`. -/
theorem C25_fields (d : LPDict) (p : Plies) (l : Lam) (h : Lam.init (.dict d) p = .ok l) :
    d.xiD = some l.xiD ∧ d.T = some l.T ∧ (d.xiA = none → l.xiA = .none) ∧ (∀ x, d.xiA = some x → l.xiA = x) ∧
    (d.xiB = none → l.xiB = .none) ∧ (∀ x, d.xiB = some x → l.xiB = x) ∧ l.layup = [] ∧ l.plies = p := by
  unfold Lam.init at h
  cases hD : d.xiD <;> cases hT : d.T <;> simp [hD, hT] at h
  subst h
  refine ⟨rfl, rfl, ?_, ?_, ?_, ?_, rfl, rfl⟩ <;> intros <;> simp [*]

/-! ## C26 -/

theorem loopMatrix_nil (l : Lam) (w : ℝ → ℝ → ℝ) (h : l.layup = []) : l.loopMatrix w = .ok 0 := by
  rw [l.loopMatrix_ok w (by simp [AllOk, h]), h]
  simp [mom]

/-- The stiffness documented for lamination parameters: `T` times the invariants combined with
`xi`. -/
noncomputable def Spec.lpStiffness (c : ℝ) (U : Invariants) (xi : Fin 4 → ℝ) : M3 :=
  c • invariantQ U (xi 0) (xi 1) (xi 2) (xi 3)

/-- **C26** lamination-parameter laminates: `B` is zero; `A` is zero without `xiA`, and the formula
otherwise; `D` is the formula with `T³/12`. -/
theorem C26_lp_matrices (d : LPDict) (m : Mat) (l : Lam) (h : Lam.init (.dict d) (.single m) = .ok l)
    (U : Invariants) (hU : m.invariants = .ok U) (T : ℝ) (hT : d.T = some (.num T)) :
    l.B = .ok 0 ∧ ((d.xiA = none ∨ d.xiA = some .none) → l.A = .ok 0) ∧
    (∀ xi : Fin 4 → ℝ, d.xiA = some (.vec [xi 0, xi 1, xi 2, xi 3]) → l.A = .ok (lpStiffness T U xi)) ∧
    (∀ xi : Fin 4 → ℝ, d.xiD = some (.vec [xi 0, xi 1, xi 2, xi 3]) →
      l.D = .ok (lpStiffness (T^3/12) U xi)) := by
  obtain ⟨f1, f2, f3, f4, f5, f6, f7, f8⟩ := C25_fields d _ l h
  have hT' : l.T = .num T := by rw [hT] at f2; exact (Option.some.inj f2).symm
  refine ⟨loopMatrix_nil l _ f7, ?_, ?_, ?_⟩
  · intro hA
    have : l.xiA = .none := by rcases hA with hA | hA; exact f3 hA; exact f4 _ hA
    simp only [Lam.A, this]
    exact loopMatrix_nil l _ f7
  · intro xi hxi
    simp only [Lam.A, f4 _ hxi, lpA, f8, Plies.invariants, hU, hT', ok_bind, LPVal.unpack4, LPVal.asNum,
      pure_eq_ok, Except.ok.injEq]
    ext i j
    fin_cases i <;> fin_cases j <;> simp [lpStiffness, invariantQ, -mul_eq_mul_left_iff] <;> ring
  · intro xi hxi
    have : l.xiD = .vec [xi 0, xi 1, xi 2, xi 3] := by rw [hxi] at f1; exact (Option.some.inj f1).symm
    simp only [Lam.D, this, lpD, f8, Plies.invariants, hU, hT', ok_bind, LPVal.unpack4, LPVal.asNum,
      pure_eq_ok, Except.ok.injEq]
    ext i j
    fin_cases i <;> fin_cases j <;> simp [lpStiffness, invariantQ, -mul_eq_mul_left_iff] <;> ring

/-- **C26** `xiD: None` is accepted and gives `D = 0`. -/
theorem C26_xiD_none (d : LPDict) (p : Plies) (l : Lam) (h : Lam.init (.dict d) p = .ok l)
    (hD : d.xiD = some .none) : l.D = .ok 0 := by
  obtain ⟨f1, -, -, -, -, -, f7, -⟩ := C25_fields d _ l h
  rw [hD] at f1
  have : l.xiD = .none := (Option.some.inj f1).symm
  simp only [Lam.D, this]
  exact loopMatrix_nil l _ f7

/-- **C26** without `xiA` the matrix `ABD` is singular whenever it can be read. -/
theorem C26_no_xiA_singular (d : LPDict) (p : Plies) (l : Lam) (h : Lam.init (.dict d) p = .ok l)
    (hA : d.xiA = none ∨ d.xiA = some .none) (M : M6) (hM : l.ABD = .ok M) : M.det = 0 := by
  obtain ⟨f1, f2, f3, f4, f5, f6, f7, f8⟩ := C25_fields d _ l h
  have hA' : l.xiA = .none := by rcases hA with hA | hA; exact f3 hA; exact f4 _ hA
  have hlA : l.A = .ok 0 := by simp only [Lam.A, hA']; exact loopMatrix_nil l _ f7
  have hlB : l.B = .ok 0 := loopMatrix_nil l _ f7
  cases hD : l.D with
  | error e => simp [Lam.ABD, hlA, hlB, hD] at hM
  | ok D =>
    rw [C14_ABD_readable l 0 0 D hlA hlB hD, Except.ok.injEq] at hM
    rw [← hM, Matrix.det_fromBlocks_zero₂₁]
    simp

/-- Non-vacuity for C25/C26. -/
example : ∃ l U, Lam.init (.dict ⟨some (.vec [0, 0, 0, 0]), none, some (.vec [0.3, 0, -0.1, 0]), some (.num 2)⟩)
    (.single carbon) = .ok l ∧ carbon.invariants = .ok U := by
  obtain ⟨-, Q, hQ, -⟩ := carbon_admissible 0
  obtain ⟨U, hU⟩ := (C09_invariants_ok_iff _).mpr ⟨Q, hQ⟩
  exact ⟨_, U, rfl, hU⟩

/-! ## C27 -/

theorem Mat.pyEq_true (a b : Mat) : a.pyEq b = .ok true ↔ a = b := by
  cases a with
  | ortho a =>
    cases b with
    | ortho b =>
      cases a; cases b
      simp [Mat.pyEq, and_assoc]
    | iso b => simp [Mat.pyEq]
  | iso a =>
    cases b with
    | ortho b => simp [Mat.pyEq]
    | iso b =>
      cases a; cases b
      simp [Mat.pyEq, and_assoc]

theorem entriesEq_true (L L' : List (ℝ × Mat)) (h : L.length = L'.length) :
    entriesEq L L' = .ok true ↔ L = L' := by
  induction L generalizing L' with
  | nil => cases L' <;> simp_all [entriesEq]
  | cons p L ih =>
    cases L' with
    | nil => simp at h
    | cons q L' =>
      simp only [entriesEq]
      by_cases h1 : p.1 = q.1
      · simp only [entryEq, h1, if_true]
        have hq := Mat.pyEq_true p.2 q.2
        cases hm : p.2.pyEq q.2 with
        | error e =>
          simp only [hm] at hq
          simp
          intro hpq
          rw [hpq] at hq; simp at hq
        | ok b =>
          cases b with
          | false =>
            simp only [hm] at hq
            simp
            intro hpq
            rw [hpq] at hq; simp at hq
          | true =>
            simp only [hm] at hq
            have h2 : p.2 = q.2 := hq.mp trivial
            have h3 : p = q := Prod.ext h1 h2
            simp [ih L' (by simpa using h), h3]
      · simp [entryEq, h1]
        intro h2; rw [h2] at h1; exact absurd rfl h1

/-- **C27** two laminates compare equal exactly when their layups agree entry by entry. -/
theorem C27_eq_iff_layup (l l' : Lam) : l.pyEq l' = .ok true ↔ l.layup = l'.layup := by
  unfold Lam.pyEq
  by_cases h : l.layup.length = l'.layup.length
  · simp [h, entriesEq_true _ _ h]
  · simp [h]; intro h2; rw [h2] at h; exact absurd rfl h

/-- **C27** equal stacks have equal interfaces and stiffness matrices. -/
theorem C27_equal_stiffness_partial (l l' : Lam) (hs : IsStack l) (hs' : IsStack l')
    (h : l.pyEq l' = .ok true) :
    l.zPosition = l'.zPosition ∧ l.A = l'.A ∧ l.B = l'.B ∧ l.D = l'.D ∧ l.ABD = l'.ABD := by
  rw [C27_eq_iff_layup] at h
  have hA : l.A = l'.A := by rw [hs.A_eq, hs'.A_eq, loopMatrix_layup l l' _ h]
  have hB : l.B = l'.B := loopMatrix_layup l l' _ h
  have hD : l.D = l'.D := by rw [hs.D_eq, hs'.D_eq, loopMatrix_layup l l' _ h]
  exact ⟨by simp only [Lam.zPosition, h], hA, hB, hD, by simp only [Lam.ABD, hA, hB, hD]⟩

/-- **C27** any two lamination-parameter laminates compare equal. -/
theorem C27_lp_always_equal (d d' : LPDict) (p p' : Plies) (l l' : Lam)
    (h : Lam.init (.dict d) p = .ok l) (h' : Lam.init (.dict d') p' = .ok l') : l.pyEq l' = .ok true := by
  rw [C27_eq_iff_layup, (C25_fields d p l h).2.2.2.2.2.2.1, (C25_fields d' p' l' h').2.2.2.2.2.2.1]

/-- **C27** is false in general: two laminates that compare equal with different `D`. -/
theorem C27_equal_stiffness_false :
    ¬ ∀ l l' : Lam, (∃ s p, Lam.init s p = .ok l) → (∃ s p, Lam.init s p = .ok l') →
      l.pyEq l' = .ok true → l.D = l'.D := by
  intro H
  obtain ⟨-, Q, hQ, -⟩ := carbon_admissible 0
  obtain ⟨U, hU⟩ := (C09_invariants_ok_iff ⟨132000, 10300, 1/4, 5500, 0.127, 1500, 1200, 50, 200, 70⟩).mpr
    ⟨Q, hQ⟩
  let d1 : LPDict := ⟨none, none, some (.vec [0, 0, 0, 0]), some (.num 1)⟩
  let d0 : LPDict := ⟨none, none, some (.vec [0, 0, 0, 0]), some (.num 0)⟩
  have h1 := H _ _ ⟨.dict d1, .single carbon, rfl⟩ ⟨.dict d0, .single carbon, rfl⟩
    (C27_lp_always_equal d1 d0 _ _ _ _ rfl rfl)
  rw [(C26_lp_matrices d1 carbon _ rfl U hU 1 rfl).2.2.2 0 rfl,
    (C26_lp_matrices d0 carbon _ rfl U hU 0 rfl).2.2.2 0 rfl, Except.ok.injEq] at h1
  have e := congrFun (congrFun h1 2) 2
  have e2 := congrFun (congrFun h1 0) 1
  simp [lpStiffness, invariantQ] at e e2
  -- U5 = U4 = 0 is impossible: U5 - U4 = Q66 - Q12
  have hv : (⟨132000, 10300, 1/4, 5500, 0.127, 1500, 1200, 50, 200, 70⟩ : OrthoMat ℝ).v21 = 1/4*10300/132000 := by
    simp [OrthoMat.v21, mul_div_assoc]
  have hd : 1 - (1/4 : ℝ) * (1/4*10300/132000) ≠ 0 := by norm_num
  have hQ' := OrthoMat.Q0_of_ne ⟨132000, 10300, 1/4, 5500, 0.127, 1500, 1200, 50, 200, 70⟩ (by rw [hv]; exact hd)
  simp only [OrthoMat.invariants, hQ', ok_bind, pure_eq_ok, Except.ok.injEq, hv] at hU
  rw [← hU] at e e2
  simp [invariantsOf] at e e2
  norm_num at e

/-- Non-vacuity for C27. -/
example : ∃ l l', Lam.init (.angles [0, 90]) (.single carbon) = .ok l ∧
    Lam.init (.angles [0, 90]) (.list [carbon, carbon]) = .ok l' ∧ l.pyEq l' = .ok true := by
  obtain ⟨l, hl, h⟩ := C10_single [0, 90] carbon
  refine ⟨l, _, hl, by simp [Lam.init]; rfl, ?_⟩
  rw [C27_eq_iff_layup, h]; simp

end Composipy
