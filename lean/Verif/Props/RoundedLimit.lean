import Verif.Props.RoundedStrength
import Verif.Props.RoundedPlate

/-!
# C115: with enough precision the computed results are as near to the exact ones as wanted
-/

namespace Composipy
open Spec Matrix

namespace Spec

/-- A stable `inv` in an arithmetic with relative error `u`: if the condition number `mu nu` is small compared with `1 / (c u)`, the inverse is returned, and its error is at
most `c u mu nu` times the bound `nu` on the row sums of the inverse. -/
def StableInv {ι : Type} [Fintype ι] [DecidableEq ι] (u c : ℝ) (inv : Matrix ι ι ℝ → Except PyErr (Matrix ι ι ℝ)) : Prop :=
  ∀ (A : Matrix ι ι ℝ) (mu nu : ℝ), IsUnit A.det → (∀ i, ∑ j, |A i j| ≤ mu) → (∀ i, ∑ j, |A⁻¹ i j| ≤ nu) → c * u * (mu * nu) ≤ 1 →
    ∃ R, inv A = .ok R ∧ ∀ i j, |R i j - A⁻¹ i j| ≤ c * u * (mu * nu) * nu

/-- Two rows of a strain or stress table that differ by at most `eps`. -/
structure RowClose (eps : ℝ) (r' r : Row) : Prop where
  ply : r'.ply = r.ply
  position : r'.position = r.position
  angle : r'.angle = r.angle
  z : |r'.z - r.z| ≤ eps
  xy : ∀ i, |r'.xy i - r.xy i| ≤ eps
  m12 : ∀ i, |r'.m12 i - r.m12 i| ≤ eps

/-- A property of all sufficiently small relative errors. -/
def Tiny (P : ℝ → Prop) : Prop := ∃ t, 0 < t ∧ ∀ u, 0 ≤ u → u ≤ t → P u

end Spec

theorem Spec.Tiny.and {P Q : ℝ → Prop} (h : Tiny P) (k : Tiny Q) : Tiny fun u => P u ∧ Q u := by
  obtain ⟨t, ht, h⟩ := h
  obtain ⟨s, hs, k⟩ := k
  exact ⟨min t s, lt_min ht hs, fun u h0 hu => ⟨h u h0 (hu.trans (min_le_left _ _)), k u h0 (hu.trans (min_le_right _ _))⟩⟩

theorem Spec.Tiny.le {f : ℝ → ℝ} {b : ℝ} (hf : ContinuousAt f 0) (h : f 0 < b) : Tiny fun u => f u ≤ b := by
  obtain ⟨t, ht, k⟩ := Metric.eventually_nhds_iff.mp (hf.eventually (gt_mem_nhds h))
  refine ⟨t / 2, by positivity, fun u h0 hu => (k ?_).le⟩
  rw [Real.dist_eq, sub_zero, abs_of_nonneg h0]
  linarith

/-- The computed inverse of a perturbed matrix. -/
theorem stable_near {ι : Type} [Fintype ι] [DecidableEq ι] {u c : ℝ} {inv : Matrix ι ι ℝ → Except PyErr (Matrix ι ι ℝ)} (hinv : StableInv u c inv)
    {M M' : Matrix ι ι ℝ} (hM : IsUnit M.det) {mu nu eps : ℝ} (hnu : 0 ≤ nu) (heps : 0 ≤ eps) (hmu : ∀ i, ∑ j, |M i j| ≤ mu) (hrow : ∀ i, ∑ j, |M⁻¹ i j| ≤ nu)
    (hE : ∀ i, ∑ j, |M' i j - M i j| ≤ eps) (h1 : eps ≤ mu) (h2 : nu * eps ≤ 1 / 2) (h3 : c * u * (4 * mu * nu) ≤ 1) :
    ∃ R, inv M' = .ok R ∧ ∀ i j, |R i j - M⁻¹ i j| ≤ 8 * (c * u) * mu * nu ^ 2 + 2 * nu ^ 2 * eps := by
  obtain ⟨hu, hI⟩ := C113_inverse hM hnu heps hrow hE (by linarith)
  have hx : nu * eps / (1 - nu * eps) ≤ 2 * (nu * eps) := by
    rw [div_le_iff₀ (by linarith)]
    have : 0 ≤ nu * eps := mul_nonneg hnu heps
    nlinarith
  have hx1 : nu * (nu * eps / (1 - nu * eps)) ≤ 2 * nu ^ 2 * eps :=
    (mul_le_mul_of_nonneg_left hx hnu).trans (by apply le_of_eq; ring)
  have hx2 : 2 * nu ^ 2 * eps ≤ nu := by nlinarith
  have tri : ∀ A B : Matrix ι ι ℝ, ∀ i, ∑ j, |A i j| ≤ ∑ j, |A i j - B i j| + ∑ j, |B i j| := fun A B i => by
    rw [← Finset.sum_add_distrib]
    refine Finset.sum_le_sum fun j _ => ?_
    have := abs_add_le (A i j - B i j) (B i j)
    simpa using this
  obtain ⟨R, r1, r2⟩ := hinv M' (2 * mu) (2 * nu) hu (fun i => by linarith [tri M' M i, hE i, hmu i]) (fun i => by linarith [tri M'⁻¹ M⁻¹ i, hI i, hrow i])
    (by linarith)
  refine ⟨R, r1, fun i j => ?_⟩
  have e1 : |M'⁻¹ i j - M⁻¹ i j| ≤ nu * (nu * eps / (1 - nu * eps)) :=
    (Finset.single_le_sum (f := fun j => |M'⁻¹ i j - M⁻¹ i j|) (fun _ _ => abs_nonneg _) (Finset.mem_univ j)).trans (hI i)
  calc |R i j - M⁻¹ i j| ≤ |R i j - M'⁻¹ i j| + |M'⁻¹ i j - M⁻¹ i j| := abs_sub_le _ _ _
    _ ≤ c * u * (2 * mu * (2 * nu)) * (2 * nu) + 2 * nu ^ 2 * eps := add_le_add (r2 i j) (e1.trans hx1)
    _ = _ := by ring

/-- Growth of the error of the rotation matrices. -/
noncomputable def rotGrowth (a u : ℝ) : ℝ := trigGrowth u a ^ 2 * (1 + u) ^ 2

/-- Growth of the error of the computed inverses of the rotation matrices. -/
noncomputable def rotInvGrowth (c a u : ℝ) : ℝ := 1 + (864 * (c * u) + 216 * (rotGrowth a u - 1))

theorem rotGrowth_ge {a u : ℝ} (ha : 0 ≤ a) (hu : 0 ≤ u) : 1 ≤ rotGrowth a u := by
  have h1 : 1 ≤ (1 + u) ^ 3 := one_le_pow₀ (by linarith)
  have h2 : 1 ≤ trigGrowth u a := by
    unfold trigGrowth
    have : 0 ≤ ((1 + u) ^ 3 - 1) * a := mul_nonneg (by linarith) ha
    linarith
  exact one_le_mul_of_one_le_of_one_le (one_le_pow₀ h2) (one_le_pow₀ (by linarith))

theorem rotInvGrowth_ge {c a u : ℝ} (ha : 0 ≤ a) (hu : 0 ≤ u) (hc : 0 ≤ c) : 1 ≤ rotInvGrowth c a u := by
  have := rotGrowth_ge ha hu
  have := mul_nonneg hc hu
  unfold rotInvGrowth
  linarith

theorem rows_le {A : M3} {b : ℝ} (h : ∀ i j, |A i j| ≤ b) (i : Fin 3) : ∑ j, |A i j| ≤ 3 * b := by
  rw [Fin.sum_univ_three]
  linarith [h i 0, h i 1, h i 2]

/-- A stable `inv` makes a ply acceptable for C111. -/
theorem plyOk_of_stable (F : FloatLib) {c r a : ℝ} (hc : 0 ≤ c) (hinv : StableInv F.u c F.inv) (p : ℝ × Mat) (h0 : 0 ≤ poissonProduct p.2) (h1 : poissonProduct p.2 ≤ r)
    (ha : |p.1 * Real.pi / 180| ≤ a) (hs1 : 36 * (rotGrowth a F.u - 1) ≤ 1 / 2) (hs2 : c * F.u * 144 ≤ 1) : PlyOk F r a (rotInvGrowth c a F.u) p := by
  have ha0 : 0 ≤ a := (abs_nonneg _).trans ha
  have hu0 := F.u_nonneg
  have hg := rotGrowth_ge ha0 hu0
  have hT := FloatLib.T_within (F := F) p.1 a ha
  have hcu : 0 ≤ c * F.u := mul_nonneg hc hu0
  obtain ⟨R, r1, r2⟩ := stable_near hinv (Treal_det_isUnit p.1) (M' := F.Treal p.1) (mu := 6) (nu := 6) (eps := 6 * (rotGrowth a F.u - 1)) (by norm_num) (by linarith)
    (fun i => (rows_le (fun i j => (hT i j).2.1) i).trans (by norm_num))
    (fun i => (rows_le (fun i j => by rw [Treal_inv, Matrix.transpose_apply]; exact (hT j i).1.1) i).trans (by norm_num))
    (fun i => (rows_le (A := fun i j => F.Treal p.1 i j - Treal p.1 i j) (fun i j => (hT i j).2.2) i).trans (by
      change 3 * ((rotGrowth a F.u - 1) * 2) ≤ _
      linarith)) (by linarith) (by linarith) (by linarith)
  refine ⟨h0, h1, ha, R, r1, fun i j => (r2 i j).trans ?_⟩
  unfold rotInvGrowth
  linarith

theorem continuousAt_trig (a : ℝ) : ContinuousAt (fun u => trigGrowth u a) 0 := by
  unfold trigGrowth; fun_prop

theorem continuousAt_rot (a : ℝ) : ContinuousAt (fun u => rotGrowth a u) 0 := by
  unfold rotGrowth trigGrowth; fun_prop

theorem continuousAt_den (r : ℝ) : ContinuousAt (fun u => denErr u r) 0 := by
  unfold denErr; fun_prop

theorem trigGrowth_zero (a : ℝ) : trigGrowth 0 a = 1 := by simp [trigGrowth]
theorem rotGrowth_zero (a : ℝ) : rotGrowth a 0 = 1 := by simp [rotGrowth, trigGrowth_zero]
theorem rotInvGrowth_zero (c a : ℝ) : rotInvGrowth c a 0 = 1 := by simp [rotInvGrowth, rotGrowth_zero]
theorem denErr_zero (r : ℝ) : denErr 0 r = 0 := by simp [denErr]

/-- Growth of the error of a ply with a stable `inv`. -/
noncomputable def stackGrowth (c r a u : ℝ) : ℝ := plyGrowth u r a (rotInvGrowth c a u)

theorem stackGrowth_zero (c r a : ℝ) : stackGrowth c r a 0 = 1 := by
  simp [stackGrowth, plyGrowth, matGrowth, rotInvGrowth_zero, denErr_zero, trigGrowth_zero]

theorem continuousAt_stack (c r a : ℝ) : ContinuousAt (fun u => stackGrowth c r a u) 0 := by
  have h1 : ContinuousAt (fun u => matGrowth u r) 0 := by
    unfold matGrowth
    exact ContinuousAt.div (by fun_prop) (by have := continuousAt_den r; fun_prop) (by rw [denErr_zero]; norm_num)
  have h2 := continuousAt_trig a
  have h3 := continuousAt_rot a
  unfold stackGrowth plyGrowth rotInvGrowth
  fun_prop

/-- Bounds for the plies of a stack. -/
theorem exists_bounds (L : List (ℝ × Mat)) (hp : ∀ p ∈ L, poissonProduct p.2 < 1) :
    ∃ r a S : ℝ, 0 ≤ r ∧ r < 1 ∧ 0 ≤ a ∧ 0 ≤ S ∧ ∀ p ∈ L, poissonProduct p.2 ≤ r ∧ |p.1 * Real.pi / 180| ≤ a ∧ ∀ Q, p.2.Q0 = .ok Q → entrySum Q ≤ S := by
  induction L with
  | nil => exact ⟨0, 0, 0, le_rfl, one_pos, le_rfl, le_rfl, by simp⟩
  | cons p L ih =>
    obtain ⟨r, a, S, h1, h2, h3, h4, h5⟩ := ih fun q hq => hp q (by simp [hq])
    have key : ∃ s, ∀ Q, p.2.Q0 = .ok Q → entrySum Q ≤ s := by
      cases h : p.2.Q0 with
      | error e => exact ⟨0, by simp⟩
      | ok Q => exact ⟨entrySum Q, fun Q' h' => by cases h'; exact le_rfl⟩
    obtain ⟨s, hs⟩ := key
    refine ⟨max r (poissonProduct p.2), max a |p.1 * Real.pi / 180|, max S s, le_max_of_le_left h1, max_lt h2 (hp p (by simp)), le_max_of_le_left h3,
      le_max_of_le_left h4, ?_⟩
    intro q hq
    rcases List.mem_cons.mp hq with rfl | hq
    · exact ⟨le_max_right _ _, le_max_right _ _, fun Q hQ => (hs Q hQ).trans (le_max_right _ _)⟩
    · obtain ⟨k1, k2, k3⟩ := h5 q hq
      exact ⟨k1.trans (le_max_left _ _), k2.trans (le_max_left _ _), fun Q hQ => (k3 Q hQ).trans (le_max_left _ _)⟩

theorem exists_rows {ι : Type} [Fintype ι] (A : Matrix ι ι ℝ) : ∃ b : ℝ, 0 < b ∧ ∀ i, ∑ j, |A i j| ≤ b := by
  have h0 : 0 ≤ ∑ i, ∑ j, |A i j| := Finset.sum_nonneg fun i _ => Finset.sum_nonneg fun j _ => abs_nonneg _
  refine ⟨1 + ∑ i, ∑ j, |A i j|, by linarith, fun i => ?_⟩
  have := Finset.single_le_sum (f := fun i => ∑ j, |A i j|) (fun i _ => Finset.sum_nonneg fun j _ => abs_nonneg _) (Finset.mem_univ i)
  linarith

/-- Everything computed before the loads enter, for small relative errors. -/
theorem limit_core (l : Lam) (hs : IsStack l) (ht : NonnegThick l.layup) (hp : ∀ p ∈ l.layup, 0 ≤ poissonProduct p.2 ∧ poissonProduct p.2 < 1) {M R : M6}
    (hM : l.ABD = .ok M) (hR : npInv M = .ok R) {c : ℝ} (hc : 0 ≤ c) :
    ∃ (r a S nu : ℝ) (gF : ℝ → ℝ), (∀ p ∈ l.layup, |p.1 * Real.pi / 180| ≤ a) ∧ ContinuousAt gF 0 ∧ gF 0 = 1 ∧
      Tiny fun u => ∀ F : FloatClt, F.u = u → StableInv u c F.inv → StableInv u c F.inv6 → 1 ≤ stackGrowth c r a u ∧ 1 ≤ gF u ∧
        ∃ M' R' Qs Qf, F.ABD l.layup = .ok M' ∧ F.inv6 M' = .ok R' ∧ (∀ i j, Within (gF u) (R' i j) (R i j) nu) ∧ l.Qlayup = .ok Qs ∧ F.Qlayup l.layup = .ok Qf ∧
          Computed (stackGrowth c r a u) (Matrix.of fun _ _ => 4 * S) Qf Qs := by
  obtain ⟨r, a, S, hr0, hr1, ha0, hS0, hb⟩ := exists_bounds l.layup fun p h => (hp p h).2
  have hdet : M.det ≠ 0 := fun h => by simp [npInv, h] at hR
  have hRM : M⁻¹ = R := by simpa [npInv, hdet] using hR
  obtain ⟨mu, hmu0, hmu⟩ := exists_rows M
  obtain ⟨nu, hnu0, hnu⟩ := exists_rows R
  set C := 12 * l.layup.length * S * (height l.layup + height l.layup ^ 2 / 4 + height l.layup ^ 3 / 12) with hC
  have hC0 : 0 ≤ C := by
    have := height_nonneg ht
    positivity
  set ep : ℝ → ℝ := fun u => (stackGrowth c r a u * (1 + u) ^ (7 * l.layup.length + 8) - 1) * C with hep
  have cst := continuousAt_stack c r a
  have cep : ContinuousAt ep 0 := by
    rw [hep]; fun_prop
  have ep0 : ep 0 = 0 := by simp [hep, stackGrowth_zero]
  have t1 : Tiny fun u => denErr u r ≤ 1 / 2 := Tiny.le (continuousAt_den r) (by rw [denErr_zero]; norm_num)
  have t2 : Tiny fun u => 36 * (rotGrowth a u - 1) ≤ 1 / 2 :=
    Tiny.le (by have := continuousAt_rot a; fun_prop) (by rw [rotGrowth_zero]; norm_num)
  have t3 : Tiny fun u => c * u * 144 ≤ 1 := Tiny.le (by fun_prop) (by norm_num)
  have t4 : Tiny fun u => ep u ≤ mu := Tiny.le cep (by rw [ep0]; exact hmu0)
  have t5 : Tiny fun u => nu * ep u ≤ 1 / 2 := Tiny.le (by fun_prop) (by rw [ep0]; norm_num)
  have t6 : Tiny fun u => c * u * (4 * mu * nu) ≤ 1 := Tiny.le (by fun_prop) (by norm_num)
  refine ⟨r, a, S, nu, fun u => 1 + (8 * (c * u) * mu * nu + 2 * nu * ep u), fun p h => (hb p h).2.1, by fun_prop, by simp [ep0], ?_⟩
  obtain ⟨t, ht0, h⟩ := t1.and (t2.and (t3.and (t4.and (t5.and t6))))
  refine ⟨t, ht0, fun u hu0 hut F hF hi3 hi6 => ?_⟩
  obtain ⟨s1, s2, s3, s4, s5, s6⟩ := h u hu0 hut
  subst hF
  have hI := rotInvGrowth_ge ha0 hu0 hc
  have he : denErr F.u r < 1 := by linarith
  have hok : ∀ p ∈ l.layup, PlyOk F.toFloatLib r a (rotInvGrowth c a F.u) p := fun p h =>
    plyOk_of_stable F.toFloatLib hc hi3 p (hp p h).1 (hb p h).1 (hb p h).2.1 s2 s3
  have hG := plyGrowth_ge F.toFloatLib hr0 hr1 he ha0 hI
  obtain ⟨M₁, M', Qs, Qf, m1, m2, q1, q2, q3, hE⟩ := C113_ABD F r a _ S hr0 hr1 he ha0 hI l hs ht hok (fun p h => (hb p h).2.2) hS0
  rw [hM] at m1
  obtain rfl : M = M₁ := by cases m1; rfl
  have hep0 : 0 ≤ ep F.u := by
    have := FloatArith.gq_ge (F := F.toFloatArith) hG (7 * l.layup.length + 8)
    exact mul_nonneg (sub_nonneg.mpr this) hC0
  have hcu : 0 ≤ c * F.u := mul_nonneg hc hu0
  obtain ⟨R', r1, r2⟩ := stable_near hi6 (isUnit_iff_ne_zero.mpr hdet) (M' := M') hnu0.le hep0 hmu (by rw [hRM]; exact hnu) hE s4 s5 s6
  refine ⟨hG, ?_, M', R', Qs, Qf, m2, r1, fun i j => ⟨?_, ?_⟩, q1, q2, q3⟩
  · have : 0 ≤ 8 * (c * F.u) * mu * nu + 2 * nu * ep F.u := by positivity
    linarith
  · exact (Finset.single_le_sum (f := fun j => |R i j|) (fun _ _ => abs_nonneg _) (Finset.mem_univ j)).trans (hnu i)
  · rw [← hRM]
    exact (r2 i j).trans (by apply le_of_eq; ring)

theorem rowClose_of_near {ez gx gm eps : ℝ} {X Z : V3} {r' r : Row} (h : RowNear ez gx X gm Z r' r) (h1 : ez ≤ eps) (h2 : ∀ i, (gx - 1) * X i ≤ eps)
    (h3 : ∀ i, (gm - 1) * Z i ≤ eps) : RowClose eps r' r :=
  ⟨h.ply, h.position, h.angle, h.z.trans h1, fun i => (h.xy i).2.trans (h2 i), fun i => (h.m12 i).2.trans (h3 i)⟩

theorem tiny_three {g : ℝ → ℝ} (hg : ContinuousAt g 0) (h0 : g 0 = 1) (X : V3) {eps : ℝ} (he : 0 < eps) : Tiny fun u => ∀ i, (g u - 1) * X i ≤ eps := by
  have t : ∀ i, Tiny fun u => (g u - 1) * X i ≤ eps := fun i => Tiny.le (by fun_prop) (by simpa [h0] using he)
  obtain ⟨s, hs, h⟩ := (t 0).and ((t 1).and (t 2))
  refine ⟨s, hs, fun u h1 h2 i => ?_⟩
  obtain ⟨k0, k1, k2⟩ := h u h1 h2
  fin_cases i
  · exact k0
  · exact k1
  · exact k2

/-- **C115** strains and stresses: for every tolerance there is a precision from which on, whatever the rounding and with stable inversions, both tables are
computed, with the rows of the exact tables and all numbers within the tolerance. -/
theorem C115_tables (l : Lam) (hs : IsStack l) (ht : NonnegThick l.layup) (hp : ∀ p ∈ l.layup, 0 ≤ poissonProduct p.2 ∧ poissonProduct p.2 < 1) {M R : M6}
    (hM : l.ABD = .ok M) (hR : npInv M = .ok R) (N : V6) {c : ℝ} (hc : 0 ≤ c) {eps : ℝ} (heps : 0 < eps) :
    ∃ t, 0 < t ∧ ∀ F : FloatClt, F.u ≤ t → StableInv F.u c F.inv → StableInv F.u c F.inv6 →
      (∃ rows rows', calculateStrain l N = .ok rows ∧ F.calculateStrain l.layup N = .ok rows' ∧ List.Forall₂ (RowClose eps) rows' rows) ∧
      ∃ rows rows', calculateStress l N = .ok rows ∧ F.calculateStress l.layup N = .ok rows' ∧ List.Forall₂ (RowClose eps) rows' rows := by
  obtain ⟨r, a, S, nu, gF, hang, cF, F0, hT⟩ := limit_core l hs ht hp hM hR hc
  have cst := continuousAt_stack c r a
  have ctr := continuousAt_trig a
  set n := l.layup.length
  set H := height l.layup / 2
  set X : M3 := Matrix.of fun _ _ => 4 * S
  set Y : M6 := fun _ _ => nu
  have z1 : Tiny fun u => ((1 + u) ^ (2 * n + 1) - 1) * H ≤ eps := Tiny.le (by fun_prop) (by simpa using heps)
  have e1 : Tiny fun u => ∀ i, (gF u * (1 + u) ^ (2 * n + 9) - 1) * strainSize Y N H i ≤ eps := tiny_three (by fun_prop) (by simp [F0]) _ heps
  have e2 : Tiny fun u => ∀ _ : Fin 3, (gF u * trigGrowth u a ^ 2 * (1 + u) ^ (2 * n + 16) - 1) * (4 * ∑ k, strainSize Y N H k) ≤ eps :=
    tiny_three (by fun_prop) (by simp [F0, trigGrowth_zero]) (fun _ => _) heps
  have s1 : Tiny fun u => ∀ i, (stackGrowth c r a u * gF u * (1 + u) ^ (2 * n + 12) - 1) * stressSize X Y N H i ≤ eps :=
    tiny_three (by fun_prop) (by simp [F0, stackGrowth_zero]) _ heps
  have s2 : Tiny fun u => ∀ _ : Fin 3, (stackGrowth c r a u * gF u * trigGrowth u a ^ 2 * (1 + u) ^ (2 * n + 17) - 1) * (2 * ∑ k, stressSize X Y N H k) ≤ eps :=
    tiny_three (by fun_prop) (by simp [F0, trigGrowth_zero, stackGrowth_zero]) (fun _ => _) heps
  obtain ⟨t, ht0, h⟩ := hT.and (z1.and (e1.and (e2.and (s1.and s2))))
  refine ⟨t, ht0, fun F hF hi3 hi6 => ?_⟩
  obtain ⟨hcore, z1, e1, e2, s1, s2⟩ := h F.u F.u_nonneg hF
  obtain ⟨hG, hgF, M', R', Qs, Qf, m2, r1, r2, q1, q2, q3⟩ := hcore F rfl hi3 hi6
  constructor
  · obtain ⟨rows, rows', h1, h2, h3⟩ := C113_strain F l hs ht a hang N hgF hM hR m2 r1 (Y := Y) r2
    exact ⟨rows, rows', h1, h2, h3.imp fun _ _ hr => rowClose_of_near hr z1 e1 e2⟩
  · obtain ⟨rows, rows', h1, h2, h3⟩ := C113_stress F l hs ht a hang N hgF hM hR m2 r1 (Y := Y) r2 hG q1 q2 q3
    exact ⟨rows, rows', h1, h2, h3.imp fun _ _ hr => rowClose_of_near hr z1 s1 s2⟩

/-- **C115** load multipliers: for every relative tolerance there is a precision from which on the plate matrices, computed from the material constants, the
angles and the table texts, have all their load multipliers within the tolerance of the exact ones. -/
theorem C115_multipliers (l : Lam) (hs : IsStack l) (ht : NonnegThick l.layup) (hp : ∀ p ∈ l.layup, 0 ≤ poissonProduct p.2 ∧ poissonProduct p.2 < 1)
    (cs : Constraints) (p : PlateNum) (ha : 0 < p.a) (hb : 0 < p.b) (hm : 1 ≤ p.m) (hn : 1 ≤ p.n)
    (K KG : SqMat (p.m * p.n)) (h : calcKKGD shipped l.D cs p = .ok (K, KG)) (hpd : K.PosDef) {c : ℝ} (hc : 0 ≤ c) {eps : ℝ} (heps : 0 < eps) :
    ∃ t, 0 < t ∧ ∀ F : FloatLib, F.u ≤ t → StableInv F.u c F.inv →
      ∃ K' KG' : SqMat (p.m * p.n), F.calcKKGD shipped (F.stiffness l.layup F.wD) cs p = .ok (K', KG') ∧ K'.PosDef ∧ K'.IsSymm ∧ KG'.IsSymm ∧ ∀ k lam, 1 ≤ k →
        IsKth K KG k lam → ∃ lam', IsKth K' KG' k lam' ∧ |lam' - lam| ≤ eps * lam := by
  obtain ⟨r, a, S, hr0, hr1, ha0, hS0, hbd⟩ := exists_bounds l.layup fun p h => (hp p h).2
  obtain ⟨D, hD⟩ : ∃ D, l.D = .ok D := by
    cases hd : l.D with
    | ok D => exact ⟨D, rfl⟩
    | error e => rw [hd] at h; simp [calcKKGD] at h
  rw [hD] at h
  obtain ⟨b, hb0, hbD⟩ := exists_rows D
  set C := height l.layup ^ 3 / 12 * (l.layup.length * (4 * S))
  have hC0 : 0 ≤ C := by
    have := height_nonneg ht
    positivity
  obtain ⟨t, ht0, hT⟩ := C112_precision D (fun _ _ => b + C) cs p ha hb hm hn K KG h hpd eps heps
  have cst := continuousAt_stack c r a
  have t0 : Tiny fun u => u ≤ t := ⟨t, ht0, fun u _ h => h⟩
  have t1 : Tiny fun u => denErr u r ≤ 1 / 2 := Tiny.le (continuousAt_den r) (by rw [denErr_zero]; norm_num)
  have t2 : Tiny fun u => 36 * (rotGrowth a u - 1) ≤ 1 / 2 :=
    Tiny.le (by have := continuousAt_rot a; fun_prop) (by rw [rotGrowth_zero]; norm_num)
  have t3 : Tiny fun u => c * u * 144 ≤ 1 := Tiny.le (by fun_prop) (by norm_num)
  have t4 : Tiny fun u => stackGrowth c r a u * (1 + u) ^ (7 * l.layup.length + 8) - 1 ≤ t :=
    Tiny.le (by fun_prop) (by simpa [stackGrowth_zero] using ht0)
  obtain ⟨t', ht'0, h'⟩ := t0.and (t1.and (t2.and (t3.and t4)))
  refine ⟨t', ht'0, fun F hF hi3 => ?_⟩
  obtain ⟨s0, s1, s2, s3, s4⟩ := h' F.u F.u_nonneg hF
  have hI := rotInvGrowth_ge ha0 F.u_nonneg hc
  have he : denErr F.u r < 1 := by linarith
  have hok : ∀ p ∈ l.layup, PlyOk F r a (rotInvGrowth c a F.u) p := fun p h =>
    plyOk_of_stable F hc hi3 p (hp p h).1 (hbd p h).1 (hbd p h).2.1 s2 s3
  obtain ⟨A, A', B, B', D₁, D', -, -, d1, -, -, d2, hE⟩ := C111_stack F r a _ S hr0 hr1 he ha0 hI l hs ht hok (fun p h => (hbd p h).2.2)
  rw [hD] at d1
  obtain rfl : D = D₁ := by cases d1; rfl
  rw [d2]
  refine hT F.toFloatArith s0 D' fun i j => ⟨?_, ?_⟩
  · have := (Finset.single_le_sum (f := fun j => |D i j|) (fun _ _ => abs_nonneg _) (Finset.mem_univ j)).trans (hbD i)
    linarith
  · refine (hE i j).2.2.trans ?_
    calc _ ≤ t * C := mul_le_mul_of_nonneg_right s4 hC0
      _ ≤ (1 + t - 1) * (b + C) := by nlinarith

/-! ## The verdict of the margins -/

namespace Spec

/-- No stress is exactly on its allowable. -/
def OffLimit (v : V5) (s : V3) : Prop := s 0 ≠ v 0 ∧ -s 0 ≠ v 1 ∧ s 1 ≠ v 2 ∧ -s 1 ≠ v 3 ∧ |s 2| ≠ v 4

/-- The distances to the allowables. -/
def gaps (v : V5) (s : V3) : List ℝ := [s 0 - v 0, -s 0 - v 1, s 1 - v 2, -s 1 - v 3, |s 2| - v 4]

end Spec

theorem exists_gap (L : List ℝ) : ∃ d : ℝ, 0 < d ∧ ∀ x ∈ L, x ≠ 0 → d ≤ |x| := by
  induction L with
  | nil => exact ⟨1, one_pos, by simp⟩
  | cons y L ih =>
    obtain ⟨d, hd, h⟩ := ih
    by_cases hy : y = 0
    · refine ⟨d, hd, fun x hx h0 => ?_⟩
      rcases List.mem_cons.mp hx with rfl | hx
      · exact absurd hy h0
      · exact h x hx h0
    · refine ⟨min d |y|, lt_min hd (abs_pos.mpr hy), fun x hx h0 => ?_⟩
      rcases List.mem_cons.mp hx with rfl | hx
      · exact min_le_right _ _
      · exact (min_le_left _ _).trans (h x hx h0)

theorem exists_max (L : List ℝ) : ∃ d : ℝ, 0 < d ∧ ∀ x ∈ L, x ≤ d := by
  induction L with
  | nil => exact ⟨1, one_pos, by simp⟩
  | cons y L ih =>
    obtain ⟨d, hd, h⟩ := ih
    refine ⟨max d y, lt_max_of_lt_left hd, fun x hx => ?_⟩
    rcases List.mem_cons.mp hx with rfl | hx
    · exact le_max_right _ _
    · exact (h x hx).trans (le_max_left _ _)

/-- The verdict on one row: with small errors, all computed margins are nonnegative exactly if the exact stresses are within the allowables. -/
theorem verdict_row (F : FloatClt) (hu : F.u ≤ 1 / 2) {v : V5} (hv : ∀ i, 0 < v i) {s' s : V3} {d e : ℝ} (hd : 0 < d) (he : ∀ i, |s' i - s i| ≤ e) (hed : e ≤ d / 4)
    (hud : ∀ i, F.u * v i ≤ d / 4) (hev : ∀ i, e ≤ v i / 2) (hoff : OffLimit v s) (hgap : ∀ x ∈ gaps v s, x ≠ 0 → d ≤ |x|) :
    (∀ i, AtLeast 0 (F.margins v s' i)) ↔ WithinAllowables v s := by
  have hu0 := F.u_nonneg
  have hs := fun i => abs_le.mp (he i)
  have he0 : 0 ≤ e := (abs_nonneg _).trans (he 0)
  obtain ⟨o1, o2, o3, o4, o5⟩ := hoff
  have split : ∀ x y : ℝ, x ≠ y → (x - y ∈ gaps v s) → x ≤ y - d ∨ y + d ≤ x := fun x y hxy hmem => by
    rcases le_abs.mp (hgap _ hmem (sub_ne_zero.mpr hxy)) with h | h
    · right; linarith
    · left; linarith
  have g1 := split _ _ o1 (by simp [gaps])
  have g2 := split _ _ o2 (by simp [gaps])
  have g3 := split _ _ o3 (by simp [gaps])
  have g4 := split _ _ o4 (by simp [gaps])
  have g5 := split _ _ o5 (by simp [gaps])
  constructor
  · intro h
    have bnd : ∀ {allow x : ℝ}, 0 < allow → F.u * allow ≤ d / 4 → 0 ≤ x → AtLeast 0 (F.subOne (npDiv allow x)) → x ≤ allow + d / 4 := fun ha hua hx hm => by
      have := margin_bound F (by linarith) le_rfl ha hx hm
      rw [zero_div, add_zero, mul_one] at this
      linarith
    have tens : ∀ (i : Fin 3) (j : Fin 5), AtLeast 0 (F.marginT (v j) (s' i)) → s i ≤ v j + d / 2 := fun i j hm => by
      have h1 := bnd (hv j) (hud j) (by split_ifs with hn <;> [exact le_rfl; exact not_lt.mp hn]) hm
      have := (hs i).1
      split_ifs at h1 <;> linarith
    have comp : ∀ (i : Fin 3) (j : Fin 5), AtLeast 0 (F.marginC (v j) (s' i)) → -s i ≤ v j + d / 2 := fun i j hm => by
      have h1 := bnd (hv j) (hud j) (abs_nonneg _) hm
      have := (hs i).2
      split_ifs at h1 with hn
      · linarith
      · rw [abs_of_nonpos (not_lt.mp hn)] at h1; linarith
    have m0 := tens 0 0 (h 0)
    have m1 := comp 0 1 (h 1)
    have m2 := tens 1 2 (h 2)
    have m3 := comp 1 3 (h 3)
    have m4 := bnd (hv 4) (hud 4) (abs_nonneg _) (h 4)
    have m5 := abs_sub_abs_le_abs_sub (s 2) (s' 2)
    rw [abs_sub_comm] at m5
    have m6 := he 2
    exact ⟨by rcases g1 with g | g <;> linarith, by rcases g2 with g | g <;> linarith, by rcases g3 with g | g <;> linarith,
      by rcases g4 with g | g <;> linarith, by rcases g5 with g | g <;> linarith⟩
  · intro h
    have hle : ∀ i, v i - d ≤ (1 - F.u) * v i - e := fun i => by linarith [hud i]
    refine C113_quiet F (by linarith) hv he (fun i => by nlinarith [hev i, hv i]) ⟨?_, ?_, ?_, ?_, ?_⟩
    · refine le_trans ?_ (hle 0); rcases g1 with g | g <;> linarith [h.t1]
    · refine le_trans ?_ (hle 1); rcases g2 with g | g <;> linarith [h.c1]
    · refine le_trans ?_ (hle 2); rcases g3 with g | g <;> linarith [h.t2]
    · refine le_trans ?_ (hle 3); rcases g4 with g | g <;> linarith [h.c2]
    · refine le_trans ?_ (hle 4); rcases g5 with g | g <;> linarith [h.shear]

/-- **C115** the verdict: with enough precision, in every row whose stresses are not exactly on an allowable, all five computed margins are nonnegative exactly if the
exact stresses are within the allowables. -/
theorem C115_verdict (l : Lam) (hs : IsStack l) (ht : NonnegThick l.layup) (hp : ∀ p ∈ l.layup, 0 ≤ poissonProduct p.2 ∧ poissonProduct p.2 < 1) {M R : M6}
    (hM : l.ABD = .ok M) (hR : npInv M = .ok R) (N : V6) (hal : HasAllowables l) (hpos : ∀ p ∈ l.layup, ∀ v, p.2.allowables = .ok v → ∀ i, 0 < v i)
    (rows : List Row) (hrows : calculateStress l N = .ok rows) {c : ℝ} (hc : 0 ≤ c) :
    ∃ t, 0 < t ∧ ∀ F : FloatClt, F.u ≤ t → StableInv F.u c F.inv → StableInv F.u c F.inv6 → ∃ ms, F.calculateMargin l N = .ok ms ∧ ms.length = rows.length ∧
      ∀ (j : ℕ) (r : MarginRow) (s : Row), ms[j]? = some r → rows[j]? = some s →
        ∃ p v, l.layup[j / 2]? = some p ∧ p.2.allowables = .ok v ∧ r.ply = s.ply ∧ r.angle = s.angle ∧
          (OffLimit v s.m12 → ((∀ i, AtLeast 0 (r.margin i)) ↔ WithinAllowables v s.m12)) := by
  obtain ⟨r, a, S, nu, gF, hang, cF, F0, hT⟩ := limit_core l hs ht hp hM hR hc
  have cst := continuousAt_stack c r a
  have ctr := continuousAt_trig a
  obtain ⟨d, hd0, hd⟩ := exists_gap ((List.range rows.length).flatMap fun j => (rows[j]?.toList).flatMap fun s => gaps (l.allowAt (j / 2)) s.m12)
  set V := (List.range rows.length).flatMap fun j => List.ofFn (l.allowAt (j / 2)) with hV
  obtain ⟨lo, hlo0, hlo⟩ := exists_gap V
  obtain ⟨hi, hhi0, hhi⟩ := exists_max V
  set e := min (d / 4) (lo / 2)
  have he0 : 0 < e := lt_min (by linarith) (by linarith)
  set n := l.layup.length
  set H := height l.layup / 2
  set X : M3 := Matrix.of fun _ _ => 4 * S
  set Y : M6 := fun _ _ => nu
  have s2 : Tiny fun u => ∀ _ : Fin 3, (stackGrowth c r a u * gF u * trigGrowth u a ^ 2 * (1 + u) ^ (2 * n + 17) - 1) * (2 * ∑ k, stressSize X Y N H k) ≤ e :=
    tiny_three (by fun_prop) (by simp [F0, trigGrowth_zero, stackGrowth_zero]) (fun _ => _) he0
  have s3 : Tiny fun u => u ≤ 1 / 2 := ⟨1 / 2, by norm_num, fun u _ h => h⟩
  have s4 : Tiny fun u => u * hi ≤ d / 4 := Tiny.le (by fun_prop) (by linarith)
  obtain ⟨t, ht0, h⟩ := hT.and (s2.and (s3.and s4))
  refine ⟨t, ht0, fun F hF hi3 hi6 => ?_⟩
  obtain ⟨hcore, s2, s3, s4⟩ := h F.u F.u_nonneg hF
  obtain ⟨hG, hgF, M', R', Qs, Qf, m2, r1, r2, q1, q2, q3⟩ := hcore F rfl hi3 hi6
  obtain ⟨rows₁, rows', ms, h1, h2, h3, h4, h5, h6⟩ := computed_margin_rows F l hs ht a hang N hgF hM hR m2 r1 (Y := Y) r2 hG q1 q2 q3 hal
  rw [hrows] at h1
  obtain rfl : rows = rows₁ := by cases h1; rfl
  refine ⟨ms, h3, h4, fun j rr s hr hrow => ?_⟩
  obtain ⟨p, s', hk, hv, hs', hply, hangle, hmar⟩ := h6 j rr s hr hrow
  have hnear := forall₂_getElem? h5 hs' hrow
  have hj : j < rows.length := (List.getElem?_eq_some_iff.mp hrow).1
  have hvpos := hpos p (List.mem_of_getElem? hk) _ hv
  have hmem : ∀ i, l.allowAt (j / 2) i ∈ V := fun i => by
    rw [hV, List.mem_flatMap]
    exact ⟨j, List.mem_range.mpr hj, List.mem_ofFn.mpr ⟨i, rfl⟩⟩
  refine ⟨p, _, hk, hv, hply.trans hnear.ply, hangle.trans hnear.angle, fun hoff => ?_⟩
  rw [hmar]
  refine verdict_row F s3 hvpos hd0 (fun i => (hnear.m12 i).2.trans (s2 i)) (min_le_left _ _) (fun i => ?_) (fun i => ?_) hoff ?_
  · exact (mul_le_mul_of_nonneg_left (hhi _ (hmem i)) F.u_nonneg).trans s4
  · have := hlo _ (hmem i) (hvpos i).ne'
    rw [abs_of_pos (hvpos i)] at this
    exact (min_le_right _ _).trans (by linarith)
  · intro x hx h0
    refine hd x ?_ h0
    rw [List.mem_flatMap]
    refine ⟨j, List.mem_range.mpr hj, ?_⟩
    rw [List.mem_flatMap]
    exact ⟨s, by simp [hrow], hx⟩

/-! ## Examples -/

open Classical in
/-- A library that rounds every result to nearest, its inversions too. -/
noncomputable def stableClt (p : ℕ) : FloatClt where
  toFloatLib := { nearestLib p with inv := fun M => if M.det = 0 then .error .linAlgError else .ok (fun i j => nearest p (M⁻¹ i j)) }
  mv := (nearestClt p).mv
  mv6 := (nearestClt p).mv6
  inv6 := (nearestClt p).inv6
  nearMv := (nearestClt p).nearMv
  nearMv6 := (nearestClt p).nearMv6

open Classical in
/-- Rounding the entries of the exact inverse is a stable inversion. -/
theorem rounded_inverse_stable {ι : Type} [Fintype ι] [DecidableEq ι] (p : ℕ) :
    StableInv (ι := ι) ((2 : ℝ) ^ (-(p : ℤ) - 1)) 1 (fun M => if M.det = 0 then .error .linAlgError else .ok (fun i j => nearest p (M⁻¹ i j))) := by
  intro A mu nu hA hmu hnu _
  refine ⟨_, if_neg (isUnit_iff_ne_zero.mp hA), fun i j => (nearest_near p _).trans ?_⟩
  have hu : (0 : ℝ) ≤ (2 : ℝ) ^ (-(p : ℤ) - 1) := by positivity
  have h1 : ∀ i j, |A⁻¹ i j| ≤ nu := fun i j => (Finset.single_le_sum (f := fun j => |A⁻¹ i j|) (fun _ _ => abs_nonneg _) (Finset.mem_univ j)).trans (hnu i)
  have hnu0 : 0 ≤ nu := (abs_nonneg _).trans (h1 i j)
  have h2 : 1 ≤ mu * nu := by
    have e : (A * A⁻¹) i i = 1 := by rw [Matrix.mul_nonsing_inv _ hA, Matrix.one_apply_eq]
    rw [Matrix.mul_apply] at e
    calc (1 : ℝ) = |∑ k, A i k * A⁻¹ k i| := by rw [e, abs_one]
      _ ≤ ∑ k, |A i k| * nu := (Finset.abs_sum_le_sum_abs _ _).trans (Finset.sum_le_sum fun k _ => by
        rw [abs_mul]; exact mul_le_mul_of_nonneg_left (h1 k i) (abs_nonneg _))
      _ ≤ mu * nu := by rw [← Finset.sum_mul]; exact mul_le_mul_of_nonneg_right (hmu i) hnu0
  calc _ ≤ (2 : ℝ) ^ (-(p : ℤ) - 1) * nu := mul_le_mul_of_nonneg_left (h1 i j) hu
    _ ≤ 1 * (2 : ℝ) ^ (-(p : ℤ) - 1) * (mu * nu) * nu := by
      have := mul_le_mul_of_nonneg_left h2 hu
      nlinarith

theorem stableClt_u (p : ℕ) : (stableClt p).u = (2 : ℝ) ^ (-(p : ℤ) - 1) := rfl

theorem stableClt_inv (p : ℕ) : StableInv (stableClt p).u 1 (stableClt p).inv := rounded_inverse_stable p

theorem stableClt_inv6 (p : ℕ) : StableInv (stableClt p).u 1 (stableClt p).inv6 := rounded_inverse_stable p

/-- Enough bits for a given relative error. -/
theorem enough_bits {t : ℝ} (ht : 0 < t) : ∃ p0 : ℕ, ∀ p ≥ p0, (2 : ℝ) ^ (-(p : ℤ) - 1) ≤ t := by
  obtain ⟨p0, hp0⟩ := exists_pow_lt_of_lt_one ht (show (1 / 2 : ℝ) < 1 by norm_num)
  refine ⟨p0, fun p hp => le_trans ?_ hp0.le⟩
  rw [one_div, inv_pow, ← zpow_natCast, ← _root_.zpow_neg]
  exact zpow_le_zpow_right₀ (by norm_num) (by omega)

/-- Non-vacuity for C115_tables: the unsymmetric carbon stack [0, 45, 30] under any load, rounded to nearest with enough bits. -/
example (N : V6) : ∃ (l : Lam) (rows : List Row) (p0 : ℕ), Lam.init (.angles [0, 45, 30]) (.single carbon) = .ok l ∧ calculateStress l N = .ok rows ∧
    ∀ p ≥ p0, ∃ rows', (stableClt p).calculateStress l.layup N = .ok rows' ∧ List.Forall₂ (RowClose (1 / 10 ^ 6)) rows' rows := by
  obtain ⟨l, hl, hs, hlay, hne, hadm⟩ := carbon_list [0, 45, 30] (by simp)
  obtain ⟨A, D, M, -, -, hM, -, -, -, hdet⟩ := C15_posDef l hs hne hadm
  have hpoisson : poissonProduct carbon = 1 / 16 * (10300 / 132000) := by simp only [poissonProduct, carbon]; norm_num
  have hp : ∀ p ∈ l.layup, 0 ≤ poissonProduct p.2 ∧ poissonProduct p.2 < 1 := by
    intro p hp
    rw [hlay] at hp
    obtain ⟨a, -, rfl⟩ := List.mem_map.mp hp
    rw [hpoisson]; norm_num
  obtain ⟨t, ht, h⟩ := C115_tables l hs (fun p hp => (hadm p hp).1.le) hp hM (R := M⁻¹) (by simp [npInv, hdet]) N zero_le_one (eps := 1 / 10 ^ 6) (by norm_num)
  obtain ⟨p0, hp0⟩ := enough_bits ht
  obtain ⟨-, rows, -, h1, -⟩ := h (stableClt p0) (hp0 p0 le_rfl) (stableClt_inv p0) (stableClt_inv6 p0)
  refine ⟨l, rows, p0, hl, h1, fun p hp => ?_⟩
  obtain ⟨-, rows₂, rows', h1', h2, h3⟩ := h (stableClt p) (hp0 p hp) (stableClt_inv p) (stableClt_inv6 p)
  rw [h1] at h1'
  obtain rfl : rows = rows₂ := by cases h1'; rfl
  exact ⟨rows', h2, h3⟩

/-- Non-vacuity for C115_multipliers: a clamped plate of the carbon stack [0, 45, 30]; it has a multiplier, which enough bits compute to six digits. -/
example : ∃ (l : Lam) (K KG : SqMat (2 * 2)) (p0 : ℕ) (lam : ℝ), Lam.init (.angles [0, 45, 30]) (.single carbon) = .ok l ∧
    calcKKGD shipped l.D (.str wCLAMPED) ⟨1, 1, -1, 0, 0, 2, 2⟩ = .ok (K, KG) ∧ IsKth K KG 1 lam ∧
    ∀ p ≥ p0, ∃ (K' KG' : SqMat (2 * 2)) (lam' : ℝ),
      (stableClt p).calcKKGD shipped ((stableClt p).stiffness l.layup (stableClt p).wD) (.str wCLAMPED) ⟨1, 1, -1, 0, 0, 2, 2⟩ = .ok (K', KG') ∧
      IsKth K' KG' 1 lam' ∧ |lam' - lam| ≤ 1 / 10 ^ 6 * lam := by
  obtain ⟨l, hl, hs, hlay, hne, hadm⟩ := carbon_list [0, 45, 30] (by simp)
  obtain ⟨A, D, M, -, hD, -, -, hpD, -, -⟩ := C15_posDef l hs hne hadm
  have hpoisson : poissonProduct carbon = 1 / 16 * (10300 / 132000) := by simp only [poissonProduct, carbon]; norm_num
  have hp : ∀ p ∈ l.layup, 0 ≤ poissonProduct p.2 ∧ poissonProduct p.2 < 1 := by
    intro p hp
    rw [hlay] at hp
    obtain ⟨a, -, rfl⟩ := List.mem_map.mp hp
    rw [hpoisson]; norm_num
  set q : PlateNum := ⟨1, 1, -1, 0, 0, 2, 2⟩ with hq
  have hpD' : D.PosDef := posDef_of_pos hpD.1 hpD.2
  obtain ⟨w, -, hf⟩ := clamped_forms 2 2 (by norm_num) (by norm_num)
  obtain ⟨K, KG, h⟩ : ∃ K KG : SqMat (2 * 2), calcKKGD shipped (.ok D) (.str wCLAMPED) q = .ok (K, KG) := ⟨_, _, hf D 1 1 (-1) 0 0 one_ne_zero one_ne_zero⟩
  have hpd : K.PosDef := clamped_posDef (p := q) hpD' one_pos one_pos (by norm_num) (by norm_num) (by norm_num) (by norm_num) h
  have hsym := (C48_symmetric _ _ q (by norm_num) (by norm_num) K KG h).2
  obtain ⟨lam0, -, hlam0⟩ := C89_rayleigh D hpD' q one_pos one_pos (by norm_num) (by norm_num) (by norm_num) (by norm_num) (by norm_num [hq]) K KG h
  obtain ⟨lam, hlam⟩ := exists_min_posMult hpd hsym ⟨_, hlam0⟩
  have hk : IsKth K KG 1 lam := (kth_one hpd hsym lam).mpr hlam
  rw [← hD] at h
  obtain ⟨t, ht, hall⟩ := C115_multipliers l hs (fun p hp => (hadm p hp).1.le) hp (.str wCLAMPED) q one_pos one_pos (by norm_num) (by norm_num) K KG h hpd
    zero_le_one (eps := 1 / 10 ^ 6) (by norm_num)
  obtain ⟨p0, hp0⟩ := enough_bits ht
  refine ⟨l, K, KG, p0, lam, hl, h, hk, fun p hp => ?_⟩
  obtain ⟨K', KG', h1, -, -, -, h2⟩ := hall (stableClt p).toFloatLib (hp0 p hp) (stableClt_inv p)
  obtain ⟨lam', h3, h4⟩ := h2 1 lam le_rfl hk
  exact ⟨K', KG', lam', h1, h3, h4⟩

/-- Non-vacuity for C115_verdict: a stack of two plies under a unit load, all allowables 10: no stress is on its allowable, and with enough bits no margin of the table is
negative. -/
example : ∃ (l : Lam) (p0 : ℕ), Lam.init (.angles [30, 45]) (.single exPly) = .ok l ∧
    ∀ p ≥ p0, ∃ ms, (stableClt p).calculateMargin l exN = .ok ms ∧ ms.length = 4 ∧ ∀ r ∈ ms, ∀ i, AtLeast 0 (r.margin i) := by
  obtain ⟨l, hl, hlay⟩ := C10_single [30, 45] exPly
  simp only [List.map_cons, List.map_nil] at hlay
  have hs : IsStack l := ⟨_, _, hl⟩
  have hmem : ∀ p ∈ l.layup, p.2 = exPly := by
    intro p hp
    rw [hlay] at hp
    have h2 : p = (30, exPly) ∨ p = (45, exPly) := by simpa using hp
    rcases h2 with rfl | rfl <;> rfl
  have hv : ∀ p ∈ l.layup, ∀ v, p.2.allowables = .ok v → ∀ i, v i = 10 := by
    intro p hp v hv i
    rw [hmem p hp] at hv
    simp only [exPly, Mat.allowables, Except.ok.injEq] at hv
    subst hv
    fin_cases i <;> rfl
  have he : epsilon0 l exN = .ok (exInv *ᵥ exN) := by simp [epsilon0, exABD_eq l hs hlay, exInv_eq]
  obtain ⟨rows, hrows⟩ : ∃ rows, calculateStress l exN = .ok rows := by
    rw [hs.stress_eq, he]; exact ⟨_, rfl⟩
  obtain ⟨x1, x2⟩ := exRows l hs hlay rows hrows
  obtain ⟨t, ht, h⟩ := C115_verdict l hs (fun p hp => by rw [hmem p hp]; norm_num [exPly, Mat.thickness])
    (fun p hp => by rw [hmem p hp]; norm_num [exPly, poissonProduct]) (exABD_eq l hs hlay) exInv_eq exN (fun p hp => ⟨_, hmem p hp⟩)
    (fun p hp v hv' i => by rw [hv p hp v hv' i]; norm_num) rows hrows zero_le_one
  obtain ⟨p0, hp0⟩ := enough_bits ht
  refine ⟨l, p0, hl, fun p hp => ?_⟩
  obtain ⟨ms, h1, h2, h3⟩ := h (stableClt p) (hp0 p hp) (stableClt_inv p) (stableClt_inv6 p)
  refine ⟨ms, h1, h2.trans x1, fun r hr => ?_⟩
  obtain ⟨j, hj, rfl⟩ := List.mem_iff_getElem.mp hr
  obtain ⟨q, v, y1, y2, -, -, y3⟩ := h3 j _ _ (List.getElem?_eq_getElem hj) (List.getElem?_eq_getElem (h2 ▸ hj))
  have hv10 := hv q (List.mem_of_getElem? y1) v y2
  obtain ⟨a, ha⟩ := x2 _ (List.getElem_mem (h2 ▸ hj))
  have hc : |cosd a| ≤ 1 := Real.abs_cos_le_one _
  have hsn : |sind a| ≤ 1 := Real.abs_sin_le_one _
  have b0 : cosd a ^ 2 ≤ 1 := by rw [← sq_abs]; nlinarith [abs_nonneg (cosd a)]
  have b1 : sind a ^ 2 ≤ 1 := by rw [← sq_abs]; nlinarith [abs_nonneg (sind a)]
  have b2 : |cosd a * sind a| ≤ 1 := by rw [abs_mul]; nlinarith [abs_nonneg (cosd a), abs_nonneg (sind a)]
  have c0 := sq_nonneg (cosd a)
  have c1 := sq_nonneg (sind a)
  rw [ha] at y3
  have s0 : (Treal a *ᵥ ![1, 0, 0]) 0 = cosd a ^ 2 := by simp [Treal, Matrix.mulVec, dotProduct, Fin.sum_univ_three]
  have s1 : (Treal a *ᵥ ![1, 0, 0]) 1 = sind a ^ 2 := by simp [Treal, Matrix.mulVec, dotProduct, Fin.sum_univ_three]
  have s2 : (Treal a *ᵥ ![1, 0, 0]) 2 = -(cosd a * sind a) := by simp [Treal, Matrix.mulVec, dotProduct, Fin.sum_univ_three]
  refine (y3 ?_).mpr ?_
  · refine ⟨?_, ?_, ?_, ?_, ?_⟩ <;> simp only [hv10, s0, s1, s2, abs_neg] <;> apply ne_of_lt <;> linarith
  · constructor <;> simp only [hv10, s0, s1, s2, abs_neg] <;> linarith

end Composipy
