import Verif.Props.Laminate
import Mathlib.Data.List.Perm.Basic
import Mathlib.Algebra.BigOperators.Group.List.Basic

/-!
# C16 - C18, C21, C22: ply order, symmetric and balanced stacks, scaling, splitting
-/

namespace Composipy
open Spec Matrix

theorem allOk_iff_mem {L L' : List (ℝ × Mat)} (h : ∀ p, p ∈ L ↔ p ∈ L') : AllOk L ↔ AllOk L' := by
  simp only [AllOk, h]

/-- Equality of loop matrices from equality of moments, including the failing case. -/
theorem loopMatrix_congr {l l' : Lam} {w w' : ℝ → ℝ → ℝ} (f : M3 → M3)
    (hok : AllOk l'.layup ↔ AllOk l.layup)
    (hm : AllOk l.layup → mom w' (bottom l'.layup) (l'.layup.map layer) =
      f (mom w (bottom l.layup) (l.layup.map layer))) :
    l'.loopMatrix w' = f <$> l.loopMatrix w := by
  by_cases h : AllOk l.layup
  · rw [l.loopMatrix_ok w h, l'.loopMatrix_ok w' (hok.mpr h), hm h]; rfl
  · rw [l.loopMatrix_err w h, l'.loopMatrix_err w' (fun h' => h (hok.mp h'))]; rfl

theorem map_id_except (x : Except PyErr M3) : id <$> x = x := by cases x <;> rfl

/-! ## C16 -/

/-- **C16** `A` does not depend on the ply order (both reads also fail together). -/
theorem C16_A_perm (l l' : Lam) (hs : IsStack l) (hs' : IsStack l') (h : l'.layup.Perm l.layup) :
    l'.A = l.A := by
  rw [hs.A_eq, hs'.A_eq]
  refine (loopMatrix_congr id (allOk_iff_mem fun p => h.mem_iff) fun _ => ?_).trans (map_id_except _)
  rw [mom_wA, mom_wA, id]
  exact ((h.map layer).map _).sum_eq

/-! ## C17 -/

theorem totalThickness_reverse (L : List (ℝ × Mat)) : totalThickness L.reverse = totalThickness L := by
  simp [totalThickness_eq, List.sum_reverse]

theorem mom_layup_reverse (w : ℝ → ℝ → ℝ) (L : List (ℝ × Mat)) :
    mom w (bottom L.reverse) (L.reverse.map layer) =
      mom (fun a b => w (-b) (-a)) (bottom L) (L.map layer) := by
  rw [← mom_reverse, map_layer_fst, bottom_add, List.map_reverse]
  congr 1
  simp only [bottom, totalThickness_reverse]; ring

/-- **C17** reversing a stack keeps `A` and `D` and negates `B`. -/
theorem C17_reverse (l l' : Lam) (hs : IsStack l) (hs' : IsStack l') (h : l'.layup = l.layup.reverse) :
    l'.A = l.A ∧ l'.B = (fun M => -M) <$> l.B ∧ l'.D = l.D := by
  have hok : AllOk l'.layup ↔ AllOk l.layup := allOk_iff_mem fun p => by simp [h]
  refine ⟨C16_A_perm l l' hs hs' (by rw [h]; exact List.reverse_perm _), ?_, ?_⟩
  · rw [Lam.B, Lam.B]
    refine loopMatrix_congr _ hok fun _ => ?_
    rw [h, mom_layup_reverse, ← mom_neg_weight]
    congr 1
    funext a b; simp [wB]; ring
  · rw [hs.D_eq, hs'.D_eq]
    refine (loopMatrix_congr id hok fun _ => ?_).trans (map_id_except _)
    rw [h, mom_layup_reverse, id]
    congr 1
    funext a b; simp [wD]; ring

/-- **C17** a symmetric stack has `B = 0`. -/
theorem C17_symmetric_B_zero (l : Lam) (hs : IsStack l) (h : l.layup.reverse = l.layup) (B : M3)
    (hB : l.B = .ok B) : B = 0 := by
  have h1 := (C17_reverse l l hs hs h.symm).2.1
  rw [hB] at h1
  simp only [ok_map, Except.ok.injEq] at h1
  ext i j
  have := congrFun (congrFun h1 i) j
  simp at this
  simpa using self_eq_neg.mp this

/-! ## C18 -/

theorem flipShear_add (A B : M3) : flipShear (A + B) = flipShear A + flipShear B := by
  ext i j; fin_cases i <;> fin_cases j <;> simp [flipShear] <;> ring

theorem flipShear_smul (c : ℝ) (A : M3) : flipShear (c • A) = c • flipShear A := by
  ext i j; fin_cases i <;> fin_cases j <;> simp [flipShear]

/-- `flipShear` as a linear map. -/
def flipShearL : M3 →ₗ[ℝ] M3 :=
  { toFun := flipShear, map_add' := flipShear_add, map_smul' := flipShear_smul }

theorem plyQ!_neg (t : ℝ) (m : Mat) : plyQ! (-t, m) = flipShear (plyQ! (t, m)) := by
  unfold plyQ!
  rw [C12_opposite_angle]
  cases plyQ (t, m) with
  | ok Q => rfl
  | error e =>
    simp only [error_map]
    ext i j; fin_cases i <;> fin_cases j <;> simp [flipShear]

theorem allOk_neg (L : List (ℝ × Mat)) : AllOk (negLayup L) ↔ AllOk L := by
  simp only [AllOk, plyQ_ok_iff, negLayup, List.mem_map]
  constructor
  · intro h p hp; exact h (-p.1, p.2) ⟨p, hp, rfl⟩
  · rintro h q ⟨p, hp, rfl⟩; exact h p hp

theorem mom_negLayup (w : ℝ → ℝ → ℝ) (L : List (ℝ × Mat)) :
    mom w (bottom (negLayup L)) ((negLayup L).map layer) =
      flipShear (mom w (bottom L) (L.map layer)) := by
  have h1 : (negLayup L).map layer = (L.map layer).map fun p => (p.1, flipShearL p.2) := by
    simp only [negLayup, List.map_map]
    apply List.map_congr_left
    intro p _
    simp only [Function.comp, layer, plyQ!_neg]
    rfl
  have h2 : bottom (negLayup L) = bottom L := by
    simp [bottom, totalThickness_eq, negLayup, Function.comp_def]
  rw [h1, h2, mom_map_linear]
  rfl

/-- **C18** changing the sign of all angles flips the shear-coupling terms of `A`, `B`, `D`. -/
theorem C18_negated_angles (l l' : Lam) (hs : IsStack l) (hs' : IsStack l')
    (h : l'.layup = negLayup l.layup) :
    l'.A = flipShear <$> l.A ∧ l'.B = flipShear <$> l.B ∧ l'.D = flipShear <$> l.D := by
  have hok : AllOk l'.layup ↔ AllOk l.layup := by rw [h, allOk_neg]
  rw [hs.A_eq, hs'.A_eq, hs.D_eq, hs'.D_eq, Lam.B, Lam.B]
  refine ⟨loopMatrix_congr _ hok fun _ => ?_, loopMatrix_congr _ hok fun _ => ?_,
    loopMatrix_congr _ hok fun _ => ?_⟩ <;> rw [h, mom_negLayup]

theorem stack_of_layup (L : List (ℝ × Mat)) : ∃ l, IsStack l ∧ l.layup = L := by
  refine ⟨⟨.angles (L.map Prod.fst), .list (L.map Prod.snd), (L.map Prod.fst).zip (L.map Prod.snd),
    .none, .none, .none, .none⟩, ⟨L.map Prod.fst, .list (L.map Prod.snd), by simp [Lam.init]⟩, ?_⟩
  simp [List.zip_map']

theorem flip_fix {M : M3} (h : M = flipShear M) :
    M 0 2 = 0 ∧ M 1 2 = 0 ∧ M 2 0 = 0 ∧ M 2 1 = 0 := by
  have h1 := congrFun (congrFun h 0) 2
  have h2 := congrFun (congrFun h 1) 2
  have h3 := congrFun (congrFun h 2) 0
  have h4 := congrFun (congrFun h 2) 1
  simp [flipShear] at h1 h2 h3 h4
  exact ⟨by linarith, by linarith, by linarith, by linarith⟩

/-- **C18** balanced stacks: every ply at `theta` is matched by an equal ply at `-theta`. -/
theorem C18_balanced_A (l : Lam) (hs : IsStack l) (h : (negLayup l.layup).Perm l.layup) (A : M3)
    (hA : l.A = .ok A) : A 0 2 = 0 ∧ A 1 2 = 0 ∧ A 2 0 = 0 ∧ A 2 1 = 0 := by
  obtain ⟨l', hs', hl'⟩ := stack_of_layup (negLayup l.layup)
  have h1 := (C18_negated_angles l l' hs hs' hl').1
  rw [C16_A_perm l l' hs hs' (by rw [hl']; exact h), hA] at h1
  simp only [ok_map, Except.ok.injEq] at h1
  exact flip_fix h1

/-- **C18** antisymmetric stacks (reversal negates the angles) have no bending shear coupling. -/
theorem C18_antisymmetric_D (l : Lam) (hs : IsStack l) (h : l.layup.reverse = negLayup l.layup)
    (A D : M3) (hA : l.A = .ok A) (hD : l.D = .ok D) :
    (A 0 2 = 0 ∧ A 1 2 = 0 ∧ A 2 0 = 0 ∧ A 2 1 = 0) ∧
    (D 0 2 = 0 ∧ D 1 2 = 0 ∧ D 2 0 = 0 ∧ D 2 1 = 0) := by
  obtain ⟨l', hs', hl'⟩ := stack_of_layup (negLayup l.layup)
  have h1 := C18_negated_angles l l' hs hs' hl'
  have h2 := C17_reverse l l' hs hs' (by rw [hl', h])
  rw [h2.1, hA, h2.2.2, hD] at h1
  simp only [ok_map, Except.ok.injEq] at h1
  exact ⟨flip_fix h1.1, flip_fix h1.2.2⟩

/-- No shear coupling in a matrix. -/
def NoShear (M : M3) : Prop := M 0 2 = 0 ∧ M 1 2 = 0 ∧ M 2 0 = 0 ∧ M 2 1 = 0

theorem mom_noShear (w : ℝ → ℝ → ℝ) (z : ℝ) (L : List (ℝ × M3)) (h : ∀ p ∈ L, NoShear p.2) :
    NoShear (mom w z L) := by
  induction L generalizing z with
  | nil => simp [mom, NoShear]
  | cons p L ih =>
    obtain ⟨t, Q⟩ := p
    obtain ⟨a, b, c, d⟩ := h (t, Q) (by simp)
    obtain ⟨a', b', c', d'⟩ := ih (z + t) fun q hq => h q (by simp [hq])
    simp only at a b c d
    simp [mom, NoShear, a, b, c, d, a', b', c', d']

theorem sind_mul_cosd_90 (k : ℤ) : sind (90 * k) * cosd (90 * k) = 0 := by
  have h : (2 : ℝ) * (90 * (k : ℝ) * Real.pi / 180) = k * Real.pi := by ring
  have h2 := Real.sin_int_mul_pi k
  rw [← h, Real.sin_two_mul] at h2
  simp only [sind, cosd]
  linarith

theorem plyQ!_cross (k : ℤ) (m : Mat) : NoShear (plyQ! (90 * (k : ℝ), m)) := by
  unfold plyQ!
  rw [plyQ_eq]
  cases hQ : m.Q0 with
  | error e => simp [NoShear]
  | ok Q =>
    obtain ⟨a, b, d, g, rfl⟩ := m.Q0_form Q hQ
    have h := sind_mul_cosd_90 k
    simp only [ok_map, NoShear]
    simp [rotQ, Teng, Matrix.mul_apply, Fin.sum_univ_three]
    refine ⟨?_, ?_, ?_, ?_⟩
    · linear_combination (cosd (90*↑k)^2*a + sind (90*↑k)^2*b - cosd (90*↑k)^2*b - sind (90*↑k)^2*d
        - 2*g*(cosd (90*↑k)^2 - sind (90*↑k)^2)) * h
    · linear_combination (sind (90*↑k)^2*a + cosd (90*↑k)^2*b - sind (90*↑k)^2*b - cosd (90*↑k)^2*d
        + 2*g*(cosd (90*↑k)^2 - sind (90*↑k)^2)) * h
    · linear_combination (cosd (90*↑k)^2*a + sind (90*↑k)^2*b - cosd (90*↑k)^2*b - sind (90*↑k)^2*d
        - 2*g*(cosd (90*↑k)^2 - sind (90*↑k)^2)) * h
    · linear_combination (sind (90*↑k)^2*a + cosd (90*↑k)^2*b - sind (90*↑k)^2*b - cosd (90*↑k)^2*d
        + 2*g*(cosd (90*↑k)^2 - sind (90*↑k)^2)) * h

/-- **C18** cross-ply stacks: all angles are multiples of 90 degrees. -/
theorem C18_crossply (l : Lam) (hs : IsStack l) (h : ∀ p ∈ l.layup, ∃ k : ℤ, p.1 = 90 * (k : ℝ))
    (A B D : M3) (hA : l.A = .ok A) (hB : l.B = .ok B) (hD : l.D = .ok D) :
    (A 0 2 = 0 ∧ A 1 2 = 0 ∧ A 2 0 = 0 ∧ A 2 1 = 0) ∧
    (B 0 2 = 0 ∧ B 1 2 = 0 ∧ B 2 0 = 0 ∧ B 2 1 = 0) ∧
    (D 0 2 = 0 ∧ D 1 2 = 0 ∧ D 2 0 = 0 ∧ D 2 1 = 0) := by
  rw [hs.A_eq] at hA
  rw [hs.D_eq] at hD
  rw [Lam.B] at hB
  have key : ∀ w M, l.loopMatrix w = .ok M → NoShear M := by
    intro w M hM
    by_cases hall : AllOk l.layup
    · rw [l.loopMatrix_ok w hall] at hM; cases hM
      apply mom_noShear
      intro p hp
      obtain ⟨q, hq, rfl⟩ := List.mem_map.mp hp
      obtain ⟨k, hk⟩ := h q hq
      have := plyQ!_cross k q.2
      simpa [layer, ← hk] using this
    · rw [l.loopMatrix_err w hall] at hM; cases hM
  exact ⟨key _ _ hA, key _ _ hB, key _ _ hD⟩

/-- Non-vacuity for C17/C18: `[45, -45, -45, 45]` is symmetric and balanced. -/
example (m : Mat) : ∃ l, Lam.init (.angles [45, -45, -45, 45]) (.single m) = .ok l ∧
    l.layup.reverse = l.layup ∧ (negLayup l.layup).Perm l.layup := by
  refine ⟨_, rfl, by simp, ?_⟩
  simp only [negLayup, List.map, List.zip, List.range, List.length, List.zipWith, List.range.loop, neg_neg]
  exact (List.Perm.swap _ _ _).trans
    (((List.Perm.swap _ _ _).cons _).cons _)

/-- Non-vacuity for the antisymmetric case: `[45, -45]`. -/
example (m : Mat) : ∃ l, Lam.init (.angles [45, -45]) (.single m) = .ok l ∧
    l.layup.reverse = negLayup l.layup := by
  refine ⟨_, rfl, by simp [negLayup]⟩

/-! ## C21 -/

theorem withThickness_thickness (m : Mat) (t : ℝ) : (withThickness m t).thickness = t := by
  cases m <;> rfl

theorem withThickness_Q0 (m : Mat) (t : ℝ) : (withThickness m t).Q0 = m.Q0 := by
  cases m <;> rfl

theorem plyQ_withThickness (a : ℝ) (m : Mat) (t : ℝ) : plyQ (a, withThickness m t) = plyQ (a, m) := by
  rw [plyQ_eq, plyQ_eq, withThickness_Q0]

theorem layer_withThickness (a : ℝ) (m : Mat) (t : ℝ) :
    layer (a, withThickness m t) = (t, plyQ! (a, m)) := by
  simp only [layer, withThickness_thickness, plyQ!, plyQ_withThickness]

theorem bottom_scale (k : ℝ) (L : List (ℝ × Mat)) : bottom (scaleLayup k L) = k * bottom L := by
  simp only [bottom, totalThickness_eq, scaleLayup, List.map_map, Function.comp_def,
    withThickness_thickness]
  rw [List.sum_map_mul_left]; ring

theorem mom_scaleLayup (w : ℝ → ℝ → ℝ) (k : ℝ) (d : Nat)
    (hw : ∀ a b, w (k * a) (k * b) = k ^ d * w a b) (L : List (ℝ × Mat)) :
    mom w (bottom (scaleLayup k L)) ((scaleLayup k L).map layer) =
      k ^ d • mom w (bottom L) (L.map layer) := by
  rw [← mom_scale w k d hw, bottom_scale]
  congr 1
  simp only [scaleLayup, List.map_map]
  apply List.map_congr_left
  intro p _
  simp only [Function.comp, layer_withThickness]
  rfl

/-- **C21** scaling all thicknesses by `k` scales `A`, `B`, `D` by `k`, `k²`, `k³`. -/
theorem C21_scaling (l l' : Lam) (hs : IsStack l) (hs' : IsStack l') (k : ℝ)
    (h : l'.layup = scaleLayup k l.layup) :
    l'.A = (fun M => k • M) <$> l.A ∧ l'.B = (fun M => k ^ 2 • M) <$> l.B ∧
      l'.D = (fun M => k ^ 3 • M) <$> l.D := by
  have hok : AllOk l'.layup ↔ AllOk l.layup := by
    rw [h]
    simp only [AllOk, plyQ_ok_iff, scaleLayup, List.mem_map]
    constructor
    · intro h p hp
      have := h _ ⟨p, hp, rfl⟩
      simpa [withThickness_Q0] using this
    · rintro h q ⟨p, hp, rfl⟩
      simpa [withThickness_Q0] using h p hp
  rw [hs.A_eq, hs'.A_eq, hs.D_eq, hs'.D_eq, Lam.B, Lam.B]
  refine ⟨loopMatrix_congr _ hok fun _ => ?_, loopMatrix_congr _ hok fun _ => ?_,
    loopMatrix_congr _ hok fun _ => ?_⟩ <;> rw [h]
  · rw [mom_scaleLayup wA k 1 (by intro a b; simp [wA]; ring)]; simp
  · rw [mom_scaleLayup wB k 2 (by intro a b; simp [wB]; ring)]
  · rw [mom_scaleLayup wD k 3 (by intro a b; simp [wD]; ring)]

/-! ## C22 -/

theorem mom_middle (w : ℝ → ℝ → ℝ) (z : ℝ) (P M M' S : List (ℝ × M3))
    (hsum : (M.map Prod.fst).sum = (M'.map Prod.fst).sum) (hm : ∀ z, mom w z M = mom w z M') :
    mom w z (P ++ M ++ S) = mom w z (P ++ M' ++ S) := by
  simp only [mom_append, List.map_append, List.sum_append, hsum, hm]

/-- **C22** splitting a ply into two adjacent plies of the same material and angle changes nothing. -/
theorem C22_split (l l' : Lam) (hs : IsStack l) (hs' : IsStack l') (P S : List (ℝ × Mat)) (a : ℝ)
    (m : Mat) (t1 t2 : ℝ) (h : l.layup = P ++ [(a, withThickness m (t1 + t2))] ++ S)
    (h' : l'.layup = P ++ [(a, withThickness m t1), (a, withThickness m t2)] ++ S) :
    l'.A = l.A ∧ l'.B = l.B ∧ l'.D = l.D := by
  have hok : AllOk l'.layup ↔ AllOk l.layup := by
    rw [h, h']
    simp only [AllOk, plyQ_ok_iff, List.mem_append, List.mem_cons, List.not_mem_nil, or_false]
    constructor
    · intro H p hp
      rcases hp with (hp | rfl) | hp
      · exact H p (Or.inl (Or.inl hp))
      · have := H (a, withThickness m t1) (Or.inl (Or.inr (Or.inl rfl)))
        simpa [withThickness_Q0] using this
      · exact H p (Or.inr hp)
    · intro H p hp
      rcases hp with (hp | rfl | rfl) | hp
      · exact H p (Or.inl (Or.inl hp))
      · have := H (a, withThickness m (t1 + t2)) (Or.inl (Or.inr rfl))
        simpa [withThickness_Q0] using this
      · have := H (a, withThickness m (t1 + t2)) (Or.inl (Or.inr rfl))
        simpa [withThickness_Q0] using this
      · exact H p (Or.inr hp)
  have hbot : bottom l'.layup = bottom l.layup := by
    simp [bottom, totalThickness_eq, h, h', withThickness_thickness]; ring
  have key : ∀ w : ℝ → ℝ → ℝ, (∀ a b c, w a b + w b c = w a c) →
      l'.loopMatrix w = l.loopMatrix w := by
    intro w hw
    refine (loopMatrix_congr id hok fun _ => ?_).trans (map_id_except _)
    rw [hbot, h, h', id]
    simp only [List.map_append, List.map_cons, List.map_nil, layer_withThickness]
    refine mom_middle _ _ _ _ _ _ (by simp) fun z => ?_
    rw [mom_split w hw]
  rw [hs.A_eq, hs'.A_eq, hs.D_eq, hs'.D_eq, Lam.B, Lam.B]
  exact ⟨key _ (by intro a b c; simp [wA]), key _ (by intro a b c; simp [wB]; ring),
    key _ (by intro a b c; simp [wD]; ring)⟩

/-- **C22** a zero-thickness ply with readable stiffness is inert. -/
theorem C22_zero_ply (l l' : Lam) (hs : IsStack l) (hs' : IsStack l') (P S : List (ℝ × Mat)) (a : ℝ)
    (m : Mat) (hm : ∃ Q, m.Q0 = .ok Q) (h : l.layup = P ++ S)
    (h' : l'.layup = P ++ [(a, withThickness m 0)] ++ S) :
    l'.A = l.A ∧ l'.B = l.B ∧ l'.D = l.D := by
  have hok : AllOk l'.layup ↔ AllOk l.layup := by
    rw [h, h']
    simp only [AllOk, plyQ_ok_iff, List.mem_append, List.mem_cons, List.not_mem_nil, or_false]
    constructor
    · intro H p hp
      rcases hp with hp | hp
      · exact H p (Or.inl (Or.inl hp))
      · exact H p (Or.inr hp)
    · intro H p hp
      rcases hp with (hp | rfl) | hp
      · exact H p (Or.inl hp)
      · simpa [withThickness_Q0] using hm
      · exact H p (Or.inr hp)
  have hbot : bottom l'.layup = bottom l.layup := by
    simp [bottom, totalThickness_eq, h, h', withThickness_thickness]
  have key : ∀ w : ℝ → ℝ → ℝ, (∀ a, w a a = 0) → l'.loopMatrix w = l.loopMatrix w := by
    intro w hw
    refine (loopMatrix_congr id hok fun _ => ?_).trans (map_id_except _)
    rw [hbot, h, h', id]
    simp only [List.map_append, List.map_cons, List.map_nil, layer_withThickness]
    have := mom_middle w (bottom (P ++ S)) (P.map layer) [(0, plyQ! (a, m))] [] (S.map layer) (by simp)
      (fun z => mom_zero_ply w hw z _ _)
    simpa using this
  rw [hs.A_eq, hs'.A_eq, hs.D_eq, hs'.D_eq, Lam.B, Lam.B]
  exact ⟨key _ (by intro a; simp [wA]), key _ (by intro a; simp [wB]), key _ (by intro a; simp [wD])⟩

/-- Non-vacuity for C21/C22: such layups exist as constructed laminates. -/
example : ∃ l l', IsStack l ∧ IsStack l' ∧ l.layup = [(0, carbon), (45, carbon)] ∧
    l'.layup = scaleLayup 2 l.layup := by
  obtain ⟨l, hs, hl⟩ := stack_of_layup [(0, carbon), (45, carbon)]
  obtain ⟨l', hs', hl'⟩ := stack_of_layup (scaleLayup 2 l.layup)
  exact ⟨l, l', hs, hs', hl, hl'⟩

end Composipy
