import Verif.Props.BucklingLaws
import Verif.Props.Invariants
import Mathlib.Topology.Algebra.Order.Field
import Mathlib.Analysis.SpecificLimits.Basic
import Mathlib.Topology.Instances.Matrix

/-!
# C96, C97: laminates put together from laminates; bounds by the weakest and the stiffest ply
-/

namespace Composipy
open Spec Matrix

section
variable {V : Type} [AddCommGroup V] [Module ℝ V]

theorem mom_wA_shift (z d : ℝ) (L : List (ℝ × V)) : mom wA (z + d) L = mom wA z L := by
  rw [mom_wA, mom_wA]

theorem mom_wB_shift (z d : ℝ) (L : List (ℝ × V)) : mom wB (z + d) L = mom wB z L + d • mom wA z L := by
  induction L generalizing z with
  | nil => simp [mom]
  | cons p L ih =>
    obtain ⟨t, Q⟩ := p
    simp only [mom]
    rw [show z + d + t = z + t + d by ring, ih (z + t), show wB (z + d) (z + t + d) = wB z (z + t) + d * wA z (z + t) by
      simp only [wB, wA]; ring]
    module

theorem mom_wD_shift (z d : ℝ) (L : List (ℝ × V)) :
    mom wD (z + d) L = mom wD z L + (2 * d) • mom wB z L + d ^ 2 • mom wA z L := by
  induction L generalizing z with
  | nil => simp [mom]
  | cons p L ih =>
    obtain ⟨t, Q⟩ := p
    simp only [mom]
    rw [show z + d + t = z + t + d by ring, ih (z + t),
      show wD (z + d) (z + t + d) = wD z (z + t) + 2 * d * wB z (z + t) + d ^ 2 * wA z (z + t) by
        simp only [wD, wB, wA]; ring]
    module

end

theorem height_eq (L : List (ℝ × Mat)) : totalThickness L = height L := totalThickness_eq L

theorem height_append (L L' : List (ℝ × Mat)) : height (L ++ L') = height L + height L' := by
  simp [height]

/-- **C96** one laminate on top of another: the parallel-axis formulas.  The lower part is moved down by half the height
of the upper one, the upper part up by half the height of the lower one. -/
theorem C96_stacked (l l1 l2 : Lam) (hs : IsStack l) (hs1 : IsStack l1) (hs2 : IsStack l2)
    (h : l.layup = l1.layup ++ l2.layup) (A1 B1 D1 A2 B2 D2 : M3) (hA1 : l1.A = .ok A1) (hB1 : l1.B = .ok B1)
    (hD1 : l1.D = .ok D1) (hA2 : l2.A = .ok A2) (hB2 : l2.B = .ok B2) (hD2 : l2.D = .ok D2) :
    l.A = .ok (A1 + A2) ∧
    l.B = .ok (B1 + B2 + (-(height l2.layup) / 2) • A1 + (height l1.layup / 2) • A2) ∧
    l.D = .ok (D1 + D2 + (-(height l2.layup)) • B1 + (height l1.layup) • B2 + (height l2.layup ^ 2 / 4) • A1 +
      (height l1.layup ^ 2 / 4) • A2) := by
  have ok1 : AllOk l1.layup := by
    by_contra hc
    rw [hs1.A_eq, l1.loopMatrix_err _ hc] at hA1; cases hA1
  have ok2 : AllOk l2.layup := by
    by_contra hc
    rw [hs2.A_eq, l2.loopMatrix_err _ hc] at hA2; cases hA2
  have ok : AllOk l.layup := by
    intro p hp
    rw [h] at hp
    rcases List.mem_append.mp hp with hp | hp
    · exact ok1 p hp
    · exact ok2 p hp
  rw [hs1.A_eq, l1.loopMatrix_ok _ ok1] at hA1
  rw [hs2.A_eq, l2.loopMatrix_ok _ ok2] at hA2
  rw [Lam.B, l1.loopMatrix_ok _ ok1] at hB1
  rw [Lam.B, l2.loopMatrix_ok _ ok2] at hB2
  rw [hs1.D_eq, l1.loopMatrix_ok _ ok1] at hD1
  rw [hs2.D_eq, l2.loopMatrix_ok _ ok2] at hD2
  obtain rfl := Except.ok.inj hA1
  obtain rfl := Except.ok.inj hA2
  obtain rfl := Except.ok.inj hB1
  obtain rfl := Except.ok.inj hB2
  obtain rfl := Except.ok.inj hD1
  obtain rfl := Except.ok.inj hD2
  have b1 : bottom l.layup = bottom l1.layup + -(height l2.layup) / 2 := by
    simp only [bottom, h, height_eq, height_append]; ring
  have b2 : bottom l.layup + ((l1.layup.map layer).map Prod.fst).sum = bottom l2.layup + height l1.layup / 2 := by
    rw [map_layer_fst]
    simp only [bottom, h, height_eq, height_append]; ring
  have key : ∀ w, l.loopMatrix w = .ok (mom w (bottom l1.layup + -(height l2.layup) / 2) (l1.layup.map layer) +
      mom w (bottom l2.layup + height l1.layup / 2) (l2.layup.map layer)) := by
    intro w
    rw [l.loopMatrix_ok w ok, ← b2, ← b1, h, List.map_append, mom_append]
  rw [hs.A_eq, hs.D_eq, Lam.B, key, key, key]
  refine ⟨?_, ?_, ?_⟩
  · rw [mom_wA_shift, mom_wA_shift]
  · rw [mom_wB_shift, mom_wB_shift]
    congr 1
    module
  · rw [mom_wD_shift, mom_wD_shift]
    congr 1
    module

/-- The layup of a group `(u/.../u)_n`. -/
def Spec.repeatLayup (n : ℕ) (L : List (ℝ × Mat)) : List (ℝ × Mat) := (List.replicate n L).flatten

theorem repeat_height (n : ℕ) (L : List (ℝ × Mat)) : height (repeatLayup n L) = n * height L := by
  induction n with
  | zero => simp [repeatLayup, height]
  | succ n ih =>
    rw [repeatLayup, List.replicate_succ, List.flatten_cons, height_append]
    rw [repeatLayup] at ih
    rw [ih]
    push_cast
    ring

theorem mom_repeat {V : Type} [AddCommGroup V] [Module ℝ V] (n : ℕ) (z : ℝ) (L : List (ℝ × V)) :
    mom wA z (List.replicate n L).flatten = (n : ℝ) • mom wA z L ∧
    mom wB z (List.replicate n L).flatten = (n : ℝ) • mom wB z L + ((L.map Prod.fst).sum * (n * (n - 1) / 2)) • mom wA z L ∧
    mom wD z (List.replicate n L).flatten = (n : ℝ) • mom wD z L + ((L.map Prod.fst).sum * (n * (n - 1))) • mom wB z L +
      ((L.map Prod.fst).sum ^ 2 * (n * (n - 1) * (2 * n - 1) / 6)) • mom wA z L := by
  induction n generalizing z with
  | zero => simp [mom]
  | succ n ih =>
    obtain ⟨h1, h2, h3⟩ := ih (z + (L.map Prod.fst).sum)
    simp only [List.replicate_succ, List.flatten_cons, mom_append]
    rw [h1, h2, h3, mom_wD_shift, mom_wB_shift, mom_wA_shift]
    push_cast
    refine ⟨by module, by module, by module⟩

/-- **C96** a sublaminate repeated `n` times: `A` and `B` are `n` times those of one copy, `D` gains the distance term. -/
theorem C96_repeated (l l1 : Lam) (hs : IsStack l) (hs1 : IsStack l1) (n : ℕ) (h : l.layup = repeatLayup n l1.layup)
    (A B D : M3) (hA : l1.A = .ok A) (hB : l1.B = .ok B) (hD : l1.D = .ok D) :
    l.A = .ok ((n : ℝ) • A) ∧ l.B = .ok ((n : ℝ) • B) ∧
    l.D = .ok ((n : ℝ) • D + (height l1.layup ^ 2 * (n * (n ^ 2 - 1)) / 12) • A) := by
  have ok1 : AllOk l1.layup := by
    by_contra hc
    rw [hs1.A_eq, l1.loopMatrix_err _ hc] at hA; cases hA
  have ok : AllOk l.layup := by
    intro p hp
    rw [h] at hp
    obtain ⟨L, hL, hp⟩ := List.mem_flatten.mp hp
    rw [List.eq_of_mem_replicate hL] at hp
    exact ok1 p hp
  rw [hs1.A_eq, l1.loopMatrix_ok _ ok1] at hA
  rw [Lam.B, l1.loopMatrix_ok _ ok1] at hB
  rw [hs1.D_eq, l1.loopMatrix_ok _ ok1] at hD
  obtain rfl := Except.ok.inj hA
  obtain rfl := Except.ok.inj hB
  obtain rfl := Except.ok.inj hD
  have hb : bottom l.layup = bottom l1.layup + -(height l1.layup * (n - 1)) / 2 := by
    simp only [bottom, h, height_eq, repeat_height]; ring
  have hsum : ((l1.layup.map layer).map Prod.fst).sum = height l1.layup := by rw [map_layer_fst, height_eq]
  have key : ∀ w, l.loopMatrix w =
      .ok (mom w (bottom l1.layup + -(height l1.layup * (n - 1)) / 2) (List.replicate n (l1.layup.map layer)).flatten) := by
    intro w
    rw [l.loopMatrix_ok w ok, hb, h, repeatLayup, List.map_flatten, List.map_replicate]
  obtain ⟨h1, h2, h3⟩ := mom_repeat n (bottom l1.layup + -(height l1.layup * (n - 1)) / 2) (l1.layup.map layer)
  rw [hs.A_eq, hs.D_eq, Lam.B, key, key, key, h1, h2, h3, hsum, mom_wD_shift, mom_wB_shift, mom_wA_shift]
  refine ⟨rfl, ?_, ?_⟩
  · congr 1
    module
  · congr 1
    module

/-- **C96** a stack followed by its mirror image (`s` in a stacking text): no coupling, and `D` from the half stack. -/
theorem C96_mirrored (l l1 l2 : Lam) (hs : IsStack l) (hs1 : IsStack l1) (hs2 : IsStack l2)
    (h : l.layup = l1.layup ++ l2.layup) (h2 : l2.layup = l1.layup.reverse)
    (A B D : M3) (hA : l1.A = .ok A) (hB : l1.B = .ok B) (hD : l1.D = .ok D) :
    l.A = .ok ((2 : ℝ) • A) ∧ l.B = .ok 0 ∧
    l.D = .ok ((2 : ℝ) • (D - height l1.layup • B + (height l1.layup ^ 2 / 4) • A)) := by
  obtain ⟨r1, r2, r3⟩ := C17_reverse l1 l2 hs1 hs2 h2
  rw [hA] at r1
  rw [hB] at r2
  rw [hD] at r3
  obtain ⟨k1, k2, k3⟩ := C96_stacked l l1 l2 hs hs1 hs2 h A B D A (-B) D hA hB hD r1 r2 r3
  have hh : height l2.layup = height l1.layup := by
    rw [h2, ← height_eq, ← height_eq, totalThickness_reverse]
  rw [hh] at k2 k3
  refine ⟨?_, ?_, ?_⟩
  · rw [k1]; congr 1; module
  · rw [k2]; congr 1; module
  · rw [k3]; congr 1; module

/-- **C96** many repetitions make a homogeneous plate: per unit of total thickness the coupling disappears and the bending
stiffness tends to that of a plate with the average ply stiffness `A/h`. -/
theorem C96_limit (l : ℕ → Lam) (l1 : Lam) (hs : ∀ n, IsStack (l n)) (hs1 : IsStack l1)
    (h : ∀ n, (l n).layup = repeatLayup n l1.layup) (hh : 0 < height l1.layup) (A B D : M3) (hA : l1.A = .ok A)
    (hB : l1.B = .ok B) (hD : l1.D = .ok D) (Bn Dn : ℕ → M3) (hBn : ∀ n, (l n).B = .ok (Bn n)) (hDn : ∀ n, (l n).D = .ok (Dn n))
    (i j : Fin 3) :
    Filter.Tendsto (fun n => Bn n i j / height (l n).layup ^ 2) Filter.atTop (nhds 0) ∧
    Filter.Tendsto (fun n => Dn n i j / (height (l n).layup ^ 3 / 12)) Filter.atTop (nhds (A i j / height l1.layup)) := by
  set H := height l1.layup with hH
  have e1 : ∀ n, Bn n i j = n * B i j := fun n => by
    obtain ⟨-, h2, -⟩ := C96_repeated (l n) l1 (hs n) hs1 n (h n) A B D hA hB hD
    rw [hBn n] at h2
    rw [Except.ok.inj h2]
    simp
  have e2 : ∀ n, Dn n i j = n * D i j + H ^ 2 * (n * (n ^ 2 - 1)) / 12 * A i j := fun n => by
    obtain ⟨-, -, h3⟩ := C96_repeated (l n) l1 (hs n) hs1 n (h n) A B D hA hB hD
    rw [hDn n] at h3
    rw [Except.ok.inj h3]
    simp [hH]
  have e3 : ∀ n, height (l n).layup = n * H := fun n => by rw [h n, repeat_height]
  have t1 := tendsto_one_div_atTop_nhds_zero_nat (𝕜 := ℝ)
  have t2 : Filter.Tendsto (fun n : ℕ => (1 / (n : ℝ)) ^ 2) Filter.atTop (nhds 0) := by simpa using t1.pow 2
  have hev : ∀ᶠ n : ℕ in Filter.atTop, (n : ℝ) ≠ 0 := by
    filter_upwards [Filter.eventually_ge_atTop 1] with n hn
    exact_mod_cast (by omega : n ≠ 0)
  constructor
  · have : Filter.Tendsto (fun n : ℕ => (1 / (n : ℝ)) * (B i j / H ^ 2)) Filter.atTop (nhds 0) := by
      simpa using t1.mul_const (B i j / H ^ 2)
    refine this.congr' ?_
    filter_upwards [hev] with n hn
    rw [e1, e3]
    field_simp
  · have : Filter.Tendsto (fun n : ℕ => A i j / H + (1 / (n : ℝ)) ^ 2 * (12 * D i j / H ^ 3 - A i j / H)) Filter.atTop
        (nhds (A i j / H)) := by
      simpa using (t2.mul_const (12 * D i j / H ^ 3 - A i j / H)).const_add (A i j / H)
    refine this.congr' ?_
    filter_upwards [hev] with n hn
    rw [e2, e3]
    field_simp
    ring

/-- Non-vacuity for C96: `(0/45/30)_n` of carbon plies. -/
example : ∃ (l : ℕ → Lam) (l1 : Lam) (A B D : M3), (∀ n, IsStack (l n)) ∧ IsStack l1 ∧
    (∀ n, (l n).layup = repeatLayup n l1.layup) ∧ 0 < height l1.layup ∧ l1.layup.length = 3 ∧
    l1.A = .ok A ∧ l1.B = .ok B ∧ l1.D = .ok D := by
  have hex : ∀ s, ∃ l, Lam.init (.angles s) (.single carbon) = .ok l ∧ l.layup = s.map fun a => (a, carbon) :=
    fun s => C10_single s carbon
  choose f hf1 hf2 using hex
  have ok : ∀ p ∈ (f [0, 45, 30]).layup, ∃ Q, p.2.Q0 = .ok Q := by
    intro p hp
    rw [hf2] at hp
    obtain ⟨a, -, rfl⟩ := List.mem_map.mp hp
    obtain ⟨-, Q, hQ, -⟩ := carbon_admissible a
    exact ⟨Q, hQ⟩
  obtain ⟨h1, h2, h3⟩ := C13_readable_iff (f [0, 45, 30]) ⟨_, _, hf1 _⟩
  obtain ⟨A, hA⟩ := h1.mpr ok
  obtain ⟨B, hB⟩ := h2.mpr ok
  obtain ⟨D, hD⟩ := h3.mpr ok
  refine ⟨fun n => f (List.replicate n [0, 45, 30]).flatten, f [0, 45, 30], A, B, D, fun n => ⟨_, _, hf1 _⟩, ⟨_, _, hf1 _⟩,
    fun n => ?_, ?_, by simp [hf2], hA, hB, hD⟩
  · simp only [hf2, repeatLayup, List.map_flatten, List.map_replicate]
  · simp [hf2, height, carbon, Mat.thickness]
    norm_num

/-! ## C97 -/

theorem stackEnergy_mono (z : ℝ) (L : List (ℝ × M3)) (f g : M3 → M3)
    (hL : ∀ p ∈ L, 0 ≤ p.1 ∧ (f p.2).IsSymm ∧ (g p.2).IsSymm ∧ ∀ x : Fin 3 → ℝ, x ⬝ᵥ (f p.2 *ᵥ x) ≤ x ⬝ᵥ (g p.2 *ᵥ x))
    (e k : Fin 3 → ℝ) :
    stackEnergy z (L.map fun p => (p.1, f p.2)) e k ≤ stackEnergy z (L.map fun p => (p.1, g p.2)) e k := by
  induction L generalizing z with
  | nil => exact le_refl _
  | cons p L ih =>
    obtain ⟨t, Q⟩ := p
    obtain ⟨ht, hf, hg, hle⟩ := hL (t, Q) (by simp)
    simp only at ht hf hg hle
    simp only [List.map_cons]
    rw [stackEnergy_cons z t _ hf, stackEnergy_cons z t _ hg]
    have h1 := mul_le_mul_of_nonneg_left (hle (e + (z + t / 2) • k)) ht
    have h2 := mul_le_mul_of_nonneg_left (hle k) (show 0 ≤ t ^ 3 / 12 by positivity)
    have h3 := ih (z + t) fun p hp => hL p (by simp [hp])
    linarith

theorem stackEnergy_const (l : List (ℝ × Mat)) (P : M3) (e k : Fin 3 → ℝ) :
    stackEnergy (bottom l) ((l.map layer).map fun p => (p.1, P)) e k =
      height l * (e ⬝ᵥ (P *ᵥ e)) + height l ^ 3 / 12 * (k ⬝ᵥ (P *ᵥ k)) := by
  have hL : ∀ p ∈ (l.map layer).map fun p => (p.1, P), p.2 = P := by
    intro p hp
    obtain ⟨q, -, rfl⟩ := List.mem_map.mp hp
    rfl
  have hsum : (((l.map layer).map fun p => (p.1, P)).map Prod.fst).sum = height l := by
    simp [height, layer, Function.comp_def]
  have hb : bottom l = -height l / 2 := by rw [bottom, height_eq]
  rw [stackEnergy, mom_same _ (by simp [wA]) (by intro a b c; simp [wA]) _ P _ hL,
    mom_same _ (by simp [wB]) (by intro a b c; simp [wB]; ring) _ P _ hL,
    mom_same _ (by simp [wD]) (by intro a b c; simp [wD]; ring) _ P _ hL, hsum, hb]
  simp only [Matrix.smul_mulVec, dotProduct_smul, smul_eq_mul, wA, wB, wD]
  ring

/-- Every ply stiffness (in plate axes) is at least `P` as a quadratic form. -/
def Spec.PliesAbove (l : Lam) (P : M3) : Prop :=
  ∀ p ∈ l.layup, ∀ Q, plyQ p = .ok Q → ∀ x : Fin 3 → ℝ, x ⬝ᵥ (P *ᵥ x) ≤ x ⬝ᵥ (Q *ᵥ x)

/-- Every ply stiffness (in plate axes) is at most `P` as a quadratic form. -/
def Spec.PliesBelow (l : Lam) (P : M3) : Prop :=
  ∀ p ∈ l.layup, ∀ Q, plyQ p = .ok Q → ∀ x : Fin 3 → ℝ, x ⬝ᵥ (Q *ᵥ x) ≤ x ⬝ᵥ (P *ᵥ x)

/-- **C97** the laminate lies between the homogeneous plates of its weakest and its stiffest ply: this holds for the energy of
any strain `e` and curvature `k`. -/
theorem C97_energy (l : Lam) (hs : IsStack l) (ht : NonnegThick l.layup) (lo hi : M3) (hlo : lo.IsSymm) (hhi : hi.IsSymm)
    (h1 : PliesAbove l lo) (h2 : PliesBelow l hi) (M : M6) (hM : l.ABD = .ok M) (e k : Fin 3 → ℝ) :
    height l.layup * (e ⬝ᵥ (lo *ᵥ e)) + height l.layup ^ 3 / 12 * (k ⬝ᵥ (lo *ᵥ k)) ≤ Sum.elim e k ⬝ᵥ (M *ᵥ Sum.elim e k) ∧
    Sum.elim e k ⬝ᵥ (M *ᵥ Sum.elim e k) ≤
      height l.layup * (e ⬝ᵥ (hi *ᵥ e)) + height l.layup ^ 3 / 12 * (k ⬝ᵥ (hi *ᵥ k)) := by
  have hall : AllOk l.layup := by
    by_contra hc
    have : l.A = .error .zeroDivisionError := by rw [hs.A_eq, l.loopMatrix_err _ hc]
    rw [Lam.ABD, this] at hM
    cases hM
  have hA : l.A = .ok (mom wA (bottom l.layup) (l.layup.map layer)) := by rw [hs.A_eq, l.loopMatrix_ok _ hall]
  have hB : l.B = .ok (mom wB (bottom l.layup) (l.layup.map layer)) := by rw [Lam.B, l.loopMatrix_ok _ hall]
  have hD : l.D = .ok (mom wD (bottom l.layup) (l.layup.map layer)) := by rw [hs.D_eq, l.loopMatrix_ok _ hall]
  rw [C14_ABD_readable l _ _ _ hA hB hD] at hM
  obtain rfl := Except.ok.inj hM
  rw [fromBlocks_quad _ _ _ (B_isSymm l _ hB)]
  have hE : (Sum.elim e k ∘ Sum.inl) ⬝ᵥ (mom wA (bottom l.layup) (l.layup.map layer) *ᵥ (Sum.elim e k ∘ Sum.inl)) +
      2 * ((Sum.elim e k ∘ Sum.inl) ⬝ᵥ (mom wB (bottom l.layup) (l.layup.map layer) *ᵥ (Sum.elim e k ∘ Sum.inr))) +
      (Sum.elim e k ∘ Sum.inr) ⬝ᵥ (mom wD (bottom l.layup) (l.layup.map layer) *ᵥ (Sum.elim e k ∘ Sum.inr)) =
      stackEnergy (bottom l.layup) ((l.layup.map layer).map fun p => (p.1, p.2)) e k := by
    simp only [stackEnergy, Prod.mk.eta, List.map_id', Sum.elim_comp_inl, Sum.elim_comp_inr]
  rw [hE, ← stackEnergy_const, ← stackEnergy_const]
  have hlay : ∀ p ∈ l.layup.map layer, ∃ q ∈ l.layup, p = layer q ∧ plyQ q = .ok p.2 := by
    intro p hp
    obtain ⟨q, hq, rfl⟩ := List.mem_map.mp hp
    exact ⟨q, hq, rfl, plyQ_of_ok (hall q hq)⟩
  constructor
  · refine stackEnergy_mono _ _ (fun _ => lo) (fun Q => Q) (fun p hp => ?_) e k
    obtain ⟨q, hq, rfl, hQ⟩ := hlay p hp
    exact ⟨ht q hq, hlo, plyQ!_isSymm q, h1 q hq _ hQ⟩
  · refine stackEnergy_mono _ _ (fun Q => Q) (fun _ => hi) (fun p hp => ?_) e k
    obtain ⟨q, hq, rfl, hQ⟩ := hlay p hp
    exact ⟨ht q hq, plyQ!_isSymm q, hhi, h2 q hq _ hQ⟩

/-- **C97** in particular `h lo <= A <= h hi` and `h³/12 lo <= D <= h³/12 hi` as quadratic forms. -/
theorem C97_A_D (l : Lam) (hs : IsStack l) (ht : NonnegThick l.layup) (lo hi : M3) (hlo : lo.IsSymm) (hhi : hi.IsSymm)
    (h1 : PliesAbove l lo) (h2 : PliesBelow l hi) (A D : M3) (hA : l.A = .ok A) (hD : l.D = .ok D) (x : Fin 3 → ℝ) :
    (height l.layup * (x ⬝ᵥ (lo *ᵥ x)) ≤ x ⬝ᵥ (A *ᵥ x) ∧ x ⬝ᵥ (A *ᵥ x) ≤ height l.layup * (x ⬝ᵥ (hi *ᵥ x))) ∧
    (height l.layup ^ 3 / 12 * (x ⬝ᵥ (lo *ᵥ x)) ≤ x ⬝ᵥ (D *ᵥ x) ∧ x ⬝ᵥ (D *ᵥ x) ≤ height l.layup ^ 3 / 12 * (x ⬝ᵥ (hi *ᵥ x))) := by
  obtain ⟨B, hB⟩ : ∃ B, l.B = .ok B :=
    (C13_readable_iff l hs).2.1.mpr ((C13_readable_iff l hs).1.mp ⟨A, hA⟩)
  have hM := C14_ABD_readable l A B D hA hB hD
  have k1 := C97_energy l hs ht lo hi hlo hhi h1 h2 _ hM x 0
  have k2 := C97_energy l hs ht lo hi hlo hhi h1 h2 _ hM 0 x
  rw [fromBlocks_quad _ _ _ (B_isSymm l _ hB)] at k1 k2
  simp only [Sum.elim_comp_inl, Sum.elim_comp_inr, Matrix.mulVec_zero, dotProduct_zero, zero_dotProduct, mul_zero, add_zero,
    zero_add] at k1 k2
  exact ⟨k1, k2⟩

theorem posSemidef_of_quad {P Q : M3} (hP : P.IsSymm) (hQ : Q.IsSymm) (h : ∀ x : Fin 3 → ℝ, x ⬝ᵥ (P *ᵥ x) ≤ x ⬝ᵥ (Q *ᵥ x)) :
    (Q - P).PosSemidef := by
  refine Matrix.PosSemidef.of_dotProduct_mulVec_nonneg ?_ fun x => ?_
  · rw [Matrix.IsHermitian, Matrix.conjTranspose_eq_transpose_of_trivial, Matrix.transpose_sub, hP.eq, hQ.eq]
  · simp only [star_trivial, Matrix.sub_mulVec, dotProduct_sub]
    have := h x
    linarith

/-- **C97** the same for buckling: a clamped laminate buckles no earlier than the homogeneous plate of its weakest ply and no
later than that of its stiffest ply. -/
theorem C97_buckling (l : Lam) (hs : IsStack l) (ht : NonnegThick l.layup) (hh : 0 < height l.layup) (lo hi : M3) (hlo : lo.PosDef)
    (hhi : hi.IsSymm) (h1 : PliesAbove l lo) (h2 : PliesBelow l hi) (D : M3) (hD : l.D = .ok D) (a b : ℝ) (ha : 0 < a) (hb : 0 < b)
    (Nxx Nyy Nxy : ℝ) (m n : ℕ) (hm : 1 ≤ m) (hn : 1 ≤ n) (hm' : m ≤ 26) (hn' : n ≤ 26) :
    ∃ K KG Kl KGl Kh KGh : SqMat (m * n),
      calcKKGD shipped l.D (.str wCLAMPED) ⟨a, b, Nxx, Nyy, Nxy, m, n⟩ = .ok (K, KG) ∧
      calcKKGD shipped (.ok ((height l.layup ^ 3 / 12) • lo)) (.str wCLAMPED) ⟨a, b, Nxx, Nyy, Nxy, m, n⟩ = .ok (Kl, KGl) ∧
      calcKKGD shipped (.ok ((height l.layup ^ 3 / 12) • hi)) (.str wCLAMPED) ⟨a, b, Nxx, Nyy, Nxy, m, n⟩ = .ok (Kh, KGh) ∧
      (∀ lam, PosMult K KG lam → ∃ mu ≤ lam, PosMult Kl KGl mu) ∧ (∀ lam, PosMult Kh KGh lam → ∃ mu ≤ lam, PosMult K KG mu) := by
  obtain ⟨A, hA⟩ : ∃ A, l.A = .ok A := (C13_readable_iff l hs).1.mpr ((C13_readable_iff l hs).2.2.mp ⟨D, hD⟩)
  have hloS : lo.IsSymm := by
    have := hlo.1
    rwa [Matrix.IsHermitian, Matrix.conjTranspose_eq_transpose_of_trivial] at this
  have hb' := fun x => (C97_A_D l hs ht lo hi hloS hhi h1 h2 A D hA hD x).2
  have hc : 0 < height l.layup ^ 3 / 12 := by positivity
  have hDs := D_isSymm l D hD
  have s1 : ((height l.layup ^ 3 / 12) • lo).PosDef := hlo.smul hc
  have p1 : (D - (height l.layup ^ 3 / 12) • lo).PosSemidef :=
    posSemidef_of_quad (hloS.smul _) hDs fun x => by
      rw [Matrix.smul_mulVec, dotProduct_smul, smul_eq_mul]; exact (hb' x).1
  have p2 : ((height l.layup ^ 3 / 12) • hi - D).PosSemidef :=
    posSemidef_of_quad hDs (hhi.smul _) fun x => by
      rw [Matrix.smul_mulVec, dotProduct_smul, smul_eq_mul]; exact (hb' x).2
  have hDpd : D.PosDef := by
    have := s1.add_posSemidef p1
    rwa [add_sub_cancel] at this
  have hT : Tensile (Nxx - Nxx) (Nyy - Nyy) (Nxy - Nxy) := by
    simp [Tensile]
  obtain ⟨K1, G1, K2, G2, e1, e2, f1⟩ := C82_monotone _ D s1 p1 a b ha hb Nxx Nyy Nxy Nxx Nyy Nxy hT m n hm hn hm' hn'
  obtain ⟨K3, G3, K4, G4, e3, e4, f2⟩ := C82_monotone D _ hDpd p2 a b ha hb Nxx Nyy Nxy Nxx Nyy Nxy hT m n hm hn hm' hn'
  rw [e2] at e3
  obtain ⟨rfl, rfl⟩ := Prod.mk.inj (Except.ok.inj e3)
  exact ⟨_, _, _, _, _, _, by rw [hD]; exact e2, e1, e4, f1, f2⟩

/-- Non-vacuity for C97: a soft and a stiff isotropic ply at 0 and 30 degrees. -/
example : ∃ (l : Lam) (lo hi D : M3), IsStack l ∧ NonnegThick l.layup ∧ 0 < height l.layup ∧ lo.PosDef ∧ hi.IsSymm ∧ lo ≠ hi ∧
    PliesAbove l lo ∧ PliesBelow l hi ∧ l.D = .ok D := by
  let mk : ℝ → Mat := fun e => .iso ⟨e, 0, e / 2, 1, 1, 1, 1⟩
  let Q : ℝ → M3 := fun e => !![e, 0, 0; 0, e, 0; 0, 0, e / 2]
  obtain ⟨l, hl, hlen, hlay⟩ := (C10_list [0, 30] [mk 1, mk 2]).1 rfl
  have hlayup : l.layup = [(0, mk 1), (30, mk 2)] := by
    apply List.ext_getElem?
    intro k
    rcases k with _ | _ | k
    · exact hlay 0 (by simp) (by simp)
    · exact hlay 1 (by simp) (by simp)
    · rw [List.getElem?_eq_none (by rw [hlen]; simp)]; rfl
  have hQ : ∀ e t : ℝ, plyQ (t, mk e) = .ok (Q e) := by
    intro e t
    rw [C06_iso_rotation_invariant ⟨e, 0, e / 2, 1, 1, 1, 1⟩ (by simp) (by simp) t, plyQ_eq]
    have : (Mat.iso ⟨e, 0, e / 2, 1, 1, 1, 1⟩).Q0 = .ok (Q e) := by
      rw [Mat.Q0, IsoMat.Q0_of_ne _ (by simp)]
      simp [Q]
    rw [this, ok_map]
    simp only [Q]
    rw [rotQ_iso_entries]
    congr 1
    rw [show e / 2 - (e - 0) / 2 = 0 by ring, zero_smul, add_zero]
  have hquad : ∀ (e : ℝ) (x : Fin 3 → ℝ), x ⬝ᵥ (Q e *ᵥ x) = e * (x 0 ^ 2 + x 1 ^ 2 + x 2 ^ 2 / 2) := by
    intro e x
    simp [Q, Matrix.mulVec, dotProduct, Fin.sum_univ_three]
    ring
  have hn : ∀ x : Fin 3 → ℝ, 0 ≤ x 0 ^ 2 + x 1 ^ 2 + x 2 ^ 2 / 2 := fun x => by positivity
  have hs : IsStack l := ⟨_, _, hl⟩
  have hok : ∀ p ∈ l.layup, ∃ Q, p.2.Q0 = .ok Q := by
    intro p hp
    rw [← plyQ_ok_iff]
    rw [hlayup] at hp
    simp only [List.mem_cons, List.not_mem_nil, or_false] at hp
    rcases hp with rfl | rfl
    · exact ⟨_, hQ 1 0⟩
    · exact ⟨_, hQ 2 30⟩
  obtain ⟨D, hD⟩ := (C13_readable_iff l hs).2.2.mpr hok
  refine ⟨l, Q 1, Q 2, D, hs, ?_, ?_, ?_, ?_, ?_, ?_, ?_, hD⟩
  · intro p hp
    rw [hlayup] at hp
    simp only [List.mem_cons, List.not_mem_nil, or_false] at hp
    rcases hp with rfl | rfl <;> simp [mk, Mat.thickness]
  · simp [hlayup, height, mk, Mat.thickness]
  · refine Matrix.PosDef.of_dotProduct_mulVec_pos ?_ fun x hx => ?_
    · ext i j; fin_cases i <;> fin_cases j <;> simp [Q]
    · simp only [star_trivial]
      rw [hquad, one_mul]
      refine lt_of_le_of_ne (hn x) fun h0 => hx ?_
      have h1 := sq_nonneg (x 0)
      have h2 := sq_nonneg (x 1)
      have h3 := sq_nonneg (x 2)
      have z0 : x 0 = 0 := pow_eq_zero_iff two_ne_zero |>.mp (by linarith)
      have z1 : x 1 = 0 := pow_eq_zero_iff two_ne_zero |>.mp (by linarith)
      have z2 : x 2 = 0 := pow_eq_zero_iff two_ne_zero |>.mp (by linarith)
      ext i
      fin_cases i
      · exact z0
      · exact z1
      · exact z2
  · ext i j; fin_cases i <;> fin_cases j <;> simp [Q]
  · intro h
    have := congrFun (congrFun h 0) 0
    simp [Q] at this
  · intro p hp P hP x
    rw [hlayup] at hp
    simp only [List.mem_cons, List.not_mem_nil, or_false] at hp
    rcases hp with rfl | rfl
    · rw [hQ] at hP
      rw [← Except.ok.inj hP]
    · rw [hQ] at hP
      rw [← Except.ok.inj hP, hquad, hquad]
      linarith [hn x]
  · intro p hp P hP x
    rw [hlayup] at hp
    simp only [List.mem_cons, List.not_mem_nil, or_false] at hp
    rcases hp with rfl | rfl
    · rw [hQ] at hP
      rw [← Except.ok.inj hP, hquad, hquad]
      linarith [hn x]
    · rw [hQ] at hP
      rw [← Except.ok.inj hP]

end Composipy
