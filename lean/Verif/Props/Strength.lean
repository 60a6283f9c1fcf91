import Verif.Lemmas.Strength
import Verif.Lemmas.Integral

/-!
# C29-C34, C39: strains and stresses
-/

namespace Composipy
open Spec Matrix MeasureTheory

/-! ## C29 -/

/-- **C29** `epsilon0` returns the unique solution of `ABD e = N` when `ABD` is regular. -/
theorem C29_epsilon0_unique (l : Lam) (N : V6) (M : M6) (hM : l.ABD = .ok M) (hdet : M.det ≠ 0) :
    ∃ e, epsilon0 l N = .ok e ∧ M *ᵥ e = N ∧ ∀ e', M *ᵥ e' = N → e' = e := by
  refine ⟨M⁻¹ *ᵥ N, ?_, ?_, ?_⟩
  · simp [epsilon0, hM, npInv, hdet]
  · rw [Matrix.mulVec_mulVec, Matrix.mul_nonsing_inv _ hdet.isUnit, Matrix.one_mulVec]
  · intro e' h
    rw [← h, Matrix.mulVec_mulVec, Matrix.nonsing_inv_mul _ hdet.isUnit, Matrix.one_mulVec]

/-- **C29** `LinAlgError` is raised exactly when `ABD` can be read and is singular. -/
theorem C29_singular_iff (l : Lam) (N : V6) (hs : IsStack l) :
    epsilon0 l N = .error .linAlgError ↔ ∃ M, l.ABD = .ok M ∧ M.det = 0 := by
  unfold epsilon0
  cases hM : l.ABD with
  | error e =>
    simp only [error_bind, Except.error.injEq, reduceCtorEq, false_and, exists_false, iff_false]
    rintro rfl
    by_cases hall : AllOk l.layup
    · simp [Lam.ABD, hs.A_eq, hs.D_eq, Lam.B, l.loopMatrix_ok _ hall] at hM
    · simp [Lam.ABD, hs.A_eq, l.loopMatrix_err _ hall] at hM
  | ok M =>
    simp only [ok_bind, npInv]
    by_cases h : M.det = 0
    · simp [h]
    · simp [h]

/-- **C29** non-empty stacks of admissible plies always have a response. -/
theorem C29_admissible (l : Lam) (N : V6) (hs : IsStack l) (hne : l.layup ≠ [])
    (h : ∀ p ∈ l.layup, AdmissiblePly p) : ∃ e, epsilon0 l N = .ok e := by
  obtain ⟨A, D, M, -, -, hM, -, -, -, hdet⟩ := C15_posDef l hs hne h
  obtain ⟨e, he, -⟩ := C29_epsilon0_unique l N M hM hdet
  exact ⟨e, he⟩

/-- **C29** the empty stack has none. -/
theorem C29_empty (l : Lam) (N : V6) (hs : IsStack l) (h : l.layup = []) :
    epsilon0 l N = .error .linAlgError := by
  rw [C29_singular_iff l N hs]
  refine ⟨_, C14_ABD_readable l 0 0 0 ?_ ?_ ?_, by simp⟩
  · rw [hs.A_eq, loopMatrix_nil l _ h]
  · rw [Lam.B, loopMatrix_nil l _ h]
  · rw [hs.D_eq, loopMatrix_nil l _ h]

/-- **C26** without `xiA` every `epsilon0` of a readable lamination-parameter laminate raises
`LinAlgError`. -/
theorem C26_no_xiA_epsilon0 (d : LPDict) (p : Plies) (l : Lam) (h : Lam.init (.dict d) p = .ok l)
    (hA : d.xiA = none ∨ d.xiA = some .none) (hD : ∃ D, l.D = .ok D) (N : V6) :
    epsilon0 l N = .error .linAlgError := by
  obtain ⟨f1, f2, f3, f4, f5, f6, f7, f8⟩ := C25_fields d _ l h
  have hA' : l.xiA = .none := by rcases hA with hA | hA; exact f3 hA; exact f4 _ hA
  have hlA : l.A = .ok 0 := by simp only [Lam.A, hA']; exact loopMatrix_nil l _ f7
  obtain ⟨D, hD⟩ := hD
  have hM := C14_ABD_readable l 0 0 D hlA (loopMatrix_nil l _ f7) hD
  have hdet := C26_no_xiA_singular d p l h hA _ hM
  simp [epsilon0, hM, npInv, hdet]

/-- A concrete stack used below: unsymmetric carbon. -/
theorem carbon_stack : ∃ l, Lam.init (.angles [0, 45, 30]) (.single carbon) = .ok l ∧ IsStack l ∧
    l.layup ≠ [] ∧ (∀ p ∈ l.layup, AdmissiblePly p) ∧ NonnegThick l.layup := by
  obtain ⟨l, hl, hlay⟩ := C10_single [0, 45, 30] carbon
  have hadm : ∀ p ∈ l.layup, AdmissiblePly p := by
    intro p hp
    rw [hlay] at hp
    obtain ⟨a, -, rfl⟩ := List.mem_map.mp hp
    exact carbon_admissible a
  exact ⟨l, hl, ⟨_, _, hl⟩, by simp [hlay], hadm, fun p hp => (hadm p hp).1.le⟩

/-- Non-vacuity for C29-C34. -/
example : ∃ l e rows, IsStack l ∧ epsilon0 l (fun _ => 1) = .ok e ∧
    calculateStrain l (fun _ => 1) = .ok rows ∧ rows.length = 2 * l.layup.length := by
  obtain ⟨l, hl, hs, hne, hadm, -⟩ := carbon_stack
  obtain ⟨e, he⟩ := C29_admissible l (fun _ => 1) hs hne hadm
  refine ⟨l, e, strainRows l e, hs, he, by rw [hs.strain_eq, he]; rfl, flatMap_pair_length _ _ _⟩

/-! ## C30 -/

/-- Row-wise linear combination of two tables with the same labels. -/
noncomputable def Spec.combineRow (c1 c2 : ℝ) (r1 r2 : Row) : Row :=
  { r1 with xy := c1 • r1.xy + c2 • r2.xy, m12 := c1 • r1.m12 + c2 • r2.m12 }

theorem epsilon0_linear (l : Lam) (N1 N2 e1 e2 : V6) (c1 c2 : ℝ) (h1 : epsilon0 l N1 = .ok e1)
    (h2 : epsilon0 l N2 = .ok e2) : epsilon0 l (c1 • N1 + c2 • N2) = .ok (c1 • e1 + c2 • e2) := by
  unfold epsilon0 at *
  cases hM : l.ABD with
  | error e => simp [hM] at h1
  | ok M =>
    simp only [hM, ok_bind] at *
    cases hi : npInv M with
    | error e => simp [hi] at h1
    | ok Mi =>
      simp only [hi, ok_bind, pure_eq_ok, Except.ok.injEq] at *
      rw [Matrix.mulVec_add, Matrix.mulVec_smul, Matrix.mulVec_smul, h1, h2]

theorem strainAt_linear (e1 e2 : V6) (c1 c2 z : ℝ) :
    strainAt (c1 • e1 + c2 • e2) z = c1 • strainAt e1 z + c2 • strainAt e2 z := by
  ext i
  simp [strainAt, membrane, curvature]
  ring

theorem zipWith_flatMap_pair {α β γ : Type} (f : α → β → γ) (a b : Nat → α) (a' b' : Nat → β) (n : Nat) :
    List.zipWith f ((List.range n).flatMap fun i => [a i, b i]) ((List.range n).flatMap fun i => [a' i, b' i]) =
      (List.range n).flatMap fun i => [f (a i) (a' i), f (b i) (b' i)] := by
  induction n with
  | zero => rfl
  | succ n ih =>
    simp only [List.range_succ, List.flatMap_append]
    rw [List.zipWith_append (by rw [flatMap_pair_length, flatMap_pair_length]), ih]
    simp

/-- **C30** strains are linear in the loads. -/
theorem C30_strain_linear (l : Lam) (hs : IsStack l) (N1 N2 : V6) (c1 c2 : ℝ) (R1 R2 : List Row)
    (h1 : calculateStrain l N1 = .ok R1) (h2 : calculateStrain l N2 = .ok R2) :
    calculateStrain l (c1 • N1 + c2 • N2) = .ok (List.zipWith (combineRow c1 c2) R1 R2) := by
  rw [hs.strain_eq] at *
  cases he1 : epsilon0 l N1 with
  | error e => simp [he1] at h1
  | ok e1 =>
    cases he2 : epsilon0 l N2 with
    | error e => simp [he2] at h2
    | ok e2 =>
      simp only [he1, he2, ok_map, Except.ok.injEq] at h1 h2
      subst h1 h2
      rw [epsilon0_linear l N1 N2 e1 e2 c1 c2 he1 he2, ok_map]
      simp only [strainRows, zipWith_flatMap_pair, combineRow, strainAt_linear, Matrix.mulVec_add,
        Matrix.mulVec_smul]

/-- **C30** stresses are linear in the loads. -/
theorem C30_stress_linear (l : Lam) (hs : IsStack l) (N1 N2 : V6) (c1 c2 : ℝ) (R1 R2 : List Row)
    (h1 : calculateStress l N1 = .ok R1) (h2 : calculateStress l N2 = .ok R2) :
    calculateStress l (c1 • N1 + c2 • N2) = .ok (List.zipWith (combineRow c1 c2) R1 R2) := by
  rw [hs.stress_eq] at *
  cases he1 : epsilon0 l N1 with
  | error e => simp [he1] at h1
  | ok e1 =>
    cases he2 : epsilon0 l N2 with
    | error e => simp [he2] at h2
    | ok e2 =>
      simp only [he1, he2, ok_map, Except.ok.injEq] at h1 h2
      subst h1 h2
      rw [epsilon0_linear l N1 N2 e1 e2 c1 c2 he1 he2, ok_map]
      simp only [stressRows, zipWith_flatMap_pair, combineRow, strainAt_linear, Matrix.mulVec_add,
        Matrix.mulVec_smul]

/-- **C30** whether the tables can be computed does not depend on the loads. -/
theorem C30_success_independent (l : Lam) (hs : IsStack l) (N1 N2 : V6) :
    (∃ R, calculateStrain l N1 = .ok R) ↔ ∃ R, calculateStrain l N2 = .ok R := by
  have key : ∀ N, (∃ R, calculateStrain l N = .ok R) ↔ ∃ M, l.ABD = .ok M ∧ M.det ≠ 0 := by
    intro N
    rw [hs.strain_eq]
    cases hM : l.ABD with
    | error e => simp [epsilon0, hM]
    | ok M =>
      by_cases hd : M.det = 0
      · simp [epsilon0, hM, npInv, hd]
      · simp [epsilon0, hM, npInv, hd]
  rw [key, key]

/-! ## C31 -/

/-- **C31** the strain table: two rows per ply from bottom to top; plate strains are
`eps0 + z kappa`. -/
theorem C31_strain_table (l : Lam) (hs : IsStack l) (N e : V6) (he : epsilon0 l N = .ok e) :
    ∃ rows, calculateStrain l N = .ok rows ∧ rows.length = 2 * l.layup.length ∧
      ∀ k (hk : k < l.layup.length), ∃ zb zt rb rt, l.zPosition[k]? = some zb ∧
        l.zPosition[k + 1]? = some zt ∧ rows[2 * k]? = some rb ∧ rows[2 * k + 1]? = some rt ∧
        rb.ply = k + 1 ∧ rt.ply = k + 1 ∧ rb.position = .bot ∧ rt.position = .top ∧
        rb.angle = (l.layup[k]).1 ∧ rt.angle = (l.layup[k]).1 ∧ rb.z = zb ∧ rt.z = zt ∧
        (∀ i, rb.xy i = e (.inl i) + zb * e (.inr i)) ∧ (∀ i, rt.xy i = e (.inl i) + zt * e (.inr i)) := by
  refine ⟨strainRows l e, by rw [hs.strain_eq, he]; rfl, flatMap_pair_length _ _ _, ?_⟩
  intro k hk
  have hz0 : k < l.zPosition.length := by rw [zPosition_length]; omega
  have hz1 : k + 1 < l.zPosition.length := by rw [zPosition_length]; omega
  obtain ⟨g1, g2⟩ := flatMap_pair_get _ _ _ k hk
  refine ⟨l.zAt k, l.zAt (k + 1), _, _, ?_, ?_, g1, g2, rfl, rfl, rfl, rfl, IsStack.angleAt_eq k hk,
    IsStack.angleAt_eq k hk, rfl, rfl, fun i => rfl, fun i => rfl⟩
  · simp [Lam.zAt, hz0]
  · simp [Lam.zAt, hz1]

/-- **C31** the stress table has the same shape and labels. -/
theorem C31_stress_labels (l : Lam) (hs : IsStack l) (N : V6) (R S : List Row)
    (hR : calculateStrain l N = .ok R) (hS : calculateStress l N = .ok S) :
    S.map (fun r => (r.ply, r.z, r.position, r.angle)) = R.map fun r => (r.ply, r.z, r.position, r.angle) := by
  rw [hs.strain_eq] at hR
  rw [hs.stress_eq] at hS
  cases he : epsilon0 l N with
  | error e => simp [he] at hR
  | ok e =>
    simp only [he, ok_map, Except.ok.injEq] at hR hS
    subst hR hS
    simp [strainRows, stressRows, List.map_flatMap]

/-- **C31** plate-axis strains are continuous across ply interfaces. -/
theorem C31_continuous (l : Lam) (hs : IsStack l) (N : V6) (R : List Row)
    (hR : calculateStrain l N = .ok R) (k : Nat) (hk : k + 1 < l.layup.length) (top bot : Row)
    (ht : R[2 * k + 1]? = some top) (hb : R[2 * (k + 1)]? = some bot) : top.xy = bot.xy ∧ top.z = bot.z := by
  rw [hs.strain_eq] at hR
  cases he : epsilon0 l N with
  | error e => simp [he] at hR
  | ok e =>
    simp only [he, ok_map, Except.ok.injEq] at hR
    subst hR
    have g1 := (flatMap_pair_get _ _ _ k (by omega : k < l.layup.length)).2.symm.trans ht
    have g2 := (flatMap_pair_get _ _ _ (k + 1) hk).1.symm.trans hb
    cases g1; cases g2
    exact ⟨rfl, rfl⟩

/-- **C31** errors: for a stack the two tables fail exactly as `epsilon0` does. -/
theorem C31_errors (l : Lam) (hs : IsStack l) (N : V6) (x : PyErr) :
    (calculateStrain l N = .error x ↔ epsilon0 l N = .error x) ∧
    (calculateStress l N = .error x ↔ epsilon0 l N = .error x) := by
  rw [hs.strain_eq, hs.stress_eq]
  cases epsilon0 l N <;> simp

/-! ## C32 -/

/-- The relations between a strain row and the stress row of the same place. -/
structure Spec.Consistent (p : ℝ × Mat) (e s : Row) : Prop where
  /-- material axes: Hooke's law with `Q_0` -/
  hooke12 : ∃ Q0, p.2.Q0 = .ok Q0 ∧ s.m12 = Q0 *ᵥ e.m12
  /-- plate axes: Hooke's law with the entry of `Q_layup` -/
  hookexy : ∃ Q, plyQ p = .ok Q ∧ s.xy = Q *ᵥ e.xy
  /-- material-axis strain is the rotated plate-axis strain -/
  strain : strainTensor e.m12 = rotate p.1 (strainTensor e.xy)
  /-- material-axis stress is the rotated plate-axis stress -/
  stress : stressTensor s.m12 = rotate p.1 (stressTensor s.xy)
  /-- the strain energy does not depend on the axes -/
  energy : s.xy ⬝ᵥ e.xy = s.m12 ⬝ᵥ e.m12

theorem consistent_at (p : ℝ × Mat) (hp : ∃ Q, plyQ p = .ok Q) (v : V3) (e s : Row) (he : e.xy = v)
    (he' : e.m12 = Teng p.1 *ᵥ v) (hs : s.xy = plyQ! p *ᵥ v)
    (hs' : s.m12 = Treal p.1 *ᵥ (plyQ! p *ᵥ v)) : Consistent p e s := by
  obtain ⟨Q0, hQ0⟩ := (plyQ_ok_iff p).mp hp
  have hpl : plyQ! p = rotQ p.1 Q0 := by
    have := plyQ_of_ok hp
    rw [plyQ_eq, hQ0] at this
    simpa using this.symm
  have hT : ∀ w : V3, Treal p.1 *ᵥ ((Teng p.1)ᵀ *ᵥ w) = w := by
    intro w
    rw [Matrix.mulVec_mulVec, Treal_mul_TengT, Matrix.one_mulVec]
  have hm : s.m12 = Q0 *ᵥ e.m12 := by
    rw [hs', he', hpl, rotQ, ← Matrix.mulVec_mulVec, ← Matrix.mulVec_mulVec, hT]
  refine ⟨⟨Q0, hQ0, hm⟩, ⟨plyQ! p, plyQ_of_ok hp, by rw [hs, he]⟩, ?_, ?_, ?_⟩
  · rw [he', he, rotate_strain]
  · rw [hs', hs, rotate_stress]
  · rw [hm, hs, he, dotProduct_comm, dotProduct_comm (Q0 *ᵥ e.m12), he', hpl, rotQ_quad]

/-- **C32** every strain row and the stress row of the same place are consistent. -/
theorem C32_consistent (l : Lam) (hs : IsStack l) (N : V6) (R S : List Row)
    (hR : calculateStrain l N = .ok R) (hS : calculateStress l N = .ok S) (k : Nat)
    (hk : k < l.layup.length) :
    ∃ eb et sb st, R[2 * k]? = some eb ∧ R[2 * k + 1]? = some et ∧ S[2 * k]? = some sb ∧
      S[2 * k + 1]? = some st ∧ Consistent (l.layup[k]) eb sb ∧ Consistent (l.layup[k]) et st := by
  have hall : AllOk l.layup := by
    by_contra hn
    rw [hs.strain_eq, hs.epsilon0_err N hn] at hR
    simp at hR
  rw [hs.strain_eq] at hR
  rw [hs.stress_eq] at hS
  cases he : epsilon0 l N with
  | error e => simp [he] at hR
  | ok e =>
    simp only [he, ok_map, Except.ok.injEq] at hR hS
    subst hR hS
    obtain ⟨g1, g2⟩ := flatMap_pair_get _ _ _ k hk
    obtain ⟨g3, g4⟩ := flatMap_pair_get _ _ _ k hk
    refine ⟨_, _, _, _, g1, g2, g3, g4, ?_, ?_⟩
    · refine consistent_at _ (hall _ (List.getElem_mem hk)) (strainAt e (l.zAt k)) _ _ rfl ?_ ?_ ?_ <;>
        simp [IsStack.angleAt_eq k hk, Lam.QAt_eq l k hk]
    · refine consistent_at _ (hall _ (List.getElem_mem hk)) (strainAt e (l.zAt (k + 1))) _ _ rfl ?_ ?_ ?_ <;>
        simp [IsStack.angleAt_eq k hk, Lam.QAt_eq l k hk]

/-! ## C33 -/

/-- **C33** with arrays as mutable objects and the in-place halving, `calculate_strain` returns,
from every heap (that is, after every history of earlier calls), the table of the value semantics. -/
theorem C33_no_corruption (l : Lam) (N : V6) (h : Heap) :
    (hCalculateStrain l N h).1 = calculateStrain l N := hCalculateStrain_eq l N h

/-- **C33** repeated calls return equal tables. -/
theorem C33_repeatable (l : Lam) (N : V6) (h : Heap) :
    (hCalculateStrain l N (hCalculateStrain l N h).2).1 = (hCalculateStrain l N h).1 := by
  rw [C33_no_corruption, C33_no_corruption]

/-- **C33** in particular the reported plate-axis shear is the full engineering shear. -/
theorem C33_full_shear (l : Lam) (hs : IsStack l) (N e : V6) (he : epsilon0 l N = .ok e) (h : Heap) :
    ∃ rows, (hCalculateStrain l N h).1 = .ok rows ∧
      ∀ r ∈ rows, r.xy 2 = e (.inl 2) + r.z * e (.inr 2) := by
  rw [C33_no_corruption, hs.strain_eq, he]
  refine ⟨_, rfl, ?_⟩
  intro r hr
  simp only [strainRows, List.mem_flatMap, List.mem_cons, List.not_mem_nil, or_false] at hr
  obtain ⟨i, -, rfl | rfl⟩ := hr <;> rfl

/-! ## C34 -/

theorem zList_cover (z : ℝ) (ts : List ℝ) (x : ℝ) (h1 : z < x) (h2 : x < z + ts.sum)
    (hx : x ∉ zList z ts) : ∃ k a b, k < ts.length ∧ (zList z ts)[k]? = some a ∧
      (zList z ts)[k + 1]? = some b ∧ a < x ∧ x < b := by
  induction ts generalizing z with
  | nil => simp at h2; linarith
  | cons t ts ih =>
    simp only [zList, List.mem_cons, not_or] at hx
    by_cases hxt : x < z + t
    · exact ⟨0, z, z + t, by simp, rfl, by simp [zList, zList_head], h1, hxt⟩
    · have hne : x ≠ z + t := by
        intro heq
        apply hx.2
        rw [heq]
        cases ts <;> simp [zList]
      have hgt : z + t < x := lt_of_le_of_ne (not_lt.mp hxt) (Ne.symm hne)
      obtain ⟨k, a, b, hk, ha, hb, hax, hxb⟩ := ih (z + t) hgt (by simp at h2; linarith) hx.2
      exact ⟨k + 1, a, b, by simpa using hk, by simpa [zList] using ha, by simpa [zList] using hb, hax, hxb⟩

/-- Two functions that agree strictly between the interfaces have the same integral. -/
theorem integral_congr_stack (l : Lam) (f g : ℝ → ℝ) (hn : NonnegThick l.layup)
    (h : ∀ (k : Nat) (a b : ℝ), k < l.layup.length → l.zPosition[k]? = some a → l.zPosition[k + 1]? = some b →
      ∀ x, a < x → x < b → f x = g x) :
    ∫ z in (-(height l.layup) / 2)..(height l.layup / 2), f z =
      ∫ z in (-(height l.layup) / 2)..(height l.layup / 2), g z := by
  have hh : 0 ≤ height l.layup := by
    apply List.sum_nonneg
    intro t ht
    obtain ⟨p, hp, rfl⟩ := List.mem_map.mp ht
    exact hn p hp
  apply intervalIntegral.integral_congr_ae
  rw [Set.uIoc_of_le (by linarith)]
  have hfin : (({x | x ∈ l.zPosition} : Set ℝ)).Finite := List.finite_toSet l.zPosition
  have hae : ∀ᵐ x, x ∉ ({x | x ∈ l.zPosition} : Set ℝ) := by
    rw [ae_iff]; simp only [not_not]
    exact hfin.measure_zero _
  filter_upwards [hae] with x hx hmem
  have hz : l.zPosition = zList (-(height l.layup) / 2) (l.layup.map fun p => p.2.thickness) := by
    rw [Lam.zPosition, zPositionOf_eq, totalThickness_eq]; rfl
  have hlast : height l.layup / 2 ∈ l.zPosition := by
    have := (C11_z_position l).2.2.1
    exact List.mem_of_mem_getLast? this
  have hlt : x < height l.layup / 2 :=
    lt_of_le_of_ne hmem.2 (fun heq => hx (by show x ∈ l.zPosition; rw [heq]; exact hlast))
  obtain ⟨k, a, b, hk, ha, hb, hax, hxb⟩ := zList_cover (-(height l.layup) / 2)
    (l.layup.map fun p => p.2.thickness) x hmem.1 (by
      have : (l.layup.map fun p => p.2.thickness).sum = height l.layup := rfl
      rw [this]; linarith) (by rw [← hz]; exact hx)
  exact h k a b (by simpa using hk) (by rw [hz]; exact ha) (by rw [hz]; exact hb) x hax hxb

theorem field_integrable (p : Nat) (l : Lam) (Qs : List M3) (hQ : l.Qlayup = .ok Qs)
    (hn : NonnegThick l.layup) (Qz : ℝ → M3) (hf : IsField Qz l.zPosition Qs) (i j : Fin 3) :
    IntervalIntegrable (fun z => z ^ p * Qz z i j) volume (-(height l.layup) / 2) (height l.layup / 2) := by
  have hall := (l.Qlayup_ok_iff).mp ⟨Qs, hQ⟩
  rw [l.Qlayup_ok hall, Except.ok.injEq] at hQ
  subst hQ
  have hz : l.zPosition = zList (-(height l.layup) / 2) (l.layup.map fun p => p.2.thickness) := by
    rw [Lam.zPosition, zPositionOf_eq, totalThickness_eq]; rfl
  have := (piecewise_integral p (fun z => Qz z i j) (l.layup.map fun p => p.2.thickness)
    ((l.layup.map plyQ!).map fun M => M i j) (by simp) (by
      intro t ht
      obtain ⟨q, hq, rfl⟩ := List.mem_map.mp ht
      exact hn q hq) (-(height l.layup) / 2) (by
      intro k a b q ha hb hq z haz hzb
      rw [← hz] at ha hb
      rw [List.getElem?_map] at hq
      cases hM : (l.layup.map plyQ!)[k]? with
      | none => rw [hM] at hq; cases hq
      | some M =>
        rw [hM] at hq
        simp only [Option.map_some, Option.some.injEq] at hq
        show Qz z i j = q
        rw [hf k a b M ha hb hM z haz hzb, hq])).1
  have e : -(height l.layup) / 2 + (l.layup.map fun p => p.2.thickness).sum = height l.layup / 2 := by
    have : (l.layup.map fun p => p.2.thickness).sum = height l.layup := rfl
    rw [this]; ring
  rwa [e] at this

/-- The through-thickness stress distribution reported by the stress table: linear interpolation
between the bottom and top row of each ply. -/
def Spec.Interpolates (f : ℝ → V3) (S : List Row) : Prop :=
  ∀ (k : Nat) (rb rt : Row), S[2 * k]? = some rb → S[2 * k + 1]? = some rt →
    ∀ z, rb.z < z → z < rt.z →
      f z = ((rt.z - z) / (rt.z - rb.z)) • rb.xy + ((z - rb.z) / (rt.z - rb.z)) • rt.xy

/-- **C34** the reported stresses integrate to the applied forces and moments. -/
theorem C34_equilibrium (l : Lam) (hs : IsStack l) (hn : NonnegThick l.layup) (N : V6) (S : List Row)
    (hS : calculateStress l N = .ok S) (f : ℝ → V3) (hf : Interpolates f S) (i : Fin 3) :
    ∫ z in (-(height l.layup) / 2)..(height l.layup / 2), f z i = N (.inl i) ∧
    ∫ z in (-(height l.layup) / 2)..(height l.layup / 2), z * f z i = N (.inr i) := by
  have hall : AllOk l.layup := by
    by_contra hno
    rw [hs.stress_eq, hs.epsilon0_err N hno] at hS
    simp at hS
  have hQ := l.Qlayup_ok hall
  rw [hs.stress_eq] at hS
  cases he : epsilon0 l N with
  | error e => simp [he] at hS
  | ok e =>
    simp only [he, ok_map, Except.ok.injEq] at hS
    subst hS
    obtain ⟨Qz, hQz⟩ := C13_field_exists l (l.layup.map plyQ!) hn
    obtain ⟨A, hA, iA⟩ := C13_A_integral l hs _ hQ hn Qz hQz
    obtain ⟨B, hB, iB⟩ := C13_B_integral l _ hQ hn Qz hQz
    obtain ⟨D, hD, iD⟩ := C13_D_integral l hs _ hQ hn Qz hQz
    have hM := C14_ABD_readable l A B D hA hB hD
    have hsol : Matrix.fromBlocks A B B D *ᵥ e = N := by
      unfold epsilon0 at he
      rw [hM] at he
      simp only [ok_bind, npInv] at he
      by_cases hdet : (Matrix.fromBlocks A B B D).det = 0
      · simp [hdet] at he
      · simp only [hdet, if_false, ok_bind, pure_eq_ok, Except.ok.injEq] at he
        rw [← he, Matrix.mulVec_mulVec, Matrix.mul_nonsing_inv _ (Ne.isUnit hdet), Matrix.one_mulVec]
    -- the field between the interfaces
    have hfield : ∀ (k : Nat) (a b : ℝ), k < l.layup.length → l.zPosition[k]? = some a →
        l.zPosition[k + 1]? = some b → ∀ x, a < x → x < b → f x i = (Qz x *ᵥ strainAt e x) i := by
      intro k a b hk ha hb x hax hxb
      obtain ⟨g1, g2⟩ := flatMap_pair_get _ _ _ k hk
      have hza : l.zAt k = a := by simp [Lam.zAt, ha]
      have hzb : l.zAt (k + 1) = b := by simp [Lam.zAt, hb]
      have h1 := hf k _ _ g1 g2 x (by simpa [hza] using hax) (by simpa [hzb] using hxb)
      have hq : (l.layup.map plyQ!)[k]? = some (l.QAt k) := by
        rw [Lam.QAt_eq l k hk]; simp [hk]
      rw [h1, hQz k a b _ ha hb hq x hax hxb]
      simp only [hza, hzb]
      rw [← Matrix.mulVec_smul, ← Matrix.mulVec_smul, ← Matrix.mulVec_add]
      have hab : b - a ≠ 0 := by linarith
      have hv : ((b - x) / (b - a)) • strainAt e a + ((x - a) / (b - a)) • strainAt e b =
          strainAt e x := by
        ext j
        simp only [strainAt, Pi.add_apply, Pi.smul_apply, smul_eq_mul]
        field_simp
        ring
      rw [hv]
    have I0 := fun j => field_integrable 0 l _ hQ hn Qz hQz i j
    have I1 := fun j => field_integrable 1 l _ hQ hn Qz hQz i j
    have I2 := fun j => field_integrable 2 l _ hQ hn Qz hQz i j
    simp only [pow_zero, one_mul, pow_one] at I0 I1
    constructor
    · rw [integral_congr_stack l (fun z => f z i) (fun z => (Qz z *ᵥ strainAt e z) i) hn hfield]
      have e1 : ∀ z, (Qz z *ᵥ strainAt e z) i =
          ((Qz z i 0 * e (.inl 0) + Qz z i 1 * e (.inl 1) + Qz z i 2 * e (.inl 2)) +
          (z * Qz z i 0 * e (.inr 0) + z * Qz z i 1 * e (.inr 1) + z * Qz z i 2 * e (.inr 2))) := by
        intro z
        simp [Matrix.mulVec, dotProduct, Fin.sum_univ_three, strainAt, membrane, curvature]
        ring
      simp only [e1]
      rw [intervalIntegral.integral_add, intervalIntegral.integral_add, intervalIntegral.integral_add,
        intervalIntegral.integral_add, intervalIntegral.integral_add]
      · simp only [intervalIntegral.integral_mul_const, ← iA, ← iB]
        rw [← hsol]
        simp [Matrix.mulVec, dotProduct, Fin.sum_univ_three]
      all_goals
        apply_rules [IntervalIntegrable.add, IntervalIntegrable.mul_const, I0, I1]
    · rw [integral_congr_stack l (fun z => z * f z i) (fun z => z * (Qz z *ᵥ strainAt e z) i) hn (by
        intro k a b hk ha hb x hax hxb
        rw [hfield k a b hk ha hb x hax hxb])]
      have e1 : ∀ z, z * (Qz z *ᵥ strainAt e z) i =
          ((z * Qz z i 0 * e (.inl 0) + z * Qz z i 1 * e (.inl 1) + z * Qz z i 2 * e (.inl 2)) +
          (z ^ 2 * Qz z i 0 * e (.inr 0) + z ^ 2 * Qz z i 1 * e (.inr 1) +
            z ^ 2 * Qz z i 2 * e (.inr 2))) := by
        intro z
        simp [Matrix.mulVec, dotProduct, Fin.sum_univ_three, strainAt, membrane, curvature]
        ring
      simp only [e1]
      rw [intervalIntegral.integral_add, intervalIntegral.integral_add, intervalIntegral.integral_add,
        intervalIntegral.integral_add, intervalIntegral.integral_add]
      · simp only [intervalIntegral.integral_mul_const, ← iB, ← iD]
        rw [← hsol]
        simp [Matrix.mulVec, dotProduct, Fin.sum_univ_three]
      all_goals
        apply_rules [IntervalIntegrable.add, IntervalIntegrable.mul_const, I1, I2]

/-! ## C39 -/

/-- **C39** ply-by-ply strains of a lamination-parameter laminate always raise `IndexError`. -/
theorem C39_lp_refused (d : LPDict) (p : Plies) (l : Lam) (h : Lam.init (.dict d) p = .ok l) (N : V6) :
    calculateStrain l N = .error .indexError ∧ calculateStress l N = .error .indexError ∧
      calculateMargin l N = .error .indexError := by
  obtain ⟨f1, f2, -, -, -, -, f7, -⟩ := C25_fields d _ l h
  have hst : l.stacking = .dict d := by
    unfold Lam.init at h
    cases hD : d.xiD <;> cases hT : d.T <;> simp [hD, hT] at h
    rw [← h]
  have hz : l.zPosition = [0] := by
    simp [Lam.zPosition, zPositionOf_eq, f7, zList, totalThickness]
  have hlen : ∃ n, l.stacking.len = n + 1 := by
    refine ⟨l.stacking.len - 1, ?_⟩
    have : 1 ≤ l.stacking.len := by
      rw [hst]
      simp only [Stacking.len, f1, f2]
      rw [Nat.one_le_iff_ne_zero, Ne, List.countP_eq_zero]
      simp
    omega
  obtain ⟨n, hn⟩ := hlen
  have hzp : zPairs l.zPosition l.stacking.len = .error .indexError := by
    rw [hn, hz, zPairs, List.range_succ_eq_map, List.mapM_cons]
    simp [pyIdx]
  have hek : epsilonk l N = .error .indexError := by simp [epsilonk, hzp]
  have hstress : calculateStress l N = .error .indexError := by
    simp [calculateStress, stressk, hek, l.Qlayup_ok (by simp [AllOk, f7] : AllOk l.layup)]
  refine ⟨by simp [calculateStrain, hek], hstress, ?_⟩
  simp [calculateMargin, hstress, calculateAllowable, allowablek, f7]

end Composipy
