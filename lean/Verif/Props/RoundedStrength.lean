import Verif.Model.RoundedStrength
import Verif.Props.RoundedPly
import Verif.Props.Margins
import Mathlib.Analysis.Matrix.Normed

/-!
# C113: rounding errors of the strength calculations
-/

namespace Composipy
open Spec Matrix

namespace Spec

/-- Two rows of a strain or stress table that belong together: the same ply, position and angle, heights that differ by at most `ez`, components in plate axes within `gx` of
sizes `X` and components in material axes within `gm` of sizes `Z`. -/
structure RowNear (ez gx : ℝ) (X : V3) (gm : ℝ) (Z : V3) (r' r : Row) : Prop where
  ply : r'.ply = r.ply
  position : r'.position = r.position
  angle : r'.angle = r.angle
  z : |r'.z - r.z| ≤ ez
  xy : ∀ i, Within gx (r'.xy i) (r.xy i) (X i)
  m12 : ∀ i, Within gm (r'.m12 i) (r.m12 i) (Z i)

/-- Sizes of the strains and curvatures: the sizes `Y` of the flexibilities times the loads. -/
noncomputable def flexSize (Y : M6) (N : V6) : V6 := fun i => ∑ k, Y i k * |N k|

/-- Sizes of the strains in a laminate of half thickness `H`. -/
noncomputable def strainSize (Y : M6) (N : V6) (H : ℝ) : V3 := fun i => flexSize Y N (.inl i) + H * flexSize Y N (.inr i)

/-- Sizes of the stresses of plies with stiffness sizes `X`. -/
noncomputable def stressSize (X : M3) (Y : M6) (N : V6) (H : ℝ) : V3 := fun i => ∑ k, X i k * strainSize Y N H k

end Spec

namespace FloatClt
variable {F : FloatClt}

/-- A product of a matrix and a vector, both with errors, computed with `n` roundings. -/
theorem mulVec_within {ι : Type} [Fintype ι] {q : ℝ} (hq : 1 ≤ q) {g g' : ℝ} (hg : 1 ≤ g) {A' A X : Matrix ι ι ℝ} {x' x Y : ι → ℝ}
    (hA : ∀ i j, Within g (A' i j) (A i j) (X i j)) (hx : ∀ i, Within g' (x' i) (x i) (Y i)) (y : ℝ) (i : ι)
    (hy : |y - (A' *ᵥ x') i| ≤ (q - 1) * ∑ k, |A' i k| * |x' k|) :
    Within (g * g' * q) y ((A *ᵥ x) i) (∑ k, X i k * Y k) := by
  have hX : ∀ k, 0 ≤ X i k * Y k := fun k => mul_nonneg (hA i k).nonneg (hx k).nonneg
  have h1 : ∀ k, Within (g * g') (A' i k * x' k) (A i k * x k) (X i k * Y k) := fun k => (hA i k).mul hg (hx k)
  have h2 : |(A *ᵥ x) i| ≤ ∑ k, X i k * Y k :=
    (Finset.abs_sum_le_sum_abs _ _).trans (Finset.sum_le_sum fun k _ => (h1 k).1)
  have h3 : |(A' *ᵥ x') i - (A *ᵥ x) i| ≤ (g * g' - 1) * ∑ k, X i k * Y k := by
    simp only [Matrix.mulVec, dotProduct]
    rw [← Finset.sum_sub_distrib, Finset.mul_sum]
    exact (Finset.abs_sum_le_sum_abs _ _).trans (Finset.sum_le_sum fun k _ => (h1 k).2)
  have h4 : ∑ k, |A' i k| * |x' k| ≤ g * g' * ∑ k, X i k * Y k := by
    rw [Finset.mul_sum]
    refine Finset.sum_le_sum fun k _ => ?_
    rw [← abs_mul]; exact (h1 k).size
  refine ⟨h2, ?_⟩
  have h5 := mul_le_mul_of_nonneg_left h4 (by linarith : 0 ≤ q - 1)
  calc |y - (A *ᵥ x) i| ≤ |y - (A' *ᵥ x') i| + |(A' *ᵥ x') i - (A *ᵥ x) i| := abs_sub_le _ _ _
    _ ≤ (q - 1) * (g * g' * ∑ k, X i k * Y k) + (g * g' - 1) * ∑ k, X i k * Y k := add_le_add (hy.trans h5) h3
    _ = _ := by ring

/-- Interface height number `i`. -/
noncomputable def zAt (F : FloatClt) (L : List (ℝ × Mat)) (i : ℕ) : ℝ := (F.zPositionOf L).getD i 0

theorem zLength (L : List (ℝ × Mat)) : (F.zPositionOf L).length = L.length + 1 := by
  simp [FloatArith.zPositionOf_eq, FloatArith.zRound_length]

theorem pyIdx_zAt (L : List (ℝ × Mat)) (i : ℕ) (h : i ≤ L.length) : pyIdx (F.zPositionOf L) i = .ok (F.zAt L i) := by
  have : i < (F.zPositionOf L).length := by rw [zLength]; omega
  simp [zAt, this]

theorem zPairs_eq (L : List (ℝ × Mat)) :
    zPairs (F.zPositionOf L) L.length = .ok ((List.range L.length).map fun i => (F.zAt L i, F.zAt L (i + 1))) := by
  rw [zPairs]
  apply mapM_eq_ok
  intro i hi
  have hi' : i < L.length := List.mem_range.mp hi
  simp [pyIdx_zAt L i (by omega), pyIdx_zAt L (i + 1) (by omega)]

theorem fillRows_ok (L : List (ℝ × Mat)) (xb xt mb mt : ℕ → V3) (th : ℕ → ℝ) :
    fillRows (F.zPositionOf L) ((List.range L.length).map fun i => (xb i, xt i))
      ((List.range L.length).map fun i => (mb i, mt i)) ((List.range L.length).map th) =
    .ok ((List.range L.length).flatMap fun i =>
      [(⟨i + 1, F.zAt L i, .bot, th i, xb i, mb i⟩ : Row), ⟨i + 1, F.zAt L (i + 1), .top, th i, xt i, mt i⟩]) := by
  simp only [fillRows, List.zip_map', zipIdx_range_map]
  rw [mapM_eq_ok _ (fun p =>
    [(⟨p.2 + 1, F.zAt L p.2, .bot, p.1.2.2, p.1.1.1, p.1.2.1.1⟩ : Row),
     ⟨p.2 + 1, F.zAt L (p.2 + 1), .top, p.1.2.2, p.1.1.2, p.1.2.1.2⟩])]
  · simp only [ok_bind, pure_eq_ok, List.map_map, Function.comp_def, List.flatMap_def]
  · intro p hp
    obtain ⟨i, hi, rfl⟩ := List.mem_map.mp hp
    have hi' : i < L.length := List.mem_range.mp hi
    simp [pyIdx_zAt L i (by omega), pyIdx_zAt L (i + 1) (by omega)]

theorem epsilonk_ok (L : List (ℝ × Mat)) (N e : V6) (he : F.epsilon0 L N = .ok e) :
    F.epsilonk L N = .ok ((List.range L.length).map fun i => (F.strainAt e (F.zAt L i), F.strainAt e (F.zAt L (i + 1)))) := by
  simp [epsilonk, zPairs_eq, he, Function.comp_def]

theorem angles_range (l : Lam) : l.layup.map Prod.fst = (List.range l.layup.length).map l.angleAt := by
  conv_lhs => rw [list_eq_range_map (l.layup.map Prod.fst) 0]
  simp [Lam.angleAt]

theorem strain_ok (l : Lam) (N e : V6) (he : F.epsilon0 l.layup N = .ok e) :
    F.calculateStrain l.layup N = .ok ((List.range l.layup.length).flatMap fun i =>
      [(⟨i + 1, F.zAt l.layup i, .bot, l.angleAt i, F.strainAt e (F.zAt l.layup i),
          F.doubleShear (F.mv (F.Treal (l.angleAt i)) (F.halveShear (F.strainAt e (F.zAt l.layup i))))⟩ : Row),
       ⟨i + 1, F.zAt l.layup (i + 1), .top, l.angleAt i, F.strainAt e (F.zAt l.layup (i + 1)),
          F.doubleShear (F.mv (F.Treal (l.angleAt i)) (F.halveShear (F.strainAt e (F.zAt l.layup (i + 1)))))⟩]) := by
  have h := epsilonk_ok l.layup N e he
  simp only [calculateStrain, epsilonk123, h, ok_bind, pure_eq_ok, angles_range, List.zip_map', List.map_map, Function.comp_def]
  exact fillRows_ok l.layup _ _ _ _ _

theorem stress_ok (l : Lam) (N e : V6) (he : F.epsilon0 l.layup N = .ok e) (Qf : List M3) (hQ : F.Qlayup l.layup = .ok Qf) (hlen : Qf.length = l.layup.length) :
    F.calculateStress l.layup N = .ok ((List.range l.layup.length).flatMap fun i =>
      [(⟨i + 1, F.zAt l.layup i, .bot, l.angleAt i, F.mv (Qf.getD i 0) (F.strainAt e (F.zAt l.layup i)),
          F.mv (F.Treal (l.angleAt i)) (F.mv (Qf.getD i 0) (F.strainAt e (F.zAt l.layup i)))⟩ : Row),
       ⟨i + 1, F.zAt l.layup (i + 1), .top, l.angleAt i, F.mv (Qf.getD i 0) (F.strainAt e (F.zAt l.layup (i + 1))),
          F.mv (F.Treal (l.angleAt i)) (F.mv (Qf.getD i 0) (F.strainAt e (F.zAt l.layup (i + 1))))⟩]) := by
  have h := epsilonk_ok l.layup N e he
  have hq : Qf = (List.range l.layup.length).map fun i => Qf.getD i 0 := by
    conv_lhs => rw [list_eq_range_map Qf 0, hlen]
  have hk : F.stressk l.layup N = .ok ((List.range l.layup.length).map fun i =>
      (F.mv (Qf.getD i 0) (F.strainAt e (F.zAt l.layup i)), F.mv (Qf.getD i 0) (F.strainAt e (F.zAt l.layup (i + 1))))) := by
    simp only [stressk, hQ, h, ok_bind, pure_eq_ok]
    conv_lhs => rw [hq]
    simp only [List.zip_map', List.map_map, Function.comp_def]
  simp only [calculateStress, stressk123, hk, ok_bind, pure_eq_ok, angles_range, List.zip_map', List.map_map, Function.comp_def]
  exact fillRows_ok l.layup _ _ _ _ _

/-- The computed interfaces. -/
theorem zAt_within (l : Lam) (ht : NonnegThick l.layup) (i : ℕ) (hi : i ≤ l.layup.length) :
    Within (F.q ^ (2 * l.layup.length + 1)) (F.zAt l.layup i) (l.zAt i) (height l.layup / 2) := by
  have h1 : i < (F.zPositionOf l.layup).length := by rw [zLength]; omega
  have h2 : i < l.zPosition.length := by rw [zPosition_length]; omega
  have e1 : (F.zPositionOf l.layup)[i]? = some (F.zAt l.layup i) := by simp [zAt, h1]
  have e2 : l.zPosition[i]? = some (l.zAt i) := by simp [Lam.zAt, h2]
  rw [FloatArith.zPositionOf_eq] at e1
  rw [Lam.zPosition, zPositionOf_eq, totalThickness_eq, ← height] at e2
  have h := FloatArith.zRound_within (F := F.toFloatArith) (height l.layup / 2) (l.layup.map fun p => p.2.thickness)
    (by intro t h; obtain ⟨p, hp, rfl⟩ := List.mem_map.mp h; exact ht p hp) _ _ _ (FloatArith.z0_within l.layup ht)
    (by rw [← height]; linarith) i _ _ e1 e2
  exact h.mono (F.qpow_ge _) (F.qpow_mono (by omega)) le_rfl

/-- The strains and curvatures of the mid plane. -/
theorem epsilon0_within {gI : ℝ} (hI : 1 ≤ gI) {R' R Y : M6} (hR : ∀ i j, Within gI (R' i j) (R i j) (Y i j)) (N : V6) (i : I6) :
    Within (gI * F.q ^ 6) (F.mv6 R' N i) ((R *ᵥ N) i) (flexSize Y N i) := by
  have := mulVec_within (F.qpow_ge 6) hI hR (fun k => Within.exact (N k)) _ i (F.nearMv6 R' N i)
  rwa [mul_one] at this

/-- The strain at an interface. -/
theorem strainAt_within {gI : ℝ} (hI : 1 ≤ gI) {R' R Y : M6} (hR : ∀ i j, Within gI (R' i j) (R i j) (Y i j)) (N : V6) (l : Lam)
    (ht : NonnegThick l.layup) (k : ℕ) (hk : k ≤ l.layup.length) (i : Fin 3) :
    Within (gI * F.q ^ (2 * l.layup.length + 9)) (F.strainAt (F.mv6 R' N) (F.zAt l.layup k) i) (Composipy.strainAt (R *ᵥ N) (l.zAt k) i)
      (strainSize Y N (height l.layup / 2) i) := by
  have h1 := epsilon0_within (F := F) hI hR N
  have h2 := FloatArith.scale_fl (F := F.toFloatArith) (zAt_within (F := F) l ht k hk) (h1 (.inr i))
  exact FloatArith.add_fl (F := F.toFloatArith) hI (show 6 ≤ 2 * l.layup.length + 8 by omega) (show 2 * l.layup.length + 1 + 6 + 1 ≤ 2 * l.layup.length + 8 by omega)
    (h1 (.inl i)) h2

/-- Halving the shear. -/
theorem halve_within {g : ℝ} (hg : 1 ≤ g) {v' v X : V3} (h : ∀ i, Within g (v' i) (v i) (X i)) (i : Fin 3) :
    Within (g * F.q) (F.halveShear v' i) (Composipy.halveShear v i) (X i) := by
  by_cases hi : i = 2
  · subst hi
    simp only [halveShear, Composipy.halveShear, Function.update_self]
    have h2 : Within g (v' 2 / 2) (v 2 / 2) (X 2 / 2) := by
      have := (Within.exact (1 / 2 : ℝ)).mul le_rfl (h 2)
      rw [abs_of_pos (by norm_num : (0 : ℝ) < 1 / 2)] at this
      convert this using 1 <;> ring
    have h3 := FloatArith.fl_within (F := F.toFloatArith) h2
    exact h3.mono (one_le_mul_of_one_le_of_one_le hg F.q_ge) le_rfl (by linarith [(h 2).nonneg])
  · simp only [halveShear, Composipy.halveShear, Function.update_of_ne hi]
    exact (h i).mono hg (le_mul_of_one_le_right (by linarith) F.q_ge) le_rfl

/-- Doubling the shear. -/
theorem double_within {g : ℝ} (hg : 1 ≤ g) {v' v : V3} {X : ℝ} (h : ∀ i, Within g (v' i) (v i) X) (i : Fin 3) :
    Within (g * F.q) (F.doubleShear v' i) (Composipy.doubleShear v i) (2 * X) := by
  by_cases hi : i = 2
  · subst hi
    simp only [doubleShear, Composipy.doubleShear, Function.update_self]
    have h2 : Within g (v' 2 * 2) (v 2 * 2) (2 * X) := by
      have := (Within.exact (2 : ℝ)).mul le_rfl (h 2)
      rw [abs_of_pos (by norm_num : (0 : ℝ) < 2)] at this
      convert this using 1 <;> ring
    exact FloatArith.fl_within (F := F.toFloatArith) h2
  · simp only [doubleShear, Composipy.doubleShear, Function.update_of_ne hi]
    exact (h i).mono hg (le_mul_of_one_le_right (by linarith) F.q_ge) (by linarith [(h i).nonneg])

/-- Rotation to material axes. -/
theorem rotate_within {a g : ℝ} {t : ℝ} (ha : |t * Real.pi / 180| ≤ a) {v' v X : V3} (h : ∀ i, Within g (v' i) (v i) (X i)) (i : Fin 3) :
    Within (trigGrowth F.u a ^ 2 * F.q ^ 2 * g * F.q ^ 3) (F.mv (F.Treal t) v' i) ((Composipy.Treal t *ᵥ v) i) (2 * ∑ k, X k) := by
  have h1 : 1 ≤ trigGrowth F.u a ^ 2 * F.q ^ 2 :=
    one_le_mul_of_one_le_of_one_le (one_le_pow₀ (FloatLib.trigGrowth_ge (F := F.toFloatLib) ((abs_nonneg _).trans ha))) (F.qpow_ge 2)
  have := mulVec_within (X := Matrix.of fun _ _ => 2) (F.qpow_ge 3) h1 (fun i j => (FloatLib.T_within (F := F.toFloatLib) t a ha i j).2) h _ i (F.nearMv _ _ i)
  convert this using 1
  rw [Finset.mul_sum]; rfl

/-- Growth of the strains in material axes. -/
theorem epsilon0_ok {L : List (ℝ × Mat)} {M' R' : M6} (hM : F.ABD L = .ok M') (hR : F.inv6 M' = .ok R') (N : V6) : F.epsilon0 L N = .ok (F.mv6 R' N) := by
  simp [epsilon0, hM, hR]

end FloatClt

/-- Pairs of rows given ply by ply belong together. -/
theorem forall₂_pairs {α : Type} (P : α → α → Prop) (a b a' b' : ℕ → α) (n : ℕ) (h : ∀ i < n, P (a' i) (a i) ∧ P (b' i) (b i)) :
    List.Forall₂ P ((List.range n).flatMap fun i => [a' i, b' i]) ((List.range n).flatMap fun i => [a i, b i]) := by
  induction n with
  | zero => exact List.Forall₂.nil
  | succ n ih =>
    rw [List.range_succ, List.flatMap_append, List.flatMap_append]
    apply List.rel_append (ih fun i hi => h i (by omega))
    simpa using h n (by omega)

theorem forall₂_getElem? {α : Type} {P : α → α → Prop} {l' l : List α} (h : List.Forall₂ P l' l) {j : ℕ} {x y : α} (hx : l'[j]? = some x) (hy : l[j]? = some y) :
    P x y := by
  obtain ⟨hlt, rfl⟩ := List.getElem?_eq_some_iff.mp hx
  obtain ⟨hlt', rfl⟩ := List.getElem?_eq_some_iff.mp hy
  exact (List.forall₂_iff_get.mp h).2 j hlt hlt'

open FloatClt

/-- **C113** the strain table of a stack: computed with a flexibility within `gI` of the exact one, the rows are those of the exact table, one to one, and the strains have errors that are small
fractions of their sizes. -/
theorem C113_strain (F : FloatClt) (l : Lam) (hs : IsStack l) (ht : NonnegThick l.layup) (a : ℝ) (ha : ∀ p ∈ l.layup, |p.1 * Real.pi / 180| ≤ a)
    (N : V6) {M R M' R' Y : M6} {gI : ℝ} (hI : 1 ≤ gI) (hM : l.ABD = .ok M) (hR : npInv M = .ok R) (hM' : F.ABD l.layup = .ok M') (hR' : F.inv6 M' = .ok R')
    (hRR : ∀ i j, Within gI (R' i j) (R i j) (Y i j)) :
    ∃ rows rows', calculateStrain l N = .ok rows ∧ F.calculateStrain l.layup N = .ok rows' ∧
      List.Forall₂ (RowNear (((1 + F.u) ^ (2 * l.layup.length + 1) - 1) * (height l.layup / 2))
        (gI * (1 + F.u) ^ (2 * l.layup.length + 9)) (strainSize Y N (height l.layup / 2))
        (gI * trigGrowth F.u a ^ 2 * (1 + F.u) ^ (2 * l.layup.length + 16)) (fun _ => 4 * ∑ k, strainSize Y N (height l.layup / 2) k)) rows' rows := by
  have he : epsilon0 l N = .ok (R *ᵥ N) := by simp [epsilon0, hM, hR]
  refine ⟨_, _, by rw [hs.strain_eq, he]; rfl, strain_ok l N _ (epsilon0_ok hM' hR' N), ?_⟩
  apply forall₂_pairs
  intro i hi
  have key : ∀ k ≤ l.layup.length, (∀ j, Within (gI * F.q ^ (2 * l.layup.length + 9)) (F.strainAt (F.mv6 R' N) (F.zAt l.layup k) j)
      (strainAt (R *ᵥ N) (l.zAt k) j) (strainSize Y N (height l.layup / 2) j)) ∧
      ∀ j, Within (gI * trigGrowth F.u a ^ 2 * F.q ^ (2 * l.layup.length + 16))
        (F.doubleShear (F.mv (F.Treal (l.angleAt i)) (F.halveShear (F.strainAt (F.mv6 R' N) (F.zAt l.layup k)))) j)
        ((Teng (l.angleAt i) *ᵥ strainAt (R *ᵥ N) (l.zAt k)) j) (4 * ∑ k, strainSize Y N (height l.layup / 2) k) := by
    intro k hk
    have h1 := strainAt_within (F := F) hI hRR N l ht k hk
    refine ⟨h1, fun j => ?_⟩
    have hg1 : 1 ≤ gI * F.q ^ (2 * l.layup.length + 9) := FloatArith.gq_ge hI _
    have ha' : |l.angleAt i * Real.pi / 180| ≤ a := by
      rw [IsStack.angleAt_eq i hi]; exact ha _ (List.getElem_mem hi)
    have hg2 := one_le_mul_of_one_le_of_one_le hg1 F.q_ge
    have hg3 : 1 ≤ trigGrowth F.u a ^ 2 * F.q ^ 2 :=
      one_le_mul_of_one_le_of_one_le (one_le_pow₀ (FloatLib.trigGrowth_ge (F := F.toFloatLib) ((abs_nonneg _).trans ha'))) (F.qpow_ge 2)
    have h2 := rotate_within (F := F) ha' (halve_within (F := F) hg1 h1)
    have h3 := double_within (F := F) (one_le_mul_of_one_le_of_one_le (one_le_mul_of_one_le_of_one_le hg3 hg2) (F.qpow_ge 3)) h2 j
    rw [halve_double] at h3
    convert h3 using 1 <;> ring
  have hz := fun k hk => (zAt_within (F := F) l ht k hk).2
  exact ⟨⟨rfl, rfl, rfl, hz i (by omega), (key i (by omega)).1, (key i (by omega)).2⟩,
    ⟨rfl, rfl, rfl, hz (i + 1) (by omega), (key (i + 1) (by omega)).1, (key (i + 1) (by omega)).2⟩⟩

/-- **C113** the stress table of a stack, computed with rotated stiffnesses within `g` of the exact ones. -/
theorem C113_stress (F : FloatClt) (l : Lam) (hs : IsStack l) (ht : NonnegThick l.layup) (a : ℝ) (ha : ∀ p ∈ l.layup, |p.1 * Real.pi / 180| ≤ a)
    (N : V6) {M R M' R' Y : M6} {gI : ℝ} (hI : 1 ≤ gI) (hM : l.ABD = .ok M) (hR : npInv M = .ok R) (hM' : F.ABD l.layup = .ok M') (hR' : F.inv6 M' = .ok R')
    (hRR : ∀ i j, Within gI (R' i j) (R i j) (Y i j)) {Qs Qf : List M3} {X : M3} {g : ℝ} (hg : 1 ≤ g) (hQs : l.Qlayup = .ok Qs) (hQf : F.Qlayup l.layup = .ok Qf)
    (hQ : Computed g X Qf Qs) :
    ∃ rows rows', calculateStress l N = .ok rows ∧ F.calculateStress l.layup N = .ok rows' ∧
      List.Forall₂ (RowNear (((1 + F.u) ^ (2 * l.layup.length + 1) - 1) * (height l.layup / 2))
        (g * gI * (1 + F.u) ^ (2 * l.layup.length + 12)) (stressSize X Y N (height l.layup / 2))
        (g * gI * trigGrowth F.u a ^ 2 * (1 + F.u) ^ (2 * l.layup.length + 17)) (fun _ => 2 * ∑ k, stressSize X Y N (height l.layup / 2) k)) rows' rows := by
  have he : epsilon0 l N = .ok (R *ᵥ N) := by simp [epsilon0, hM, hR]
  have hall : AllOk l.layup := by
    by_contra h
    rw [hs.epsilon0_err N h] at he; cases he
  rw [l.Qlayup_ok hall] at hQs
  obtain rfl : l.layup.map plyQ! = Qs := by cases hQs; rfl
  have hlen : Qf.length = l.layup.length := by rw [hQ.length_eq, List.length_map]
  refine ⟨_, _, by rw [hs.stress_eq, he]; rfl, stress_ok l N _ (epsilon0_ok hM' hR' N) Qf hQf hlen, ?_⟩
  apply forall₂_pairs
  intro i hi
  have hQi : ∀ r c, Within g (Qf.getD i 0 r c) (l.QAt i r c) (X r c) := by
    have := (List.forall₂_iff_get.mp hQ).2 i (by omega) (by simpa using hi)
    intro r c
    have h := this r c
    simpa [Lam.QAt_eq l i hi, hlen ▸ hi, hi] using h
  have key : ∀ k ≤ l.layup.length, (∀ j, Within (g * gI * F.q ^ (2 * l.layup.length + 12)) (F.mv (Qf.getD i 0) (F.strainAt (F.mv6 R' N) (F.zAt l.layup k)) j)
      ((l.QAt i *ᵥ strainAt (R *ᵥ N) (l.zAt k)) j) (stressSize X Y N (height l.layup / 2) j)) ∧
      ∀ j, Within (g * gI * trigGrowth F.u a ^ 2 * F.q ^ (2 * l.layup.length + 17))
        (F.mv (F.Treal (l.angleAt i)) (F.mv (Qf.getD i 0) (F.strainAt (F.mv6 R' N) (F.zAt l.layup k))) j)
        ((Treal (l.angleAt i) *ᵥ (l.QAt i *ᵥ strainAt (R *ᵥ N) (l.zAt k))) j) (2 * ∑ k, stressSize X Y N (height l.layup / 2) k) := by
    intro k hk
    have h1 := strainAt_within (F := F) hI hRR N l ht k hk
    have hg1 : 1 ≤ gI * F.q ^ (2 * l.layup.length + 9) := FloatArith.gq_ge hI _
    have h2 : ∀ j, Within (g * gI * F.q ^ (2 * l.layup.length + 12)) (F.mv (Qf.getD i 0) (F.strainAt (F.mv6 R' N) (F.zAt l.layup k)) j)
        ((l.QAt i *ᵥ strainAt (R *ᵥ N) (l.zAt k)) j) (stressSize X Y N (height l.layup / 2) j) := by
      intro j
      have := mulVec_within (F.qpow_ge 3) hg hQi h1 _ j (F.nearMv _ _ j)
      convert this using 1
      · ring
      · rfl
    refine ⟨h2, fun j => ?_⟩
    have ha' : |l.angleAt i * Real.pi / 180| ≤ a := by
      rw [IsStack.angleAt_eq i hi]; exact ha _ (List.getElem_mem hi)
    have h3 := rotate_within (F := F) ha' h2 j
    convert h3 using 1; ring
  have hz := fun k hk => (zAt_within (F := F) l ht k hk).2
  exact ⟨⟨rfl, rfl, rfl, hz i (by omega), (key i (by omega)).1, (key i (by omega)).2⟩,
    ⟨rfl, rfl, rfl, hz (i + 1) (by omega), (key (i + 1) (by omega)).1, (key (i + 1) (by omega)).2⟩⟩

/-! ## The inverse -/

section Inverse
variable {ι : Type} [Fintype ι] [DecidableEq ι]

attribute [local instance] Matrix.linftyOpNormedRing

theorem norm_le_rows {A : Matrix ι ι ℝ} {c : ℝ} (hc : 0 ≤ c) (h : ∀ i, ∑ j, |A i j| ≤ c) : ‖A‖ ≤ c := by
  lift c to NNReal using hc
  rw [Matrix.linfty_opNorm_def, NNReal.coe_le_coe]
  apply Finset.sup_le
  intro i _
  rw [← NNReal.coe_le_coe]
  push_cast
  simpa using h i

theorem rows_le_norm (A : Matrix ι ι ℝ) (i : ι) : ∑ j, |A i j| ≤ ‖A‖ := by
  rw [Matrix.linfty_opNorm_def]
  have : (∑ j, ‖A i j‖₊) ≤ Finset.univ.sup fun i => ∑ j, ‖A i j‖₊ := Finset.le_sup (f := fun i => ∑ j, ‖A i j‖₊) (Finset.mem_univ i)
  have h := NNReal.coe_le_coe.mpr this
  push_cast at h
  simpa using h

/-- **C113** the inverse of a perturbed matrix: if the row sums of the exact inverse are at most `nu`, those of the perturbation at most `eps` and `nu eps < 1`, then the perturbed matrix
can be inverted and the rows of its inverse differ from those of the exact one by at most `nu^2 eps / (1 - nu eps)`. -/
theorem C113_inverse {M M' : Matrix ι ι ℝ} (hM : IsUnit M.det) {nu eps : ℝ} (hnu : 0 ≤ nu) (heps : 0 ≤ eps) (hrow : ∀ i, ∑ j, |M⁻¹ i j| ≤ nu)
    (hE : ∀ i, ∑ j, |M' i j - M i j| ≤ eps) (hlt : nu * eps < 1) :
    IsUnit M'.det ∧ ∀ i, ∑ j, |M'⁻¹ i j - M⁻¹ i j| ≤ nu * (nu * eps / (1 - nu * eps)) := by
  set E := M' - M with hEd
  have hR : ‖M⁻¹‖ ≤ nu := norm_le_rows hnu hrow
  have hE' : ‖E‖ ≤ eps := norm_le_rows heps (by intro i; simpa [hEd] using hE i)
  have hRE : ‖M⁻¹ * E‖ ≤ nu * eps := (norm_mul_le _ _).trans (mul_le_mul hR hE' (norm_nonneg _) hnu)
  have hu : IsUnit M'.det := by
    by_contra hdet
    have hdet0 : M'.det = 0 := by simpa using hdet
    obtain ⟨v, hv, h0⟩ := Matrix.exists_mulVec_eq_zero_iff.mpr hdet0
    have h1 : v = -((M⁻¹ * E) *ᵥ v) := by
      rw [← Matrix.mulVec_mulVec, hEd, Matrix.sub_mulVec, h0, zero_sub, Matrix.mulVec_neg, neg_neg, Matrix.mulVec_mulVec, Matrix.nonsing_inv_mul _ hM, Matrix.one_mulVec]
    have h2 : ‖v‖ ≤ nu * eps * ‖v‖ := by
      conv_lhs => rw [h1, norm_neg]
      exact (Matrix.linfty_opNorm_mulVec _ _).trans (mul_le_mul_of_nonneg_right hRE (norm_nonneg _))
    have h3 : 0 < ‖v‖ := norm_pos_iff.mpr hv
    nlinarith
  refine ⟨hu, fun i => ?_⟩
  have hid : M'⁻¹ - M⁻¹ = -(M⁻¹ * E * M'⁻¹) := by
    have e1 : M⁻¹ * M' * M'⁻¹ = M⁻¹ := by rw [Matrix.mul_assoc, Matrix.mul_nonsing_inv _ hu, Matrix.mul_one]
    rw [hEd, Matrix.mul_sub, Matrix.sub_mul, e1, Matrix.nonsing_inv_mul _ hM, Matrix.one_mul]; abel
  have h1 : ‖M'⁻¹ - M⁻¹‖ ≤ nu * eps * ‖M'⁻¹‖ := by
    rw [hid, norm_neg]
    exact (norm_mul_le _ _).trans (mul_le_mul_of_nonneg_right hRE (norm_nonneg _))
  have h2 : ‖M'⁻¹‖ ≤ nu + nu * eps * ‖M'⁻¹‖ := by
    calc ‖M'⁻¹‖ = ‖M⁻¹ + (M'⁻¹ - M⁻¹)‖ := by rw [add_sub_cancel]
      _ ≤ ‖M⁻¹‖ + ‖M'⁻¹ - M⁻¹‖ := norm_add_le _ _
      _ ≤ _ := add_le_add hR h1
  have hp : 0 < 1 - nu * eps := by linarith
  have h3 : ‖M'⁻¹‖ ≤ nu / (1 - nu * eps) := by rw [le_div_iff₀ hp]; nlinarith
  have h4 := rows_le_norm (M'⁻¹ - M⁻¹) i
  have h5 : nu * eps * ‖M'⁻¹‖ ≤ nu * eps * (nu / (1 - nu * eps)) := mul_le_mul_of_nonneg_left h3 (mul_nonneg hnu heps)
  calc ∑ j, |M'⁻¹ i j - M⁻¹ i j| ≤ nu * eps * (nu / (1 - nu * eps)) := (by simpa using h4 : _ ≤ ‖M'⁻¹ - M⁻¹‖).trans (h1.trans h5)
    _ = _ := by ring

end Inverse

/-! ## Margins -/

namespace Spec

/-- A margin of at least `eta`; an infinite margin counts. -/
def AtLeast (eta : ℝ) : PyFloat → Prop
  | .pinf => True
  | .fin r => eta ≤ r
  | _ => False

/-- The stresses `s` in material axes are within the allowables `t1, c1, t2, c2, s`. -/
structure WithinAllowables (a : V5) (s : V3) : Prop where
  t1 : s 0 ≤ a 0
  c1 : -s 0 ≤ a 1
  t2 : s 1 ≤ a 2
  c2 : -s 1 ≤ a 3
  shear : |s 2| ≤ a 4

end Spec

/-- A rounded number that is at least `eta`. -/
theorem fl_ge (F : FloatArith) (hu : F.u < 1) {eta x : ℝ} (he : 0 ≤ eta) (h : eta ≤ F.fl x) : 0 ≤ x ∧ eta ≤ (1 + F.u) * x := by
  have hn := abs_le.mp (F.near x)
  have hu0 := F.u_nonneg
  rcases le_or_gt 0 x with hx | hx
  · rw [abs_of_nonneg hx] at hn
    exact ⟨hx, by linarith⟩
  · rw [abs_of_neg hx] at hn
    nlinarith

/-- A computed margin of at least `eta` bounds the computed stress. -/
theorem margin_bound (F : FloatClt) (hu : F.u < 1) {eta allow d : ℝ} (he : 0 ≤ eta) (ha : 0 < allow) (hd : 0 ≤ d)
    (h : AtLeast eta (F.subOne (npDiv allow d))) : d * (1 + eta / (1 + F.u)) ≤ (1 + F.u) * allow := by
  have hu0 := F.u_nonneg
  have hq : 0 < 1 + F.u := by linarith
  rcases hd.eq_or_lt with rfl | hd
  · rw [zero_mul]; positivity
  · rw [npDiv, if_neg hd.ne'] at h
    have h1 := fl_ge F.toFloatArith hu he (show eta ≤ F.fl (F.fl (allow / d) - 1) from h)
    have h2 : 1 + eta / (1 + F.u) ≤ F.fl (allow / d) := by
      have : eta / (1 + F.u) ≤ F.fl (allow / d) - 1 := by rw [div_le_iff₀ hq]; linarith [h1.2]
      linarith
    have hp : 0 ≤ 1 + eta / (1 + F.u) := by positivity
    have h3 := (fl_ge F.toFloatArith hu hp h2).2
    rw [← mul_div_assoc, le_div_iff₀ hd] at h3
    linarith

/-- A computed margin large enough for the errors of the stresses: the exact stress is within the allowable. -/
theorem margin_safe (F : FloatClt) (hu : F.u < 1) {eta kap e allow d' d : ℝ} (ha : 0 < allow) (hd : 0 ≤ d') (hdd : d ≤ d' + e) (he : 0 ≤ e)
    (hk : F.u + 2 * e / allow ≤ kap) (hk1 : kap ≤ 1) (heta : (1 + F.u) * kap ≤ eta) (h : AtLeast eta (F.subOne (npDiv allow d'))) : d ≤ allow := by
  have hu0 := F.u_nonneg
  have hq : 0 < 1 + F.u := by linarith
  have h0 : 0 ≤ 2 * e / allow := by positivity
  have hk0 : 0 ≤ kap := by linarith
  have h1 := margin_bound F hu ((mul_nonneg hq.le hk0).trans heta) ha hd h
  have h2 : kap ≤ eta / (1 + F.u) := by rw [le_div_iff₀ hq]; linarith
  have h3 : d' * (1 + kap) ≤ (1 + F.u) * allow := (mul_le_mul_of_nonneg_left (by linarith) hd).trans h1
  have h4 : F.u * allow + 2 * e ≤ kap * allow := by
    have := mul_le_mul_of_nonneg_right hk ha.le
    rwa [add_mul, div_mul_cancel₀ _ ha.ne'] at this
  have h5 : d * (1 + kap) ≤ allow * (1 + kap) := by nlinarith
  exact le_of_mul_le_mul_right h5 (by linarith)

/-- **C113** a sufficient computed margin is a guarantee: if the stresses were computed with errors up to `e` and all five computed margins are at least `eta`, somewhat more than
`u + 2 e / allowable`, then the exact stresses are within the allowables. -/
theorem C113_safe (F : FloatClt) (hu : F.u < 1) {a : V5} (ha : ∀ i, 0 < a i) {s' s : V3} {e kap eta : ℝ} (he : ∀ i, |s' i - s i| ≤ e)
    (hk : ∀ i, F.u + 2 * e / a i ≤ kap) (hk1 : kap ≤ 1) (heta : (1 + F.u) * kap ≤ eta) (h : ∀ i, AtLeast eta (F.margins a s' i)) : WithinAllowables a s := by
  have he0 : 0 ≤ e := (abs_nonneg _).trans (he 0)
  have hs := fun i => abs_le.mp (he i)
  have tens : ∀ (i : Fin 3) (j : Fin 5), AtLeast eta (F.marginT (a j) (s' i)) → s i ≤ a j := by
    intro i j h
    refine margin_safe F hu (ha j) ?_ ?_ he0 (hk j) hk1 heta h
    · split_ifs with hneg
      · rfl
      · linarith
    · have := (hs i).1
      split_ifs with hneg <;> linarith
  have comp : ∀ (i : Fin 3) (j : Fin 5), AtLeast eta (F.marginC (a j) (s' i)) → -s i ≤ a j := by
    intro i j h
    refine margin_safe F hu (ha j) (abs_nonneg _) ?_ he0 (hk j) hk1 heta h
    have := (hs i).2
    split_ifs with hneg
    · rw [abs_zero]; linarith
    · rw [abs_of_nonpos (by linarith)]; linarith
  refine ⟨tens 0 0 (h 0), comp 0 1 (h 1), tens 1 2 (h 2), comp 1 3 (h 3), ?_⟩
  refine margin_safe F hu (ha 4) (abs_nonneg _) ?_ he0 (hk 4) hk1 heta (h 4)
  have := abs_sub_abs_le_abs_sub (s 2) (s' 2)
  rw [abs_sub_comm] at this
  linarith [he 2]

/-- A stress below the allowable by more than the errors gets a nonnegative margin. -/
theorem margin_quiet (F : FloatClt) (hu : F.u < 1) {allow d : ℝ} (ha : 0 < allow) (hd : 0 ≤ d) (h : d ≤ (1 - F.u) * allow) :
    AtLeast 0 (F.subOne (npDiv allow d)) := by
  rcases hd.eq_or_lt with rfl | hd
  · rw [npDiv, if_pos rfl, if_neg ha.ne', if_neg (not_lt.mpr ha.le)]; trivial
  · rw [npDiv, if_neg hd.ne']
    have h0 : 0 < allow / d := div_pos ha hd
    have h1 : 1 ≤ F.fl (allow / d) := by
      have hn := abs_le.mp (F.near (allow / d))
      rw [abs_of_pos h0] at hn
      have : 1 ≤ (1 - F.u) * (allow / d) := by rw [← mul_div_assoc, le_div_iff₀ hd]; linarith
      linarith
    have hn := abs_le.mp (F.near (F.fl (allow / d) - 1))
    rw [abs_of_nonneg (by linarith : 0 ≤ F.fl (allow / d) - 1)] at hn
    change (0 : ℝ) ≤ F.fl (F.fl (allow / d) - 1)
    nlinarith

/-- **C113** no false alarm: exact stresses that leave `u` of the allowable and the errors of the stresses get nonnegative computed margins. -/
theorem C113_quiet (F : FloatClt) (hu : F.u < 1) {a : V5} (ha : ∀ i, 0 < a i) {s' s : V3} {e : ℝ} (he : ∀ i, |s' i - s i| ≤ e) (hea : ∀ i, e ≤ (1 - F.u) * a i)
    (h : WithinAllowables (fun i => (1 - F.u) * a i - e) s) (i : Fin 5) : AtLeast 0 (F.margins a s' i) := by
  have hs := fun i => abs_le.mp (he i)
  have he0 : 0 ≤ e := (abs_nonneg _).trans (he 0)
  have tens : ∀ (i : Fin 3) (j : Fin 5), s i ≤ (1 - F.u) * a j - e → AtLeast 0 (F.marginT (a j) (s' i)) := by
    intro i j h
    refine margin_quiet F hu (ha j) ?_ ?_
    · split_ifs with hneg
      · rfl
      · linarith
    · have := (hs i).2
      have := hea j
      split_ifs with hneg <;> linarith
  have comp : ∀ (i : Fin 3) (j : Fin 5), -s i ≤ (1 - F.u) * a j - e → AtLeast 0 (F.marginC (a j) (s' i)) := by
    intro i j h
    refine margin_quiet F hu (ha j) (abs_nonneg _) ?_
    have := (hs i).1
    have := hea j
    split_ifs with hneg
    · rw [abs_zero]; linarith
    · rw [abs_of_nonpos (by linarith)]; linarith
  have h4 : AtLeast 0 (F.marginS (a 4) (s' 2)) := by
    refine margin_quiet F hu (ha 4) (abs_nonneg _) ?_
    have := abs_sub_abs_le_abs_sub (s' 2) (s 2)
    have h5 : |s 2| ≤ (1 - F.u) * a 4 - e := h.shear
    linarith [he 2]
  fin_cases i
  · exact tens 0 0 h.t1
  · exact comp 0 1 h.c1
  · exact tens 1 2 h.t2
  · exact comp 1 3 h.c2
  · exact h4

/-- The computed margin table. -/
theorem FloatClt.margin_ok {F : FloatClt} {l : Lam} (hs : IsStack l) (ha : HasAllowables l) {N : V6} {sb st : ℕ → Row}
    (h : F.calculateStress l.layup N = .ok ((List.range l.layup.length).flatMap fun i => [sb i, st i])) :
    F.calculateMargin l N = .ok ((List.range l.layup.length).flatMap fun i =>
      [(⟨i + 1, .top, l.angleAt i, F.margins (l.allowAt i) (sb i).m12, idxmin (F.margins (l.allowAt i) (sb i).m12)⟩ : MarginRow),
       ⟨i + 1, .bot, l.angleAt i, F.margins (l.allowAt i) (st i).m12, idxmin (F.margins (l.allowAt i) (st i).m12)⟩]) := by
  simp only [calculateMargin, calculateAllowable, allowablek_ok l ha, hs.iter_eq, ok_bind, pure_eq_ok, h, Except.ok.injEq, List.zip_map', zipIdx_range_map,
    List.flatMap_map]
  rw [List.zip, zipWith_flatMap_pair, List.map_flatMap]
  rfl

/-- The computed margin table row by row: the margins of the computed stresses. -/
theorem computed_margin_rows (F : FloatClt) (l : Lam) (hs : IsStack l) (ht : NonnegThick l.layup) (a : ℝ) (ha : ∀ p ∈ l.layup, |p.1 * Real.pi / 180| ≤ a)
    (N : V6) {M R M' R' Y : M6} {gI : ℝ} (hI : 1 ≤ gI) (hM : l.ABD = .ok M) (hR : npInv M = .ok R) (hM' : F.ABD l.layup = .ok M') (hR' : F.inv6 M' = .ok R')
    (hRR : ∀ i j, Within gI (R' i j) (R i j) (Y i j)) {Qs Qf : List M3} {X : M3} {g : ℝ} (hg : 1 ≤ g) (hQs : l.Qlayup = .ok Qs) (hQf : F.Qlayup l.layup = .ok Qf)
    (hQ : Computed g X Qf Qs) (hal : HasAllowables l) :
    ∃ rows rows' ms, calculateStress l N = .ok rows ∧ F.calculateStress l.layup N = .ok rows' ∧ F.calculateMargin l N = .ok ms ∧ ms.length = rows.length ∧
      List.Forall₂ (RowNear (((1 + F.u) ^ (2 * l.layup.length + 1) - 1) * (height l.layup / 2))
        (g * gI * (1 + F.u) ^ (2 * l.layup.length + 12)) (stressSize X Y N (height l.layup / 2))
        (g * gI * trigGrowth F.u a ^ 2 * (1 + F.u) ^ (2 * l.layup.length + 17)) (fun _ => 2 * ∑ k, stressSize X Y N (height l.layup / 2) k)) rows' rows ∧
      ∀ (j : ℕ) (r : MarginRow) (s : Row), ms[j]? = some r → rows[j]? = some s →
        ∃ p s', l.layup[j / 2]? = some p ∧ p.2.allowables = .ok (l.allowAt (j / 2)) ∧ rows'[j]? = some s' ∧ r.ply = s'.ply ∧ r.angle = s'.angle ∧
          r.margin = F.margins (l.allowAt (j / 2)) s'.m12 := by
  have he0 : epsilon0 l N = .ok (R *ᵥ N) := by simp [epsilon0, hM, hR]
  have hlen : Qf.length = l.layup.length := by
    have hall : AllOk l.layup := by
      by_contra h
      rw [hs.epsilon0_err N h] at he0; cases he0
    rw [l.Qlayup_ok hall] at hQs
    obtain rfl : l.layup.map plyQ! = Qs := by cases hQs; rfl
    rw [hQ.length_eq, List.length_map]
  obtain ⟨rows, rows', h1, h2, h3⟩ := C113_stress F l hs ht a ha N hI hM hR hM' hR' hRR hg hQs hQf hQ
  have h4 := stress_ok l N _ (epsilon0_ok hM' hR' N) Qf hQf hlen
  have h5 := FloatClt.margin_ok hs hal h4
  have h2' := h2
  rw [h4] at h2
  refine ⟨rows, rows', _, h1, h2', h5, ?_, h3, ?_⟩
  · rw [← h3.length_eq]
    cases h2
    rw [flatMap_pair_length, flatMap_pair_length]
  intro j r s hr hrow
  have hj : j < 2 * l.layup.length := by
    by_contra hn
    rw [List.getElem?_eq_none (by rw [flatMap_pair_length]; omega)] at hr
    cases hr
  have hk : j / 2 < l.layup.length := by omega
  obtain ⟨m, hm⟩ := hal _ (List.getElem_mem hk)
  have hv : (l.layup[j / 2]).2.allowables = .ok (l.allowAt (j / 2)) := by
    rw [l.allowAt_eq _ hk m hm, hm]; rfl
  -- the computed stress row
  obtain ⟨s', hs'⟩ : ∃ s', rows'[j]? = some s' := by
    have : j < rows'.length := by
      cases h2; rw [flatMap_pair_length]; exact hj
    exact ⟨_, List.getElem?_eq_getElem this⟩
  have hrel : r.ply = s'.ply ∧ r.angle = s'.angle ∧ r.margin = F.margins (l.allowAt (j / 2)) s'.m12 := by
    cases h2
    rcases Nat.even_or_odd' j with ⟨k, rfl | rfl⟩
    · have hk2 : 2 * k / 2 = k := by omega
      rw [hk2] at hk
      rw [(flatMap_pair_get _ _ _ k hk).1] at hr hs'
      cases hr; cases hs'
      rw [hk2]
      exact ⟨rfl, rfl, rfl⟩
    · have hk2 : (2 * k + 1) / 2 = k := by omega
      rw [hk2] at hk
      rw [(flatMap_pair_get _ _ _ k hk).2] at hr hs'
      cases hr; cases hs'
      rw [hk2]
      exact ⟨rfl, rfl, rfl⟩
  exact ⟨_, s', List.getElem?_eq_getElem hk, hv, hs', hrel⟩

/-- **C113** the margin table of a stack: it has the rows of the stress table; where all five computed margins are at least `eta`, the exact stresses are within the allowables; where the exact
stresses leave `u` of the allowables and the errors, no computed margin is negative. -/
theorem C113_margins (F : FloatClt) (hu : F.u < 1) (l : Lam) (hs : IsStack l) (ht : NonnegThick l.layup) (a : ℝ) (ha : ∀ p ∈ l.layup, |p.1 * Real.pi / 180| ≤ a)
    (N : V6) {M R M' R' Y : M6} {gI : ℝ} (hI : 1 ≤ gI) (hM : l.ABD = .ok M) (hR : npInv M = .ok R) (hM' : F.ABD l.layup = .ok M') (hR' : F.inv6 M' = .ok R')
    (hRR : ∀ i j, Within gI (R' i j) (R i j) (Y i j)) {Qs Qf : List M3} {X : M3} {g : ℝ} (hg : 1 ≤ g) (hQs : l.Qlayup = .ok Qs) (hQf : F.Qlayup l.layup = .ok Qf)
    (hQ : Computed g X Qf Qs) (hal : HasAllowables l) {e kap eta : ℝ}
    (he : (g * gI * trigGrowth F.u a ^ 2 * (1 + F.u) ^ (2 * l.layup.length + 17) - 1) * (2 * ∑ k, stressSize X Y N (height l.layup / 2) k) ≤ e)
    (hpos : ∀ p ∈ l.layup, ∀ v, p.2.allowables = .ok v → ∀ i, 0 < v i ∧ F.u + 2 * e / v i ≤ kap) (hk1 : kap ≤ 1) (heta : (1 + F.u) * kap ≤ eta) :
    ∃ rows ms, calculateStress l N = .ok rows ∧ F.calculateMargin l N = .ok ms ∧ ms.length = rows.length ∧
      ∀ (j : ℕ) (r : MarginRow) (s : Row), ms[j]? = some r → rows[j]? = some s →
        ∃ p v, l.layup[j / 2]? = some p ∧ p.2.allowables = .ok v ∧ r.ply = s.ply ∧ r.angle = s.angle ∧
          ((∀ i, AtLeast eta (r.margin i)) → WithinAllowables v s.m12) ∧
          (WithinAllowables (fun i => (1 - F.u) * v i - e) s.m12 → (∀ i, e ≤ (1 - F.u) * v i) → ∀ i, AtLeast 0 (r.margin i)) := by
  obtain ⟨rows, rows', ms, h1, h2, h5, h6, h3, h7⟩ := computed_margin_rows F l hs ht a ha N hI hM hR hM' hR' hRR hg hQs hQf hQ hal
  refine ⟨rows, ms, h1, h5, h6, fun j r s hr hrow => ?_⟩
  obtain ⟨p, s', hk, hv, hs', hrel⟩ := h7 j r s hr hrow
  refine ⟨_, _, hk, hv, ?_⟩
  have hpos' := hpos p (List.mem_of_getElem? hk) _ hv
  have hnear := forall₂_getElem? h3 hs' hrow
  have herr : ∀ i, |s'.m12 i - s.m12 i| ≤ e := fun i => (hnear.m12 i).2.trans he
  refine ⟨hrel.1.trans hnear.ply, hrel.2.1.trans hnear.angle, fun h => ?_, fun h hea => ?_⟩
  · rw [hrel.2.2] at h
    exact C113_safe F hu (fun i => (hpos' i).1) herr (fun i => (hpos' i).2) hk1 heta h
  · rw [hrel.2.2]
    exact C113_quiet F hu (fun i => (hpos' i).1) herr hea h

/-- **C113** the flexibility matrix computed from a perturbed stiffness matrix by an inverse that is accurate to `gam nu`. -/
theorem C113_flexibility (F : FloatClt) {M M' R R' : M6} (hR : npInv M = .ok R) {nu eps gam : ℝ} (hnu : 0 ≤ nu) (heps : 0 ≤ eps) (hrow : ∀ i, ∑ j, |R i j| ≤ nu)
    (hE : ∀ i, ∑ j, |M' i j - M i j| ≤ eps) (hlt : nu * eps < 1) (hacc : IsUnit M'.det → F.inv6 M' = .ok R' ∧ ∀ i j, |R' i j - M'⁻¹ i j| ≤ gam * nu) :
    F.inv6 M' = .ok R' ∧ ∀ i j, Within (1 + gam + nu * eps / (1 - nu * eps)) (R' i j) (R i j) nu := by
  have hdet : M.det ≠ 0 := by
    intro h
    simp [npInv, h] at hR
  obtain rfl : M⁻¹ = R := by
    simp only [npInv, if_neg hdet, Except.ok.injEq] at hR
    exact hR
  obtain ⟨hu', h⟩ := C113_inverse (isUnit_iff_ne_zero.mpr hdet) hnu heps hrow hE hlt
  refine ⟨(hacc hu').1, fun i j => ?_⟩
  have h1 : |M⁻¹ i j| ≤ nu := (Finset.single_le_sum (f := fun j => |M⁻¹ i j|) (fun _ _ => abs_nonneg _) (Finset.mem_univ j)).trans (hrow i)
  have h2 : |M'⁻¹ i j - M⁻¹ i j| ≤ nu * (nu * eps / (1 - nu * eps)) :=
    (Finset.single_le_sum (f := fun j => |M'⁻¹ i j - M⁻¹ i j|) (fun _ _ => abs_nonneg _) (Finset.mem_univ j)).trans (h i)
  refine ⟨h1, ?_⟩
  calc |R' i j - M⁻¹ i j| ≤ |R' i j - M'⁻¹ i j| + |M'⁻¹ i j - M⁻¹ i j| := abs_sub_le _ _ _
    _ ≤ gam * nu + nu * (nu * eps / (1 - nu * eps)) := add_le_add ((hacc hu').2 i j) h2
    _ = _ := by ring

/-- **C113** the stiffness matrix `ABD` computed from the material constants: the row sums of its error. -/
theorem C113_ABD (F : FloatClt) (r a gI S : ℝ) (hr0 : 0 ≤ r) (hr : r < 1) (he : denErr F.u r < 1) (ha : 0 ≤ a) (hI : 1 ≤ gI) (l : Lam) (hs : IsStack l)
    (ht : NonnegThick l.layup) (hp : ∀ p ∈ l.layup, PlyOk F.toFloatLib r a gI p) (hS : ∀ p ∈ l.layup, ∀ Q, p.2.Q0 = .ok Q → entrySum Q ≤ S) (hS0 : 0 ≤ S) :
    ∃ M M' Qs Qf, l.ABD = .ok M ∧ F.ABD l.layup = .ok M' ∧ l.Qlayup = .ok Qs ∧ F.Qlayup l.layup = .ok Qf ∧
      Computed (plyGrowth F.u r a gI) (Matrix.of fun _ _ => 4 * S) Qf Qs ∧
      ∀ i, ∑ j, |M' i j - M i j| ≤ (plyGrowth F.u r a gI * (1 + F.u) ^ (7 * l.layup.length + 8) - 1) *
        (12 * l.layup.length * S * (height l.layup + height l.layup ^ 2 / 4 + height l.layup ^ 3 / 12)) := by
  have hg := plyGrowth_ge F.toFloatLib hr0 hr he ha hI
  obtain ⟨Qs, Qf, q1, q2, q3⟩ := computed_plies F.toFloatLib r a gI S hr he hI hg l.layup hp hS
  obtain ⟨A, A', B, B', D, D', a1, b1, d1, a2, b2, d2, h⟩ := C111_stack F.toFloatLib r a gI S hr0 hr he ha hI l hs ht hp hS
  refine ⟨Matrix.fromBlocks A B B D, Matrix.fromBlocks A' B' B' D', Qs, Qf, by simp [Lam.ABD, a1, b1, d1], by simp [FloatClt.ABD, a2, b2, d2], q1, q2, q3, ?_⟩
  have hh := height_nonneg ht
  set n := l.layup.length
  set G := plyGrowth F.u r a gI
  set H := height l.layup
  have hn : (0 : ℝ) ≤ n := Nat.cast_nonneg n
  have mono : ∀ k ≤ 7 * n + 8, G * (1 + F.u) ^ k - 1 ≤ G * (1 + F.u) ^ (7 * n + 8) - 1 := fun k hk => by
    have := mul_le_mul_of_nonneg_left (F.qpow_mono hk) (by linarith : 0 ≤ G)
    exact sub_le_sub_right this 1
  set W := G * (1 + F.u) ^ (7 * n + 8) - 1
  have hW : 0 ≤ W := by
    have := FloatArith.gq_ge (F := F.toFloatArith) hg (7 * n + 8)
    exact sub_nonneg.mpr this
  have hA : ∀ i j, |A' i j - A i j| ≤ W * (H * (n * (4 * S))) := fun i j =>
    (h i j).1.trans (mul_le_mul_of_nonneg_right (mono _ (by omega)) (by positivity))
  have hB : ∀ i j, |B' i j - B i j| ≤ W * (H ^ 2 / 4 * (n * (4 * S))) := fun i j =>
    (h i j).2.1.trans (mul_le_mul_of_nonneg_right (mono _ (by omega)) (by positivity))
  have hD : ∀ i j, |D' i j - D i j| ≤ W * (H ^ 3 / 12 * (n * (4 * S))) := fun i j => (h i j).2.2
  have pos1 : 0 ≤ W * (H * (n * (4 * S))) := by positivity
  have pos2 : 0 ≤ W * (H ^ 3 / 12 * (n * (4 * S))) := by positivity
  have e : W * (12 * n * S * (H + H ^ 2 / 4 + H ^ 3 / 12)) =
    3 * (W * (H * (n * (4 * S)))) + 3 * (W * (H ^ 2 / 4 * (n * (4 * S)))) + 3 * (W * (H ^ 3 / 12 * (n * (4 * S)))) := by ring
  rw [e]
  intro i
  rcases i with i | i
  · simp only [Fintype.sum_sum_type, Matrix.fromBlocks_apply₁₁, Matrix.fromBlocks_apply₁₂, Fin.sum_univ_three]
    linarith [hA i 0, hA i 1, hA i 2, hB i 0, hB i 1, hB i 2]
  · simp only [Fintype.sum_sum_type, Matrix.fromBlocks_apply₂₁, Matrix.fromBlocks_apply₂₂, Fin.sum_univ_three]
    linarith [hD i 0, hD i 1, hD i 2, hB i 0, hB i 1, hB i 2]

/-! ## Example -/

open Classical in
/-- A library that rounds every result to nearest. -/
noncomputable def nearestClt (p : ℕ) : FloatClt where
  toFloatLib := nearestLib p
  mv := fun A x i => nearest p ((A *ᵥ x) i)
  mv6 := fun A x i => nearest p ((A *ᵥ x) i)
  inv6 := fun M => if M.det = 0 then .error .linAlgError else .ok (fun i j => nearest p (M⁻¹ i j))
  nearMv := fun A x i => by
    refine (nearest_near p _).trans ?_
    have hu : (0 : ℝ) ≤ (nearestArith p).u := FloatArith.u_nonneg _
    have h1 : |(A *ᵥ x) i| ≤ ∑ k, |A i k| * |x k| := by
      simp only [Matrix.mulVec, dotProduct]
      exact (Finset.abs_sum_le_sum_abs _ _).trans (Finset.sum_le_sum fun k _ => (abs_mul _ _).le)
    have h2 : (nearestArith p).u ≤ (1 + (nearestArith p).u) ^ 3 - 1 := by
      have := one_add_mul_le_pow (show (-2 : ℝ) ≤ (nearestArith p).u by linarith) 3
      push_cast at this; linarith
    exact mul_le_mul h2 h1 (abs_nonneg _) (hu.trans h2)
  nearMv6 := fun A x i => by
    refine (nearest_near p _).trans ?_
    have hu : (0 : ℝ) ≤ (nearestArith p).u := FloatArith.u_nonneg _
    have h1 : |(A *ᵥ x) i| ≤ ∑ k, |A i k| * |x k| := by
      simp only [Matrix.mulVec, dotProduct]
      exact (Finset.abs_sum_le_sum_abs _ _).trans (Finset.sum_le_sum fun k _ => (abs_mul _ _).le)
    have h2 : (nearestArith p).u ≤ (1 + (nearestArith p).u) ^ 6 - 1 := by
      have := one_add_mul_le_pow (show (-2 : ℝ) ≤ (nearestArith p).u by linarith) 6
      push_cast at this; linarith
    exact mul_le_mul h2 h1 (abs_nonneg _) (hu.trans h2)

/-- Stiffness of the example ply. -/
noncomputable def exQ : M3 := !![12, 0, 0; 0, 12, 0; 0, 0, 6]
/-- The example ply: the same stiffness in every direction. -/
noncomputable def exPly : Mat := .ortho ⟨12, 12, 0, 6, 1 / 2, 10, 10, 10, 10, 10⟩

theorem exQ0 : exPly.Q0 = .ok exQ := by
  simp [exPly, Mat.Q0, OrthoMat.Q0, exQ, pyDiv]

theorem exPlyQ (t : ℝ) : plyQ (t, exPly) = .ok exQ := by
  simp only [plyQ, npInv_Treal, exQ0, ok_bind, pure_eq_ok, Except.ok.injEq]
  have h : cosd t ^ 2 + sind t ^ 2 = 1 := Real.cos_sq_add_sin_sq (t * Real.pi / 180)
  generalize hc : cosd t = c at h
  generalize hs : sind t = s at h
  ext i j
  fin_cases i <;> fin_cases j <;> simp [exQ, Teng, Matrix.mul_apply, Fin.sum_univ_three, hc, hs] <;>
    first | ring1 | linear_combination (12 * (c ^ 2 + s ^ 2 + 1)) * h | linear_combination (6 * (c ^ 2 + s ^ 2 + 1)) * h

/-- The stiffness matrix of the example. -/
noncomputable def exABD : M6 := Matrix.fromBlocks exQ 0 0 ((1 / 12 : ℝ) • exQ)
/-- Its inverse. -/
noncomputable def exInv : M6 := Matrix.fromBlocks !![1/12, 0, 0; 0, 1/12, 0; 0, 0, 1/6] 0 0 !![1, 0, 0; 0, 1, 0; 0, 0, 2]

theorem exInv_eq : npInv exABD = .ok exInv := by
  have h : exABD * exInv = 1 := by
    rw [exABD, exInv, Matrix.fromBlocks_multiply, ← Matrix.fromBlocks_one]
    congr 1 <;> ext i j <;> fin_cases i <;> fin_cases j <;> simp [exQ]; norm_num
  have hd : exABD.det ≠ 0 := by
    intro h0
    have := congrArg Matrix.det h
    rw [Matrix.det_mul, h0] at this
    simp at this
  rw [npInv, if_neg hd, Matrix.inv_eq_right_inv h]

theorem exABD_eq (l : Lam) (hs : IsStack l) (hlay : l.layup = [(30, exPly), (45, exPly)]) : l.ABD = .ok exABD := by
  have hQ : l.Qlayup = .ok [exQ, exQ] := by
    simp [Lam.Qlayup, hlay, List.mapM_cons, exPlyQ]
  have hz : l.zPosition = [-1 / 2, 0, 1 / 2] := by
    rw [Lam.zPosition, zPositionOf_eq, totalThickness_eq, hlay]
    simp [exPly, Mat.thickness, zList]
    norm_num
  have key : ∀ w, l.loopMatrix w = .ok ((w (-1 / 2) 0 + w 0 (1 / 2)) • exQ) := by
    intro w
    simp [Lam.loopMatrix, hQ, hz, momentLoop, List.zipIdx, pyIdx, add_smul]
  have hB : l.B = l.loopMatrix wB := rfl
  simp only [Lam.ABD, hs.A_eq, hs.D_eq, hB, key, ok_bind, pure_eq_ok, Except.ok.injEq, exABD]
  congr 1
  · norm_num [wA]
  · norm_num [wB]
  · norm_num [wB]
  · norm_num [wD]

theorem exMul (M : M3) (v : V3) (hM : M = exQ) : M *ᵥ v = ![12 * v 0, 12 * v 1, 6 * v 2] := by
  subst hM
  ext i
  fin_cases i <;> simp [exQ, Matrix.mulVec, dotProduct, Fin.sum_univ_three]

/-- The load of the example. -/
noncomputable def exN : V6 := Sum.elim ![1, 0, 0] ![0, 0, 0]

theorem exRows (l : Lam) (hs : IsStack l) (hlay : l.layup = [(30, exPly), (45, exPly)]) (rows : List Row) (h : calculateStress l exN = .ok rows) :
    rows.length = 4 ∧ ∀ s ∈ rows, ∃ t, s.m12 = Treal t *ᵥ ![1, 0, 0] := by
  have he : epsilon0 l exN = .ok (exInv *ᵥ exN) := by simp [epsilon0, exABD_eq l hs hlay, exInv_eq]
  have hN : exInv *ᵥ exN = Sum.elim ![1 / 12, 0, 0] ![0, 0, 0] := by
    rw [exInv, exN, Matrix.fromBlocks_mulVec]
    congr 1 <;> ext i <;> fin_cases i <;> simp
  rw [hs.stress_eq, he, hN] at h
  simp only [ok_map, Except.ok.injEq] at h
  subst h
  have hlen : l.layup.length = 2 := by rw [hlay]; rfl
  refine ⟨by rw [stressRows, flatMap_pair_length, hlen], fun s hs => ?_⟩
  obtain ⟨i, hi, hmem⟩ := List.mem_flatMap.mp hs
  have hQ : l.QAt i = exQ := by
    have hi' : i < l.layup.length := List.mem_range.mp hi
    have : ∀ p ∈ l.layup, plyQ! p = exQ := by
      intro p hp
      rw [hlay] at hp
      have h2 : p = (30, exPly) ∨ p = (45, exPly) := by simpa using hp
      rcases h2 with rfl | rfl <;> simp [plyQ!, exPlyQ]
    rw [l.QAt_eq i hi', this _ (List.getElem_mem hi')]
  refine ⟨l.angleAt i, ?_⟩
  have hstress : ∀ z, l.QAt i *ᵥ strainAt (Sum.elim ![1 / 12, 0, 0] ![0, 0, 0]) z = ![1, 0, 0] := by
    intro z
    rw [exMul _ _ hQ]
    ext k
    fin_cases k <;> simp [strainAt, membrane, curvature]
  simp only [List.mem_cons, List.not_mem_nil, or_false] at hmem
  rcases hmem with rfl | rfl <;> simp only [hstress]

/-- Non-vacuity for C113: a stack of two plies under a unit load, all allowables 10, in double precision: the computed margin table has four rows and no negative margin. -/
example : ∃ l ms, Lam.init (.angles [30, 45]) (.single exPly) = .ok l ∧ (nearestClt 52).calculateMargin l exN = .ok ms ∧ ms.length = 4 ∧
    ∀ r ∈ ms, ∀ i, AtLeast 0 (r.margin i) := by
  obtain ⟨l, hl, hlay⟩ := C10_single [30, 45] exPly
  simp only [List.map_cons, List.map_nil] at hlay
  have hs : IsStack l := ⟨_, _, hl⟩
  set F := nearestClt 52 with hF
  have hu : F.u = 1 / 2 ^ 53 := by simp [hF, nearestClt, nearestLib, nearestArith]
  have hmem : ∀ p ∈ l.layup, p.2 = exPly ∧ |p.1| ≤ 45 := by
    intro p hp
    rw [hlay] at hp
    have h2 : p = (30, exPly) ∨ p = (45, exPly) := by simpa using hp
    rcases h2 with rfl | rfl <;> norm_num
  have ht : NonnegThick l.layup := by
    intro p hp
    rw [(hmem p hp).1]; norm_num [exPly, Mat.thickness]
  have hrad : ∀ p ∈ l.layup, |p.1 * Real.pi / 180| ≤ 1 := by
    intro p hp
    have ht := (hmem p hp).2
    rw [abs_div, abs_mul, abs_of_pos Real.pi_pos, abs_of_pos (by norm_num : (0 : ℝ) < 180), div_le_one (by norm_num)]
    nlinarith [Real.pi_le_four, Real.pi_pos, abs_nonneg p.1]
  set gT := trigGrowth F.u 1 ^ 2 * (1 + F.u) ^ 2 with hgT
  have hgT1 : 1 ≤ gT := by rw [hgT, hu]; unfold trigGrowth; norm_num
  have hp : ∀ p ∈ l.layup, PlyOk F.toFloatLib (1 / 100) 1 gT p := by
    intro p hp
    have hp2 := (hmem p hp).1
    refine ⟨by rw [hp2]; norm_num [exPly, poissonProduct], by rw [hp2]; norm_num [exPly, poissonProduct], hrad p hp, _, rfl, fun i j => ?_⟩
    have hT := fun i j => (FloatLib.T_within (F := F.toFloatLib) p.1 1 (hrad p hp) i j).2.2
    have hneg : ∀ x y : ℝ, |-x - y| = |x + y| := fun x y => by rw [← abs_neg]; congr 1; ring
    have hneg' : ∀ x y : ℝ, |-x + y| = |x - y| := fun x y => by rw [← abs_neg]; congr 1; ring
    rw [Treal_inv]
    have h := hT i j
    fin_cases i <;> fin_cases j <;> simp [Treal, Teng, hneg, hneg'] at h ⊢ <;> exact h
  have hS : ∀ p ∈ l.layup, ∀ Q, p.2.Q0 = .ok Q → entrySum Q ≤ 30 := by
    intro p hp Q hQ
    rw [(hmem p hp).1, exQ0] at hQ
    cases hQ
    simp [entrySum, exQ, Fin.sum_univ_three]; norm_num
  have hden : denErr F.u (1 / 100) < 1 := by rw [hu]; unfold denErr; norm_num
  obtain ⟨M, M', Qs, Qf, m1, m2, q1, q2, q3, hE⟩ := C113_ABD F (1 / 100) 1 gT 30 (by norm_num) (by norm_num) hden (by norm_num) hgT1 l hs ht hp hS (by norm_num)
  have hG := plyGrowth_ge F.toFloatLib (r := 1 / 100) (a := 1) (by norm_num) (by norm_num) hden (by norm_num) hgT1
  have hlen : l.layup.length = 2 := by rw [hlay]; rfl
  have hheight : height l.layup = 1 := by rw [hlay]; norm_num [height, exPly, Mat.thickness]
  rw [exABD_eq l hs hlay] at m1
  obtain rfl : exABD = M := by cases m1; rfl
  set G := plyGrowth F.u (1 / 100) 1 gT with hGd
  have hGv : G ≤ 1 + 1 / 10 ^ 13 := by
    rw [hGd, hgT, hu]; unfold plyGrowth matGrowth denErr trigGrowth; norm_num
  have hE' : ∀ i, ∑ j, |M' i j - exABD i j| ≤ 1 / 10 ^ 9 := by
    intro i
    refine (hE i).trans ?_
    rw [hlen, hheight]
    have h1 : G * (1 + F.u) ^ (7 * 2 + 8) ≤ (1 + 1 / 10 ^ 13) * (1 + F.u) ^ (7 * 2 + 8) :=
      mul_le_mul_of_nonneg_right hGv (by rw [hu]; positivity)
    have h2 : (1 + 1 / 10 ^ 13) * (1 + F.u) ^ (7 * 2 + 8) ≤ 1 + 1 / 10 ^ 12 := by rw [hu]; norm_num
    norm_num at h1 h2 ⊢
    linarith
  have hrow : ∀ i, ∑ j, |exInv i j| ≤ 2 := by
    intro i
    rcases i with i | i <;> fin_cases i <;> simp [exInv, Fin.sum_univ_three] <;> norm_num
  have hdet0 : exABD.det ≠ 0 := by
    intro h
    have := exInv_eq
    simp [npInv, h] at this
  have hinv : exABD⁻¹ = exInv := by
    have := exInv_eq
    simpa [npInv, hdet0] using this
  obtain ⟨hunit, hnear⟩ := C113_inverse (M := exABD) (M' := M') (isUnit_iff_ne_zero.mpr hdet0) (nu := 2) (eps := 1 / 10 ^ 9) (by norm_num) (by norm_num)
    (by rw [hinv]; exact hrow) hE' (by norm_num)
  obtain ⟨i1, i2⟩ := C113_flexibility F (M' := M') (R' := fun i j => nearest 52 (M'⁻¹ i j)) (gam := 2 * F.u) exInv_eq (nu := 2) (eps := 1 / 10 ^ 9) (by norm_num)
    (by norm_num) hrow hE' (by norm_num) (fun hd => ⟨by simp [hF, nearestClt, isUnit_iff_ne_zero.mp hd], fun i j => by
      refine (nearest_near 52 _).trans ?_
      have e1 : |M'⁻¹ i j - exInv i j| ≤ 2 * (2 * (1 / 10 ^ 9) / (1 - 2 * (1 / 10 ^ 9))) := by
        rw [← hinv]
        exact (Finset.single_le_sum (f := fun j => |M'⁻¹ i j - exABD⁻¹ i j|) (fun _ _ => abs_nonneg _) (Finset.mem_univ j)).trans (hnear i)
      have e2 : |exInv i j| ≤ 2 := (Finset.single_le_sum (f := fun j => |exInv i j|) (fun _ _ => abs_nonneg _) (Finset.mem_univ j)).trans (hrow i)
      have e3 : |M'⁻¹ i j| ≤ 4 := by
        have := abs_sub_abs_le_abs_sub (M'⁻¹ i j) (exInv i j)
        norm_num at e1
        linarith
      have e4 := mul_le_mul_of_nonneg_left e3 F.u_nonneg
      exact le_trans e4 (by linarith)⟩)
  have hal : HasAllowables l := fun p hp => ⟨_, (hmem p hp).1⟩
  have hv : ∀ p ∈ l.layup, ∀ v, p.2.allowables = .ok v → ∀ i, v i = 10 := by
    intro p hp v hv i
    rw [(hmem p hp).1] at hv
    simp only [exPly, Mat.allowables, Except.ok.injEq] at hv
    subst hv
    fin_cases i <;> rfl
  obtain ⟨rows, ms, r1, r2, r3, r4⟩ := C113_margins F (by rw [hu]; norm_num) l hs ht 1 hrad exN (by rw [hu]; norm_num) (exABD_eq l hs hlay) exInv_eq m2 i1
    (Y := fun _ _ => 2) i2 hG q1 q2 q3 hal (e := 1) (kap := 1 / 2) (eta := 1) (by
      have z1 : ∀ i, flexSize (fun _ _ => 2) exN i = 2 := by
        intro i; simp [flexSize, exN, Fin.sum_univ_three]
      have z2 : ∀ i, strainSize (fun _ _ => 2) exN (height l.layup / 2) i = 3 := by
        intro i; simp only [strainSize, z1, hheight]; norm_num
      have z3 : ∀ i, stressSize (Matrix.of fun _ _ => 4 * 30) (fun _ _ => 2) exN (height l.layup / 2) i = 1080 := by
        intro i; simp only [stressSize, z2, Matrix.of_apply, Fin.sum_univ_three]; norm_num
      simp only [z3, hlen]
      have h1 : G * (1 + 2 * F.u + 2 * (1 / 10 ^ 9) / (1 - 2 * (1 / 10 ^ 9))) * trigGrowth F.u 1 ^ 2 * (1 + F.u) ^ (2 * 2 + 17) ≤ 1 + 1 / 10 ^ 6 := by
        have h2 : 0 ≤ (1 + 2 * F.u + 2 * (1 / 10 ^ 9) / (1 - 2 * (1 / 10 ^ 9))) * trigGrowth F.u 1 ^ 2 * (1 + F.u) ^ (2 * 2 + 17) := by
          rw [hu]; unfold trigGrowth; norm_num
        have h3 := mul_le_mul_of_nonneg_right hGv h2
        have h4 : (1 + 1 / 10 ^ 13) * ((1 + 2 * F.u + 2 * (1 / 10 ^ 9) / (1 - 2 * (1 / 10 ^ 9))) * trigGrowth F.u 1 ^ 2 * (1 + F.u) ^ (2 * 2 + 17)) ≤ 1 + 1 / 10 ^ 6 := by
          rw [hu]; unfold trigGrowth; norm_num
        calc _ = G * ((1 + 2 * F.u + 2 * (1 / 10 ^ 9) / (1 - 2 * (1 / 10 ^ 9))) * trigGrowth F.u 1 ^ 2 * (1 + F.u) ^ (2 * 2 + 17)) := by ring
          _ ≤ _ := h3.trans h4
      rw [Fin.sum_univ_three]
      linarith) (by
      intro p hp v hv' i
      rw [hv p hp v hv' i, hu]; norm_num) (by norm_num) (by rw [hu]; norm_num)
  obtain ⟨x1, x2⟩ := exRows l hs hlay rows r1
  refine ⟨l, ms, hl, r2, r3.trans x1, fun r hr => ?_⟩
  obtain ⟨j, hj, rfl⟩ := List.mem_iff_getElem.mp hr
  obtain ⟨p, v, y1, y2, -, -, -, y3⟩ := r4 j _ _ (List.getElem?_eq_getElem hj) (List.getElem?_eq_getElem (r3 ▸ hj))
  have hv10 := hv p (List.mem_of_getElem? y1) v y2
  apply y3
  · obtain ⟨t, ht⟩ := x2 _ (List.getElem_mem (r3 ▸ hj))
    have hc : |cosd t| ≤ 1 := Real.abs_cos_le_one _
    have hsn : |sind t| ≤ 1 := Real.abs_sin_le_one _
    have b0 : cosd t ^ 2 ≤ 1 := by rw [← sq_abs]; nlinarith [abs_nonneg (cosd t)]
    have b1 : sind t ^ 2 ≤ 1 := by rw [← sq_abs]; nlinarith [abs_nonneg (sind t)]
    have b2 : |cosd t * sind t| ≤ 1 := by rw [abs_mul]; nlinarith [abs_nonneg (cosd t), abs_nonneg (sind t)]
    rw [ht]
    have hb : (1 - F.u) * 10 - 1 ≥ 2 := by rw [hu]; norm_num
    have s0 : (Treal t *ᵥ ![1, 0, 0]) 0 = cosd t ^ 2 := by simp [Treal, Matrix.mulVec, dotProduct, Fin.sum_univ_three]
    have s1 : (Treal t *ᵥ ![1, 0, 0]) 1 = sind t ^ 2 := by simp [Treal, Matrix.mulVec, dotProduct, Fin.sum_univ_three]
    have s2 : (Treal t *ᵥ ![1, 0, 0]) 2 = -(cosd t * sind t) := by simp [Treal, Matrix.mulVec, dotProduct, Fin.sum_univ_three]
    constructor <;> simp only [hv10, s0, s1, s2, abs_neg] <;> nlinarith [sq_nonneg (cosd t), sq_nonneg (sind t)]
  · intro i
    rw [hv10, hu]; norm_num

end Composipy
