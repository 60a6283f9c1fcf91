import Verif.Props.Sensitivity
import Verif.Props.RoundedStrength
import Verif.Props.ExactStacks

/-!
# C126: how strains, stresses and margins depend on the data
-/

namespace Composipy
open Spec Matrix

namespace Spec

/-- Rows of two strain or stress tables that belong together: the same ply and position, angles up to `al` radians, heights up to `ez`, components in plate axes within `g` of sizes `X`, in material
axes within `gm` of the size `Z`. -/
structure RowTol (al ez g : ℝ) (X : V3) (gm Z : ℝ) (r' r : Row) : Prop where
  ply : r'.ply = r.ply
  position : r'.position = r.position
  angle : |r'.angle - r.angle| * Real.pi / 180 ≤ al
  z : |r'.z - r.z| ≤ ez
  xy : ∀ i, Within g (r'.xy i) (r.xy i) (X i)
  m12 : ∀ i, Within gm (r'.m12 i) (r.m12 i) Z

end Spec

theorem Spec.Within.plus {g y x X y2 x2 X2 : ℝ} (h : Within g y x X) (h2 : Within g y2 x2 X2) : Within g (y + y2) (x + x2) (X + X2) :=
  ⟨(abs_add_le _ _).trans (add_le_add h.1 h2.1), by
    rw [show y + y2 - (x + x2) = (y - x) + (y2 - x2) by ring, mul_add]
    exact (abs_add_le _ _).trans (add_le_add h.2 h2.2)⟩

theorem mulVec_near {ι : Type} [Fintype ι] {g g' : ℝ} (hg : 1 ≤ g) {A' A X : Matrix ι ι ℝ} {x' x Y : ι → ℝ}
    (hA : ∀ i j, Within g (A' i j) (A i j) (X i j)) (hx : ∀ i, Within g' (x' i) (x i) (Y i)) (i : ι) :
    Within (g * g') ((A' *ᵥ x') i) ((A *ᵥ x) i) (∑ k, X i k * Y k) := by
  have := FloatClt.mulVec_within (q := 1) le_rfl hg hA hx ((A' *ᵥ x') i) i (by simp)
  rwa [mul_one] at this

theorem Treal_eq_Teng (t : ℝ) : Treal t = (Teng (-t))ᵀ := by
  have h1 : cosd (-t) = cosd t := by rw [cosd, cosd, neg_mul, neg_div, Real.cos_neg]
  have h2 : sind (-t) = -sind t := by rw [sind, sind, neg_mul, neg_div, Real.sin_neg]
  ext i j
  fin_cases i <;> fin_cases j <;> simp [Treal, Teng, h1, h2]

/-- The matrices that turn stresses and strains to material axes. -/
theorem turn_near {t t' al : ℝ} (h : |t' - t| * Real.pi / 180 ≤ al) (i j : Fin 3) :
    Within (1 + 2 * al) (Teng t' i j) (Teng t i j) 1 ∧ Within (1 + 2 * al) (Treal t' i j) (Treal t i j) 1 := by
  have key : ∀ s s' : ℝ, |s' - s| = |t' - t| → ∀ i j, Within (1 + 2 * al) (Teng s' i j) (Teng s i j) 1 := fun s s' hs i j =>
    ⟨Teng_le _ _ _, by
      have := Teng_sub_le s s' i j
      rw [hs] at this
      linarith⟩
  refine ⟨key _ _ rfl i j, ?_⟩
  rw [Treal_eq_Teng, Treal_eq_Teng]
  exact key (-t) (-t') (by rw [show -t' - -t = -(t' - t) by ring, abs_neg]) j i

theorem sum_near {e : ℝ} {ts ts' : List ℝ} (h : List.Forall₂ (fun t t' : ℝ => 0 ≤ t ∧ |t' - t| ≤ e * t) ts ts') : |ts'.sum - ts.sum| ≤ e * ts.sum ∧ 0 ≤ ts.sum := by
  induction h with
  | nil => simp
  | @cons t t' ts ts' h1 _ ih =>
    have a := abs_le.mp h1.2
    have b := abs_le.mp ih.1
    rw [List.sum_cons, List.sum_cons]
    exact ⟨abs_le.mpr ⟨by linarith, by linarith⟩, by linarith [h1.1, ih.2]⟩

/-- The interfaces of two stacks. -/
theorem zAt_near {e al : ℝ} (l l' : Lam) (hl : List.Forall₂ (NearPly e al) l.layup l'.layup) (ht : NonnegThick l.layup) (k : ℕ) (hk : k ≤ l.layup.length) :
    Within (1 + e) (l'.zAt k) (l.zAt k) (height l.layup / 2) := by
  set ts := l.layup.map fun p => p.2.thickness with hts
  set ts' := l'.layup.map fun p => p.2.thickness with hts'
  have hlen : l.layup.length = l'.layup.length := hl.length_eq
  have hF : List.Forall₂ (fun t t' : ℝ => 0 ≤ t ∧ |t' - t| ≤ e * t) ts ts' := by
    rw [hts, hts', List.forall₂_map_left_iff, List.forall₂_map_right_iff]
    refine List.forall₂_iff_zip.mpr ⟨hlen, fun {a b} hab => ?_⟩
    have hn := ((List.forall₂_iff_zip.mp hl).2 hab).2.thickness
    have h0 := ht a (List.of_mem_zip hab).1
    rw [RelTol, abs_of_nonneg h0] at hn
    exact ⟨h0, hn⟩
  have z1 : ∀ (m : Lam) (_ : k ≤ m.layup.length), 2 * m.zAt k = ((m.layup.map fun p => p.2.thickness).take k).sum - ((m.layup.map fun p => p.2.thickness).drop k).sum ∧
      ((m.layup.map fun p => p.2.thickness).take k).sum + ((m.layup.map fun p => p.2.thickness).drop k).sum = height m.layup := by
    intro m hm
    have hsum : ((m.layup.map fun p => p.2.thickness).take k).sum + ((m.layup.map fun p => p.2.thickness).drop k).sum = height m.layup := by
      rw [List.sum_take_add_sum_drop]; rfl
    refine ⟨?_, hsum⟩
    rw [Lam.zAt, Lam.zPosition, zPositionOf_eq, zList_get _ _ _ (by simpa using hm), totalThickness_eq, ← height]
    linarith
  obtain ⟨a1, a2⟩ := z1 l hk
  obtain ⟨b1, b2⟩ := z1 l' (hlen ▸ hk)
  obtain ⟨c1, c2⟩ := sum_near (List.forall₂_take k hF)
  obtain ⟨d1, d2⟩ := sum_near (List.forall₂_drop k hF)
  have c3 := abs_le.mp c1
  have d3 := abs_le.mp d1
  have eh : e * height l.layup = e * (ts.take k).sum + e * (ts.drop k).sum := by rw [← a2]; ring
  refine ⟨abs_le.mpr ⟨by linarith, by linarith⟩, abs_le.mpr ⟨?_, ?_⟩⟩ <;> rw [add_sub_cancel_left] <;> linarith

/-- **C126** the flexibility: if the rows of the flexibility have sums up to `nu`, the rows of the change of the stiffness sums up to `eps` and `nu eps < 1`, then the changed stack has a flexibility too
and it differs by at most `nu^2 eps / (1 - nu eps)`. -/
theorem C126_flexibility {e al r S : ℝ} (he : 0 ≤ e) (he1 : e < 1) (hr : r < 1) (hd : dataErr e r < 1) (l l' : Lam) (hs : IsStack l) (hs' : IsStack l')
    (hl : List.Forall₂ (NearPly e al) l.layup l'.layup) (ht : NonnegThick l.layup) (hp : ∀ p ∈ l.layup, 0 ≤ poissonProduct p.2 ∧ poissonProduct p.2 ≤ r)
    (hS : ∀ p ∈ l.layup, ∀ Q, p.2.Q0 = .ok Q → entrySum Q ≤ S) (M R : M6) (hM : l.ABD = .ok M) (hR : npInv M = .ok R) {nu eps : ℝ}
    (hrow : ∀ i, ∑ j, |R i j| ≤ nu)
    (h01 : 3 * (dataChange e al r S (height l.layup) 0 + dataChange e al r S (height l.layup) 1) ≤ eps)
    (h12 : 3 * (dataChange e al r S (height l.layup) 1 + dataChange e al r S (height l.layup) 2) ≤ eps) (hlt : nu * eps < 1) :
    ∃ M' R', l'.ABD = .ok M' ∧ npInv M' = .ok R' ∧ ∀ i j, Within (1 + nu * eps / (1 - nu * eps)) (R' i j) (R i j) nu := by
  obtain ⟨A, A', B, B', D, D', a1, a2, b1, b2, d1, d2, h⟩ := C125_stack he he1 hr hd l l' hs hs' hl ht hp hS
  obtain rfl : Matrix.fromBlocks A B B D = M := by
    simpa [Lam.ABD, a1, b1, d1] using hM
  have hE : ∀ i, ∑ j, |Matrix.fromBlocks A' B' B' D' i j - Matrix.fromBlocks A B B D i j| ≤ eps := by
    intro i
    rw [Fintype.sum_sum_type]
    cases i with
    | inl i =>
      simp only [Matrix.fromBlocks_apply₁₁, Matrix.fromBlocks_apply₁₂, Fin.sum_univ_three]
      linarith [(h i 0).1, (h i 1).1, (h i 2).1, (h i 0).2.1, (h i 1).2.1, (h i 2).2.1]
    | inr i =>
      simp only [Matrix.fromBlocks_apply₂₁, Matrix.fromBlocks_apply₂₂, Fin.sum_univ_three]
      linarith [(h i 0).2.1, (h i 1).2.1, (h i 2).2.1, (h i 0).2.2, (h i 1).2.2, (h i 2).2.2]
  have hnu : 0 ≤ nu := (Finset.sum_nonneg fun _ _ => abs_nonneg _).trans (hrow (.inl 0))
  have heps : 0 ≤ eps := (Finset.sum_nonneg fun _ _ => abs_nonneg _).trans (hE (.inl 0))
  have hdet : (Matrix.fromBlocks A B B D).det ≠ 0 := by
    intro h
    simp [npInv, h] at hR
  obtain rfl : (Matrix.fromBlocks A B B D)⁻¹ = R := by
    simp only [npInv, if_neg hdet, Except.ok.injEq] at hR
    exact hR
  obtain ⟨hu', hh⟩ := C113_inverse (isUnit_iff_ne_zero.mpr hdet) hnu heps hrow hE hlt
  refine ⟨Matrix.fromBlocks A' B' B' D', _, by simp [Lam.ABD, a2, b2, d2], by rw [npInv, if_neg hu'.ne_zero], fun i j => ⟨?_, ?_⟩⟩
  · exact (Finset.single_le_sum (f := fun j => |(Matrix.fromBlocks A B B D)⁻¹ i j|) (fun _ _ => abs_nonneg _) (Finset.mem_univ j)).trans (hrow i)
  · refine ((Finset.single_le_sum (f := fun j => |(Matrix.fromBlocks A' B' B' D')⁻¹ i j - (Matrix.fromBlocks A B B D)⁻¹ i j|) (fun _ _ => abs_nonneg _) (Finset.mem_univ j)).trans (hh i)).trans_eq ?_
    ring

section Tables
variable {e al : ℝ} {l l' : Lam} {N N' : V6} {R R' Y : M6} {gI : ℝ}

theorem strainAt_near (he : 0 ≤ e) (hI : 1 ≤ gI) (hRR : ∀ i j, Within gI (R' i j) (R i j) (Y i j)) (hN : ∀ i, RelTol e (N i) (N' i)) {z z' H : ℝ} (hz : Within (1 + e) z' z H)
    (i : Fin 3) : Within (gI * (1 + e) ^ 2) (strainAt (R' *ᵥ N') z' i) (strainAt (R *ᵥ N) z i) (strainSize Y N H i) := by
  have h1 : ∀ i, Within (gI * (1 + e)) ((R' *ᵥ N') i) ((R *ᵥ N) i) (flexSize Y N i) := mulVec_near hI hRR fun k => (hN k).within
  have he' : 1 ≤ 1 + e := by linarith
  have h2 := hz.mul he' (h1 (.inr i))
  have hg1 : 1 ≤ gI * (1 + e) := one_le_mul_of_one_le_of_one_le hI he'
  have h3 : gI * (1 + e) ≤ gI * (1 + e) ^ 2 := by
    rw [pow_two, ← mul_assoc]; exact le_mul_of_one_le_right (by linarith) he'
  have h4 := (h1 (.inl i)).mono hg1 h3 le_rfl
  rw [show (1 + e) * (gI * (1 + e)) = gI * (1 + e) ^ 2 by ring] at h2
  exact Spec.Within.plus h4 h2

theorem turned_near {t t' : ℝ} (h : |t' - t| * Real.pi / 180 ≤ al) {v v' X : V3} {g : ℝ} (hv : ∀ i, Within g (v' i) (v i) (X i)) (i : Fin 3) :
    Within ((1 + 2 * al) * g) ((Teng t' *ᵥ v') i) ((Teng t *ᵥ v) i) (∑ k, X k) ∧ Within ((1 + 2 * al) * g) ((Treal t' *ᵥ v') i) ((Treal t *ᵥ v) i) (∑ k, X k) := by
  have hal : 0 ≤ al := le_trans (by positivity) h
  have h1 := mulVec_near (X := Matrix.of fun _ _ => (1 : ℝ)) (by linarith : 1 ≤ 1 + 2 * al) (fun i j => (turn_near h i j).1) hv i
  have h2 := mulVec_near (X := Matrix.of fun _ _ => (1 : ℝ)) (by linarith : 1 ≤ 1 + 2 * al) (fun i j => (turn_near h i j).2) hv i
  simp only [Matrix.of_apply, one_mul] at h1 h2
  exact ⟨h1, h2⟩

/-- **C126** the strain tables of two stacks whose data, angles and loads agree up to tolerances. -/
theorem C126_strain (he : 0 ≤ e) (hs : IsStack l) (hs' : IsStack l') (hl : List.Forall₂ (NearPly e al) l.layup l'.layup) (ht : NonnegThick l.layup)
    (hN : ∀ i, RelTol e (N i) (N' i)) {M M' : M6} (hI : 1 ≤ gI) (hM : l.ABD = .ok M) (hR : npInv M = .ok R) (hM' : l'.ABD = .ok M') (hR' : npInv M' = .ok R')
    (hRR : ∀ i j, Within gI (R' i j) (R i j) (Y i j)) :
    ∃ rows rows', calculateStrain l N = .ok rows ∧ calculateStrain l' N' = .ok rows' ∧
      List.Forall₂ (RowTol al (e * height l.layup / 2) (gI * (1 + e) ^ 2) (strainSize Y N (height l.layup / 2))
        ((1 + 2 * al) * (gI * (1 + e) ^ 2)) (∑ k, strainSize Y N (height l.layup / 2) k)) rows' rows := by
  have h1 : epsilon0 l N = .ok (R *ᵥ N) := by simp [epsilon0, hM, hR]
  have h2 : epsilon0 l' N' = .ok (R' *ᵥ N') := by simp [epsilon0, hM', hR']
  have hlen : l.layup.length = l'.layup.length := hl.length_eq
  refine ⟨_, _, by rw [hs.strain_eq, h1]; rfl, by rw [hs'.strain_eq, h2]; rfl, ?_⟩
  rw [strainRows, strainRows, ← hlen]
  apply forall₂_pairs
  intro i hi
  have ha : |l'.angleAt i - l.angleAt i| * Real.pi / 180 ≤ al := by
    rw [IsStack.angleAt_eq i hi, IsStack.angleAt_eq i (hlen ▸ hi)]
    exact ((List.forall₂_iff_get.mp hl).2 i hi (hlen ▸ hi)).1
  have hz : ∀ k ≤ l.layup.length, |l'.zAt k - l.zAt k| ≤ e * height l.layup / 2 := fun k hk => by
    have := (zAt_near l l' hl ht k hk).2
    rw [add_sub_cancel_left] at this
    linarith
  have key : ∀ k ≤ l.layup.length, _ := fun k hk => strainAt_near he hI hRR hN (zAt_near l l' hl ht k hk)
  exact ⟨⟨rfl, rfl, ha, hz i (by omega), key i (by omega), fun j => (turned_near ha (key i (by omega)) j).1⟩,
    ⟨rfl, rfl, ha, hz (i + 1) (by omega), key (i + 1) (by omega), fun j => (turned_near ha (key (i + 1) (by omega)) j).1⟩⟩

/-- **C126** the stress tables. -/
theorem C126_stress {r S : ℝ} (he : 0 ≤ e) (he1 : e < 1) (hr : r < 1) (hd : dataErr e r < 1) (hs : IsStack l) (hs' : IsStack l') (hl : List.Forall₂ (NearPly e al) l.layup l'.layup)
    (ht : NonnegThick l.layup) (hp : ∀ p ∈ l.layup, 0 ≤ poissonProduct p.2 ∧ poissonProduct p.2 ≤ r) (hS : ∀ p ∈ l.layup, ∀ Q, p.2.Q0 = .ok Q → entrySum Q ≤ S)
    (hN : ∀ i, RelTol e (N i) (N' i)) {M M' : M6} (hI : 1 ≤ gI) (hM : l.ABD = .ok M) (hR : npInv M = .ok R) (hM' : l'.ABD = .ok M') (hR' : npInv M' = .ok R')
    (hRR : ∀ i j, Within gI (R' i j) (R i j) (Y i j)) :
    ∃ rows rows', calculateStress l N = .ok rows ∧ calculateStress l' N' = .ok rows' ∧
      List.Forall₂ (RowTol al (e * height l.layup / 2) ((1 + turnErr e al r) * (gI * (1 + e) ^ 2)) (fun _ => S * ∑ k, strainSize Y N (height l.layup / 2) k)
        ((1 + 2 * al) * ((1 + turnErr e al r) * (gI * (1 + e) ^ 2))) (3 * (S * ∑ k, strainSize Y N (height l.layup / 2) k))) rows' rows := by
  have h1 : epsilon0 l N = .ok (R *ᵥ N) := by simp [epsilon0, hM, hR]
  have h2 : epsilon0 l' N' = .ok (R' *ᵥ N') := by simp [epsilon0, hM', hR']
  have hlen : l.layup.length = l'.layup.length := hl.length_eq
  refine ⟨_, _, by rw [hs.stress_eq, h1]; rfl, by rw [hs'.stress_eq, h2]; rfl, ?_⟩
  rw [stressRows, stressRows, ← hlen]
  apply forall₂_pairs
  intro i hi
  have hn := (List.forall₂_iff_get.mp hl).2 i hi (hlen ▸ hi)
  have ha : |l'.angleAt i - l.angleAt i| * Real.pi / 180 ≤ al := by
    rw [IsStack.angleAt_eq i hi, IsStack.angleAt_eq i (hlen ▸ hi)]
    exact hn.1
  have hal : 0 ≤ al := le_trans (by positivity) ha
  have hz : ∀ k ≤ l.layup.length, |l'.zAt k - l.zAt k| ≤ e * height l.layup / 2 := fun k hk => by
    have := (zAt_near l l' hl ht k hk).2
    rw [add_sub_cancel_left] at this
    linarith
  have hm := hp _ (List.getElem_mem hi)
  obtain ⟨Q0, Q, Q', q1, q2, q3, q4⟩ := C125_ply he he1 hr hd _ _ hn hm.1 hm.2
  have hs0 := hS _ (List.getElem_mem hi) Q0 q1
  obtain ⟨-, g1, -⟩ := dataGrowth_ge he he1 (hm.1.trans hm.2) hr hd
  have ht0 : 0 ≤ turnErr e al r := by unfold turnErr; nlinarith
  have hQ : ∀ a b, Within (1 + turnErr e al r) (l'.QAt i a b) (l.QAt i a b) ((Matrix.of fun _ _ => S : M3) a b) := fun a b => by
    rw [Lam.QAt_eq l i hi, Lam.QAt_eq l' i (hlen ▸ hi)]
    simp only [List.get_eq_getElem] at q2 q3
    simp only [plyQ!, q2, q3]
    refine ⟨(q4 a b).1.trans hs0, ?_⟩
    rw [add_sub_cancel_left]
    exact (q4 a b).2.trans (mul_le_mul_of_nonneg_left hs0 ht0)
  have key : ∀ k ≤ l.layup.length, ∀ j, Within ((1 + turnErr e al r) * (gI * (1 + e) ^ 2)) ((l'.QAt i *ᵥ strainAt (R' *ᵥ N') (l'.zAt k)) j) ((l.QAt i *ᵥ strainAt (R *ᵥ N) (l.zAt k)) j)
      (S * ∑ k, strainSize Y N (height l.layup / 2) k) := fun k hk j => by
    have := mulVec_near (by linarith : 1 ≤ 1 + turnErr e al r) hQ (strainAt_near he hI hRR hN (zAt_near l l' hl ht k hk)) j
    simpa only [Matrix.of_apply, ← Finset.mul_sum] using this
  have key2 : ∀ k ≤ l.layup.length, ∀ j, _ := fun k hk j => (turned_near ha (X := fun _ => S * ∑ k, strainSize Y N (height l.layup / 2) k) (key k hk) j).2
  simp only [Finset.sum_const, Finset.card_univ, Fintype.card_fin, nsmul_eq_mul, Nat.cast_ofNat] at key2
  exact ⟨⟨rfl, rfl, ha, hz i (by omega), key i (by omega), key2 i (by omega)⟩, ⟨rfl, rfl, ha, hz (i + 1) (by omega), key (i + 1) (by omega), key2 (i + 1) (by omega)⟩⟩

end Tables

/-- A stress whose margin is at least `eta` is at most `a / (1 + eta)`. -/
theorem margin_at_most {a s eta : ℝ} (ha : 0 < a) (heta : 0 ≤ eta) (hs : 0 ≤ s) (h : AtLeast eta (subOne (npDiv a s))) : s ≤ 1 / (1 + eta) * a := by
  rcases hs.eq_or_lt with h0 | h0
  · subst h0; positivity
  · rw [npDiv, if_neg h0.ne'] at h
    change eta ≤ a / s - 1 at h
    have h1 : 1 + eta ≤ a / s := by linarith
    rw [le_div_iff₀ h0] at h1
    rw [one_div, inv_mul_eq_div, le_div_iff₀ (by linarith)]
    linarith

/-- **C126** a margin that covers the tolerances: if all five margins are at least `eta`, the stresses differ by at most `d`, the real allowables are at least `1 - e` times the nominal ones and
`d` is at most `1 - e - 1 / (1 + eta)` times the allowable, then the real stresses are within the real allowables. -/
theorem C126_safe {a a' : V5} (ha : ∀ i, 0 < a i) {s s' : V3} {d e eta : ℝ} (hd : ∀ i, |s' i - s i| ≤ d) (haa : ∀ i, (1 - e) * a i ≤ a' i) (heta : 0 ≤ eta)
    (hcov : ∀ i, d ≤ (1 - e - 1 / (1 + eta)) * a i) (h : ∀ i, AtLeast eta (margins a s i)) : WithinAllowables a' s' := by
  have hs := fun i => abs_le.mp (hd i)
  have hc := fun j : Fin 5 => (hcov j).trans_eq (by ring : (1 - e - 1 / (1 + eta)) * a j = (1 - e) * a j - 1 / (1 + eta) * a j)
  have tens : ∀ (i : Fin 3) (j : Fin 5), AtLeast eta (marginT (a j) (s i)) → s' i ≤ a' j := by
    intro i j h
    have h1 := margin_at_most (ha j) heta (by split_ifs with hneg <;> linarith) h
    have h2 : s i ≤ (if s i < 0 then 0 else s i) := by split_ifs with hneg <;> linarith
    linarith [(hs i).2, haa j, hc j]
  have comp : ∀ (i : Fin 3) (j : Fin 5), AtLeast eta (marginC (a j) (s i)) → -s' i ≤ a' j := by
    intro i j h
    have h1 := margin_at_most (ha j) heta (abs_nonneg _) h
    have h2 : -s i ≤ |if s i > 0 then 0 else s i| := by
      split_ifs with hneg
      · rw [abs_zero]; linarith
      · exact neg_le_abs _
    linarith [(hs i).1, haa j, hc j]
  refine ⟨tens 0 0 (h 0), comp 0 1 (h 1), tens 1 2 (h 2), comp 1 3 (h 3), ?_⟩
  have h1 := margin_at_most (ha 4) heta (abs_nonneg (s 2)) (h 4)
  have h2 := abs_sub_abs_le_abs_sub (s' 2) (s 2)
  linarith [hd 2, haa 4, hc 4]

/-- **C126** the margin table of the nominal stack speaks for the real one. -/
theorem C126_margins {e al r S : ℝ} {l l' : Lam} {N N' : V6} {R R' Y M M' : M6} {gI : ℝ} (he : 0 ≤ e) (he1 : e < 1) (hr : r < 1) (hd : dataErr e r < 1) (hs : IsStack l) (hs' : IsStack l')
    (hl : List.Forall₂ (NearPly e al) l.layup l'.layup) (ht : NonnegThick l.layup) (hp : ∀ p ∈ l.layup, 0 ≤ poissonProduct p.2 ∧ poissonProduct p.2 ≤ r)
    (hS : ∀ p ∈ l.layup, ∀ Q, p.2.Q0 = .ok Q → entrySum Q ≤ S)
    (hN : ∀ i, RelTol e (N i) (N' i)) (hI : 1 ≤ gI) (hM : l.ABD = .ok M) (hR : npInv M = .ok R) (hM' : l'.ABD = .ok M') (hR' : npInv M' = .ok R')
    (hRR : ∀ i j, Within gI (R' i j) (R i j) (Y i j)) {eta d : ℝ} (heta : 0 ≤ eta)
    (hdd : ((1 + 2 * al) * ((1 + turnErr e al r) * (gI * (1 + e) ^ 2)) - 1) * (3 * (S * ∑ k, strainSize Y N (height l.layup / 2) k)) ≤ d)
    (hcov : ∀ p ∈ l.layup, ∀ v, p.2.allowables = .ok v → ∀ i, 0 < v i ∧ d ≤ (1 - e - 1 / (1 + eta)) * v i)
    (ms : List MarginRow) (hms : calculateMargin l N = .ok ms) :
    ∃ rows', calculateStress l' N' = .ok rows' ∧ rows'.length = ms.length ∧ ∀ (j : ℕ) (m : MarginRow) (s' : Row) (v v' : V5), ms[j]? = some m → rows'[j]? = some s' →
      (∀ p, l.layup[j / 2]? = some p → p.2.allowables = .ok v) → (∀ i, (1 - e) * v i ≤ v' i) → (∀ i, AtLeast eta (m.margin i)) → WithinAllowables v' s'.m12 := by
  obtain ⟨rows, rows', h1, h2, h3⟩ := C126_stress he he1 hr hd hs hs' hl ht hp hS hN hI hM hR hM' hR' hRR
  obtain ⟨-, S0, hS0, l1, l2, -⟩ := margin_rows hs N ms hms
  obtain rfl : S0 = rows := by rw [hS0] at h1; cases h1; rfl
  refine ⟨rows', h2, by rw [h3.length_eq]; omega, fun j m s' v v' hm hs2 hv hv' hat => ?_⟩
  obtain ⟨hk, mm, S1, s, hmat, hS1, hs1, -, -, -, hmar, -⟩ := margin_row hs N ms hms j m hm
  obtain rfl : S1 = S0 := by rw [hS1] at hS0; cases hS0; rfl
  have hvv := hv _ (List.getElem?_eq_getElem hk)
  have hv2 : v = ![mm.t1, mm.c1, mm.t2, mm.c2, mm.s] := by
    rw [hmat] at hvv
    exact (Except.ok.inj hvv).symm
  have hpos := hcov _ (List.getElem_mem hk) v hvv
  have hrow := forall₂_getElem? h3 hs2 hs1
  rw [hmar, ← hv2] at hat
  exact C126_safe (fun i => (hpos i).1) (fun i => ((hrow.m12 i).2).trans hdd) hv' heta (fun i => (hpos i).2) hat

/-! ## Example -/

theorem exMargins {s : V3} (hs : ∀ i, |s i| ≤ 1) (i : Fin 5) : AtLeast 1 (margins (fun _ => 10) s i) := by
  have key : ∀ x : ℝ, 0 ≤ x → x ≤ 1 → AtLeast 1 (subOne (npDiv 10 x)) := fun x h0 h1 => by
    rcases h0.eq_or_lt with h | h
    · subst h
      have : ¬ (10 : ℝ) < 0 := by norm_num
      simp [npDiv, subOne, AtLeast, this]
    · rw [npDiv, if_neg h.ne']
      change (1 : ℝ) ≤ 10 / x - 1
      have : 10 ≤ 10 / x := by rw [le_div_iff₀ h]; linarith
      linarith
  have hl := fun i => abs_le.mp (hs i)
  have tens : ∀ j, AtLeast 1 (marginT 10 (s j)) := fun j => key _ (by split_ifs with h <;> linarith) (by split_ifs <;> linarith [(hl j).2])
  have comp : ∀ j, AtLeast 1 (marginC 10 (s j)) := fun j => key _ (abs_nonneg _) (by
    split_ifs
    · simp
    · exact hs j)
  fin_cases i
  · exact tens 0
  · exact comp 0
  · exact tens 1
  · exact comp 1
  · exact key _ (abs_nonneg _) (hs 2)

/-- The real ply of the example. -/
noncomputable def exPly' : Mat := .ortho ⟨12.00001, 12, 0, 6, 1 / 2, 9.99999, 9.99999, 9.99999, 9.99999, 9.99999⟩

/-- Non-vacuity for C126: the stack of two plies of C113 with a little more stiffness, a little less strength, a turned ply and a higher load: no real stress exceeds the real allowables. -/
example : ∃ l' rows', Lam.init (.angles [30 + 1 / 20000, 45]) (.single exPly') = .ok l' ∧ calculateStress l' ((1000001 / 1000000 : ℝ) • exN) = .ok rows' ∧ rows'.length = 4 ∧
    ∀ s' ∈ rows', WithinAllowables (fun _ => 9.99999) s'.m12 := by
  obtain ⟨l, hl, hlay⟩ := C10_single [30, 45] exPly
  obtain ⟨l', hl', hlay'⟩ := C10_single [30 + 1 / 20000, 45] exPly'
  simp only [List.map_cons, List.map_nil] at hlay hlay'
  have hs : IsStack l := ⟨_, _, hl⟩
  have hs' : IsStack l' := ⟨_, _, hl'⟩
  have hmem : ∀ p ∈ l.layup, p.2 = exPly := by
    intro p hp
    rw [hlay] at hp
    have h2 : p = (30, exPly) ∨ p = (45, exPly) := by simpa using hp
    rcases h2 with rfl | rfl <;> rfl
  have ht : NonnegThick l.layup := fun p hp => by rw [hmem p hp]; norm_num [exPly, Mat.thickness]
  have hheight : height l.layup = 1 := by rw [hlay]; norm_num [height, exPly, Mat.thickness]
  have hnm : NearMat (1 / 1000000) exPly exPly' := by
    refine ⟨?_, ?_, ?_, ?_, ?_⟩ <;> norm_num [RelTol]
  have hpi : Real.pi ≤ 3.15 := Real.pi_lt_d2.le
  have hnear : List.Forall₂ (NearPly (1 / 1000000) (1 / 1000000)) l.layup l'.layup := by
    rw [hlay, hlay']
    refine .cons ⟨?_, hnm⟩ (.cons ⟨?_, hnm⟩ .nil)
    · rw [show (30 + 1 / 20000 - 30 : ℝ) = 1 / 20000 by ring, abs_of_pos (by norm_num)]
      linarith
    · simp
  have hp : ∀ p ∈ l.layup, 0 ≤ poissonProduct p.2 ∧ poissonProduct p.2 ≤ 1 / 100 := fun p hp => by
    rw [hmem p hp]; norm_num [exPly, poissonProduct]
  have hS : ∀ p ∈ l.layup, ∀ Q, p.2.Q0 = .ok Q → entrySum Q ≤ 30 := by
    intro p hp Q hQ
    rw [hmem p hp, exQ0] at hQ
    cases hQ
    simp [entrySum, exQ, Fin.sum_univ_three]; norm_num
  have hrow : ∀ i, ∑ j, |exInv i j| ≤ 2 := by
    intro i
    rcases i with i | i <;> fin_cases i <;> simp [exInv, Fin.sum_univ_three] <;> norm_num
  have small := fun k => C125_small (e := 1 / 1000000) (al := 1 / 1000000) (r := 1 / 100) (S := 30) (h := 1) (by norm_num) (by norm_num) (by norm_num) (by norm_num) (by norm_num)
    (by norm_num) (by norm_num) k
  have s0 := (small 0).2
  have s1 := (small 1).2
  have s2 := (small 2).2
  norm_num at s0 s1 s2
  obtain ⟨M', R', m1, m2, m3⟩ := C126_flexibility (e := 1 / 1000000) (al := 1 / 1000000) (r := 1 / 100) (S := 30) (by norm_num) (by norm_num) (by norm_num) (small 0).1 l l' hs hs' hnear
    ht hp hS exABD exInv (exABD_eq l hs hlay) exInv_eq (nu := 2) (eps := 2 / 1000) hrow (by rw [hheight]; norm_num; linarith) (by rw [hheight]; norm_num; linarith) (by norm_num)
  have hN : ∀ i, RelTol (1 / 1000000) (exN i) (((1000001 / 1000000 : ℝ) • exN) i) := fun i => by
    rw [RelTol, Pi.smul_apply, smul_eq_mul, show 1000001 / 1000000 * exN i - exN i = 1 / 1000000 * exN i by ring, abs_mul, abs_of_pos (by norm_num : (0 : ℝ) < 1 / 1000000)]
  have hal : HasAllowables l := fun p hp => ⟨_, hmem p hp⟩
  have he0 : epsilon0 l exN = .ok (exInv *ᵥ exN) := by simp [epsilon0, exABD_eq l hs hlay, exInv_eq]
  obtain ⟨ms, hms⟩ : ∃ ms, calculateMargin l exN = .ok ms := ⟨_, by rw [hs.margin_eq hal, he0]; rfl⟩
  have hsize : ∀ k, strainSize (fun _ _ => 2) exN (1 / 2) k = 3 := fun k => by
    simp [strainSize, flexSize, exN, Fin.sum_univ_three]; norm_num
  have hturn : turnErr (1 / 1000000) (1 / 1000000) (1 / 100) ≤ 1 / 100000 := by
    unfold turnErr dataGrowth dataErr
    norm_num
  obtain ⟨rows', h1, h2, h3⟩ := C126_margins (e := 1 / 1000000) (al := 1 / 1000000) (r := 1 / 100) (S := 30) (Y := fun _ _ => 2) (eta := 1) (d := 4) (by norm_num) (by norm_num) (by norm_num)
    (small 0).1 hs hs' hnear ht hp hS hN (by norm_num : (1 : ℝ) ≤ 1 + 2 * (2 / 1000) / (1 - 2 * (2 / 1000))) (exABD_eq l hs hlay) exInv_eq m1 m2 m3 (by norm_num)
    (by
      rw [hheight]
      simp only [hsize, Finset.sum_const, Finset.card_univ, Fintype.card_fin, nsmul_eq_mul]
      norm_num
      linarith)
    (fun p hp v hv i => by
      rw [hmem p hp] at hv
      cases hv
      fin_cases i <;> norm_num) ms hms
  have hlen : ms.length = 4 := by
    obtain ⟨-, _, -, l1, -⟩ := margin_rows hs exN ms hms
    rw [l1, hlay]; rfl
  refine ⟨l', rows', hl', h1, by omega, fun s' hs2 => ?_⟩
  obtain ⟨j, hj, rfl⟩ := List.mem_iff_getElem.mp hs2
  have hjm : j < ms.length := by omega
  refine h3 j _ _ (fun _ => 10) _ (List.getElem?_eq_getElem hjm) (List.getElem?_eq_getElem hj) ?_ (fun i => by norm_num) ?_
  · intro p hp
    rw [hmem p (List.mem_of_getElem? hp)]
    refine congrArg Except.ok ?_
    ext i; fin_cases i <;> rfl
  · obtain ⟨hk, mm, S1, s, hmat, hS1, hs1, -, -, -, hmar, -⟩ := margin_row hs exN ms hms j _ (List.getElem?_eq_getElem hjm)
    obtain ⟨t, ht2⟩ := (exRows l hs hlay S1 hS1).2 s (List.mem_of_getElem? hs1)
    have hm2 : mm = ⟨12, 12, 0, 6, 1 / 2, 10, 10, 10, 10, 10⟩ := by
      have := hmem _ (List.getElem_mem hk)
      rw [hmat] at this
      exact (Mat.ortho.inj this)
    have hv : (![mm.t1, mm.c1, mm.t2, mm.c2, mm.s] : V5) = fun _ => 10 := by
      subst hm2
      ext i; fin_cases i <;> rfl
    rw [hmar, hv, ht2]
    refine exMargins fun i => ?_
    have : (Treal t *ᵥ ![1, 0, 0]) i = Treal t i 0 := by simp [Matrix.mulVec, dotProduct, Fin.sum_univ_three]
    rw [this]
    rw [Treal_eq_Teng]; exact Teng_le (-t) 0 i

end Composipy
