import Verif.Lemmas.Wirtinger
import Verif.Props.BucklingLaws
import Verif.Props.Buckling
import Mathlib.MeasureTheory.Integral.Prod
import Mathlib.Analysis.Real.Pi.Bounds

/-!
# C89: a clamped plate buckles between the Euler load of a clamped strip and an explicit Rayleigh quotient
-/

namespace Composipy
open Spec Matrix Polynomial MeasureTheory Real

variable {a b : ℝ}

/-! ## The Wirtinger inequality on the plate -/

theorem int_swap {F : ℝ → ℝ → ℝ} (hF : Continuous (Function.uncurry F)) (a b : ℝ) :
    ∫ x in (0 : ℝ)..a, ∫ y in (0 : ℝ)..b, F x y = ∫ y in (0 : ℝ)..b, ∫ x in (0 : ℝ)..a, F x y := by
  refine intervalIntegral_intervalIntegral_swap ?_
  have hc : IntegrableOn (Function.uncurry F) (Set.uIcc 0 a ×ˢ Set.uIcc 0 b) :=
    hF.continuousOn.integrableOn_compact (isCompact_uIcc.prod isCompact_uIcc)
  exact hc.mono_set (Set.prod_mono Set.uIoc_subset_uIcc Set.uIoc_subset_uIcc)

/-- The inequality for a sum of products of functions of `x` vanishing with their slopes at both ends. -/
theorem wirtinger_sep {N : ℕ} (ha : 0 < a) (hb : 0 < b) (c : Fin N → ℝ) (P Q : Fin N → ℝ[X])
    (h0 : ∀ r, (P r).eval 0 = 0 ∧ (P r).eval a = 0 ∧ (derivative (P r)).eval 0 = 0 ∧ (derivative (P r)).eval a = 0) :
    (2 * π / a) ^ 2 * (∫ x in (0 : ℝ)..a, ∫ y in (0 : ℝ)..b, sep c (fun r => derivative (P r)) Q x y ^ 2)
      ≤ ∫ x in (0 : ℝ)..a, ∫ y in (0 : ℝ)..b, sep c (fun r => derivative (derivative (P r))) Q x y ^ 2 := by
  have c1 := sep_continuous c (fun r => derivative (P r)) Q
  have c2 := sep_continuous c (fun r => derivative (derivative (P r))) Q
  have e1 : Continuous (Function.uncurry fun x y => sep c (fun r => derivative (P r)) Q x y ^ 2) := c1.pow 2
  have e2 : Continuous (Function.uncurry fun x y => sep c (fun r => derivative (derivative (P r))) Q x y ^ 2) := c2.pow 2
  have sw : ∀ {F : ℝ → ℝ → ℝ}, Continuous (Function.uncurry F) → Continuous fun y => ∫ x in (0 : ℝ)..a, F x y := by
    intro F hF
    exact intervalIntegral.continuous_parametric_intervalIntegral_of_continuous' (f := fun y x => F x y)
      (hF.comp continuous_swap) 0 a
  rw [int_swap e1, int_swap e2, ← intervalIntegral.integral_const_mul]
  refine intervalIntegral.integral_mono_on hb.le ((sw e1).const_mul _ |>.intervalIntegrable _ _)
    ((sw e2).intervalIntegrable _ _) fun y _ => ?_
  have d1 : ∀ t, HasDerivAt (fun t => sep c (fun r => derivative (P r)) Q t y)
      (sep c (fun r => derivative (derivative (P r))) Q t y) t := fun t => by
    unfold sep
    exact HasDerivAt.fun_sum fun r _ => (((derivative (P r)).hasDerivAt t).mul_const _).const_mul _
  have d0 : ∀ t, HasDerivAt (fun t => sep c P Q t y) (sep c (fun r => derivative (P r)) Q t y) t := fun t => by
    unfold sep
    exact HasDerivAt.fun_sum fun r _ => (((P r).hasDerivAt t).mul_const _).const_mul _
  refine Verif.wirtinger ha d1 (c2.comp (continuous_id.prodMk continuous_const)) ?_ ?_
  · simp [sep, (h0 _).2.2.1, (h0 _).2.2.2]
  · rw [intervalIntegral.integral_eq_sub_of_hasDerivAt (fun t _ => d0 t)
      ((c1.comp (continuous_id.prodMk continuous_const)).intervalIntegrable _ _)]
    simp [sep, (h0 _).1, (h0 _).2.1]

theorem phys_clamped (ha : a ≠ 0) {i : ℕ} (hi : 4 ≤ i) : (phys a (shape i)).eval 0 = 0 ∧ (phys a (shape i)).eval a = 0 ∧
    (derivative (phys a (shape i))).eval 0 = 0 ∧ (derivative (phys a (shape i))).eval a = 0 := by
  obtain ⟨h1, h2, h3, h4⟩ := C45_bubble i hi
  have e0 : (0 : ℝ) - 1 = -1 := by ring
  have e1 : 2 / a * a - 1 = 1 := by field_simp; norm_num
  simp only [derivative_phys, eval_mul, eval_C, phys_eval, e0, e1, h1, h2, h3, h4, mul_zero, and_self]

/-- On clamped deflections the curvatures dominate the slopes, in both directions. -/
theorem wirtinger_plate (ha : 0 < a) (hb : 0 < b) (w : List (ℕ × ℕ)) {N : ℕ} (hN : w.length = N)
    (h4 : ∀ q ∈ w, 4 ≤ q.1 ∧ 4 ≤ q.2) (c : Fin N → ℝ) :
    (2 * π / a) ^ 2 * (∫ x in (0 : ℝ)..a, ∫ y in (0 : ℝ)..b, dX (ritz a b w c) x y ^ 2)
        ≤ ∫ x in (0 : ℝ)..a, ∫ y in (0 : ℝ)..b, dX (dX (ritz a b w c)) x y ^ 2 ∧
      (2 * π / b) ^ 2 * (∫ x in (0 : ℝ)..a, ∫ y in (0 : ℝ)..b, dY (ritz a b w c) x y ^ 2)
        ≤ ∫ x in (0 : ℝ)..a, ∫ y in (0 : ℝ)..b, dY (dY (ritz a b w c)) x y ^ 2 := by
  have hr : ∀ r : Fin N, 4 ≤ (w.getD r (0, 0)).1 ∧ 4 ≤ (w.getD r (0, 0)).2 := fun r => by
    have hlt : (r : ℕ) < w.length := by rw [hN]; exact r.2
    rw [List.getD_eq_getElem _ _ hlt]
    exact h4 _ (List.getElem_mem hlt)
  simp only [ritz_sep, dX_sep, dY_sep]
  constructor
  · exact wirtinger_sep ha hb c _ _ fun r => phys_clamped ha.ne' (hr r).1
  · have := wirtinger_sep hb ha c (fun r => phys b (shape (w.getD r (0, 0)).2)) (fun r => phys a (shape (w.getD r (0, 0)).1))
      fun r => phys_clamped hb.ne' (hr r).2
    have sw : ∀ P Q : Fin N → ℝ[X], ∫ x in (0 : ℝ)..b, ∫ y in (0 : ℝ)..a, sep c Q P x y ^ 2
        = ∫ x in (0 : ℝ)..a, ∫ y in (0 : ℝ)..b, sep c P Q x y ^ 2 := fun P Q => by
      have e1 : Continuous (Function.uncurry fun x y => sep c Q P x y ^ 2) := (sep_continuous c Q P).pow 2
      rw [int_swap e1]
      refine intervalIntegral.integral_congr fun x _ => intervalIntegral.integral_congr fun y _ => ?_
      simp only [sep]
      congr 1
      exact Finset.sum_congr rfl fun r _ => by ring
    rw [sw, sw] at this
    exact this

/-! ## The lower bound -/

/-- Double integral of the square of a separable sum. -/
theorem DI.sq {N : ℕ} (c : Fin N → ℝ) (P Q : Fin N → ℝ[X]) : ∃ v, DI a b (fun x y => sep c P Q x y ^ 2) v := by
  have := DI.quad (a := a) (b := b) c P Q P Q
  simp only [sep, pow_two]
  exact ⟨_, this⟩

/-- `∬ (w_x)^2`, `∬ (w_y)^2` of a deflection: what the compressive loads work on. -/
noncomputable def Spec.slopeX (a b : ℝ) (w : ℝ → ℝ → ℝ) : ℝ := ∫ x in (0 : ℝ)..a, ∫ y in (0 : ℝ)..b, dX w x y ^ 2
@[inherit_doc Spec.slopeX]
noncomputable def Spec.slopeY (a b : ℝ) (w : ℝ → ℝ → ℝ) : ℝ := ∫ x in (0 : ℝ)..a, ∫ y in (0 : ℝ)..b, dY w x y ^ 2

theorem slopes_nonneg (ha : 0 < a) (hb : 0 < b) (w : ℝ → ℝ → ℝ) : 0 ≤ slopeX a b w ∧ 0 ≤ slopeY a b w :=
  ⟨intervalIntegral.integral_nonneg ha.le fun _ _ => intervalIntegral.integral_nonneg hb.le fun _ _ => sq_nonneg _,
    intervalIntegral.integral_nonneg ha.le fun _ _ => intervalIntegral.integral_nonneg hb.le fun _ _ => sq_nonneg _⟩

theorem loadWork_split (x y : ℝ) (w : List (ℕ × ℕ)) {N : ℕ} (c : Fin N → ℝ) :
    loadWork x y 0 a b (ritz a b w c) = x * slopeX a b (ritz a b w c) + y * slopeY a b (ritz a b w c) := by
  unfold loadWork slopeX slopeY
  simp only [mul_zero, zero_mul, add_zero]
  simp only [ritz_sep, dX_sep, dY_sep]
  obtain ⟨u, hu⟩ := DI.sq (a := a) (b := b) c (fun r => derivative (phys a (shape (w.getD r (0, 0)).1)))
    (fun r => phys b (shape (w.getD r (0, 0)).2))
  obtain ⟨v, hv⟩ := DI.sq (a := a) (b := b) c (fun r => phys a (shape (w.getD r (0, 0)).1))
    (fun r => derivative (phys b (shape (w.getD r (0, 0)).2)))
  rw [hu.val, hv.val, ((hu.smul x).add (hv.smul y)).val]

/-- The bending energy of a clamped deflection is at least the energy of its slopes. -/
theorem energy_ge (ha : 0 < a) (hb : 0 < b) {D : M3} (hD : D.IsSymm) {m1 m2 : ℝ} (h1 : 0 ≤ m1) (h2 : 0 ≤ m2)
    (hm : (D - Matrix.diagonal ![m1, m2, 0]).PosSemidef) (w : List (ℕ × ℕ)) {N : ℕ} (hN : w.length = N)
    (h4 : ∀ q ∈ w, 4 ≤ q.1 ∧ 4 ≤ q.2) (c : Fin N → ℝ) :
    4 * π ^ 2 * (m1 / a ^ 2 * slopeX a b (ritz a b w c) + m2 / b ^ 2 * slopeY a b (ritz a b w c))
      ≤ bendEnergy D a b (ritz a b w c) := by
  have hdi : (Matrix.diagonal ![m1, m2, 0] : M3).IsSymm := Matrix.isSymm_diagonal _
  have k0 := kMat_nonneg hm ha hb w c
  rw [kMat_energy ha.ne' hb.ne' _ (hD.sub hdi)] at k0
  have e : bendEnergy (D - Matrix.diagonal ![m1, m2, 0]) a b (ritz a b w c)
      = bendEnergy D a b (ritz a b w c) - bendEnergy (Matrix.diagonal ![m1, m2, 0]) a b (ritz a b w c) := by
    rw [← kMat_energy ha.ne' hb.ne' _ (hD.sub hdi), ← kMat_energy ha.ne' hb.ne' _ hD, ← kMat_energy ha.ne' hb.ne' _ hdi,
      ← dotProduct_sub, ← Matrix.sub_mulVec]
    congr 2
    ext r s
    simp only [kMat, of_apply, Matrix.sub_apply, k33v]
    ring
  have e2 : bendEnergy (Matrix.diagonal ![m1, m2, 0]) a b (ritz a b w c)
      = m1 * (∫ x in (0 : ℝ)..a, ∫ y in (0 : ℝ)..b, dX (dX (ritz a b w c)) x y ^ 2)
        + m2 * ∫ x in (0 : ℝ)..a, ∫ y in (0 : ℝ)..b, dY (dY (ritz a b w c)) x y ^ 2 := by
    have hd : ∀ x y, bendDensity (Matrix.diagonal ![m1, m2, 0]) (ritz a b w c) x y
        = m1 * dX (dX (ritz a b w c)) x y ^ 2 + m2 * dY (dY (ritz a b w c)) x y ^ 2 := fun x y => by
      simp [bendDensity, dotProduct, Matrix.mulVec, Fin.sum_univ_three, Matrix.diagonal]
      ring
    unfold bendEnergy
    simp only [hd]
    simp only [ritz_sep, dX_sep, dY_sep]
    obtain ⟨u, hu⟩ := DI.sq (a := a) (b := b) c (fun r => derivative (derivative (phys a (shape (w.getD r (0, 0)).1))))
      (fun r => phys b (shape (w.getD r (0, 0)).2))
    obtain ⟨v, hv⟩ := DI.sq (a := a) (b := b) c (fun r => phys a (shape (w.getD r (0, 0)).1))
      (fun r => derivative (derivative (phys b (shape (w.getD r (0, 0)).2))))
    rw [hu.val, hv.val, ((hu.smul m1).add (hv.smul m2)).val]
  obtain ⟨w1, w2⟩ := wirtinger_plate ha hb w hN h4 c
  have w1' := mul_le_mul_of_nonneg_left w1 h1
  have w2' := mul_le_mul_of_nonneg_left w2 h2
  have r1 : 4 * π ^ 2 * (m1 / a ^ 2 * slopeX a b (ritz a b w c) + m2 / b ^ 2 * slopeY a b (ritz a b w c))
      = m1 * ((2 * π / a) ^ 2 * slopeX a b (ritz a b w c)) + m2 * ((2 * π / b) ^ 2 * slopeY a b (ritz a b w c)) := by
    field_simp
    ring
  rw [r1]
  unfold slopeX slopeY
  linarith

/-- The energy balance of a clamped buckling mode without shear load. -/
theorem mode_balance {D : M3} (hD : D.PosDef) {p : PlateNum} (ha : 0 < p.a) (hb : 0 < p.b) (hm : 1 ≤ p.m)
    (hn : 1 ≤ p.n) (hm' : p.m ≤ 26) (hn' : p.n ≤ 26) (hxy : p.Nxy = 0) {m1 m2 : ℝ} (h1 : 0 ≤ m1) (h2 : 0 ≤ m2)
    (hmu : (D - Matrix.diagonal ![m1, m2, 0]).PosSemidef) {K KG : SqMat (p.m * p.n)}
    (hK : calcKKGD shipped (.ok D) (.str wCLAMPED) p = .ok (K, KG)) {lam : ℝ} (hl : PosMult K KG lam) :
    ∃ X Y : ℝ, 0 ≤ X ∧ 0 ≤ Y ∧ 0 < lam * (-p.Nxx * X + -p.Nyy * Y) ∧
      4 * π ^ 2 * (m1 / p.a ^ 2 * X + m2 / p.b ^ 2 * Y) ≤ lam * (-p.Nxx * X + -p.Nyy * Y) := by
  obtain ⟨w, ⟨h4, hlen, -⟩, hf⟩ := clamped_forms p.m p.n hm' hn'
  have e1 := hf D p.a p.b p.Nxx p.Nyy p.Nxy ha.ne' hb.ne'
  rw [show calcKKGD shipped (.ok D) (.str wCLAMPED) ⟨p.a, p.b, p.Nxx, p.Nyy, p.Nxy, p.m, p.n⟩ = .ok (K, KG) from hK] at e1
  have hpd := clamped_posDef hD ha hb hm hn hm' hn' hK
  obtain ⟨rfl, rfl⟩ := Prod.mk.inj (Except.ok.inj e1)
  obtain ⟨hpos, v, hv⟩ := hl
  have hsym : D.IsSymm := hD.isHermitian
  have k0 := hpd.dotProduct_mulVec_pos hv.1
  simp only [star_trivial] at k0
  have hb0 := buckles_energy hv
  rw [hxy, gMat_work ha.ne' hb.ne', loadWork_split] at hb0
  have hge := energy_ge ha hb hsym h1 h2 hmu w hlen h4 v
  rw [← kMat_energy ha.ne' hb.ne' _ hsym] at hge
  obtain ⟨sx, sy⟩ := slopes_nonneg ha hb (ritz p.a p.b w v)
  refine ⟨_, _, sx, sy, ?_, ?_⟩
  · linarith
  · linarith

/-- **C89** lower bound: if `D` dominates the bending stiffnesses `m1, m2` of two families of strips, every positive multiplier of
the clamped plate is at least the Euler multiplier `4 pi^2 m / (side^2 N)` of one of the two strips. -/
theorem C89_strips (D : M3) (hD : D.PosDef) (p : PlateNum) (ha : 0 < p.a) (hb : 0 < p.b) (hm : 1 ≤ p.m)
    (hn : 1 ≤ p.n) (hm' : p.m ≤ 26) (hn' : p.n ≤ 26) (hxy : p.Nxy = 0) (m1 m2 : ℝ) (h1 : 0 ≤ m1) (h2 : 0 ≤ m2)
    (hmu : (D - Matrix.diagonal ![m1, m2, 0]).PosSemidef) (K KG : SqMat (p.m * p.n))
    (hK : calcKKGD shipped (.ok D) (.str wCLAMPED) p = .ok (K, KG)) (lam : ℝ) (hl : PosMult K KG lam) :
    4 * π ^ 2 * m1 / p.a ^ 2 ≤ lam * -p.Nxx ∨ 4 * π ^ 2 * m2 / p.b ^ 2 ≤ lam * -p.Nyy := by
  obtain ⟨X, Y, hX, hY, hpos, hle⟩ := mode_balance hD ha hb hm hn hm' hn' hxy h1 h2 hmu hK hl
  by_contra hno
  push Not at hno
  have e : 4 * π ^ 2 * (m1 / p.a ^ 2 * X + m2 / p.b ^ 2 * Y)
      = 4 * π ^ 2 * m1 / p.a ^ 2 * X + 4 * π ^ 2 * m2 / p.b ^ 2 * Y := by ring
  rw [e] at hle
  have i1 : 0 ≤ (4 * π ^ 2 * m1 / p.a ^ 2 - lam * -p.Nxx) * X := mul_nonneg (by linarith [hno.1]) hX
  have i2 : 0 ≤ (4 * π ^ 2 * m2 / p.b ^ 2 - lam * -p.Nyy) * Y := mul_nonneg (by linarith [hno.2]) hY
  have z1 : (4 * π ^ 2 * m1 / p.a ^ 2 - lam * -p.Nxx) * X = 0 := by nlinarith
  have z2 : (4 * π ^ 2 * m2 / p.b ^ 2 - lam * -p.Nyy) * Y = 0 := by nlinarith
  have zX : X = 0 := by
    rcases mul_eq_zero.mp z1 with h | h
    · linarith [hno.1]
    · exact h
  have zY : Y = 0 := by
    rcases mul_eq_zero.mp z2 with h | h
    · linarith [hno.2]
    · exact h
  rw [zX, zY] at hpos
  simp at hpos

/-- `D` dominates the strip stiffness `1 / (D⁻¹)_ii` in direction `i`. -/
theorem strip_psd {D : M3} (hD : D.PosDef) (i : Fin 3) :
    0 < D⁻¹ i i ∧ (D - Matrix.diagonal (Pi.single i (1 / D⁻¹ i i))).PosSemidef := by
  have hinv : (D⁻¹).PosDef := hD.inv
  have hp : 0 < D⁻¹ i i := hinv.diag_pos
  refine ⟨hp, ?_⟩
  have hs : D.IsSymm := hD.isHermitian
  have hdet : IsUnit D.det := hD.det_pos.ne'.isUnit
  refine Matrix.PosSemidef.of_dotProduct_mulVec_nonneg ?_ fun x => ?_
  · exact (hs.sub (Matrix.isSymm_diagonal _) : (D - Matrix.diagonal (Pi.single i (1 / D⁻¹ i i))).IsSymm)
  · simp only [star_trivial]
    rw [Matrix.sub_mulVec, dotProduct_sub]
    have e1 : x ⬝ᵥ (Matrix.diagonal (Pi.single i (1 / D⁻¹ i i))).mulVec x = x i ^ 2 / D⁻¹ i i := by
      simp only [dotProduct, Matrix.mulVec_diagonal]
      rw [Finset.sum_eq_single i]
      · simp; ring
      · intro j _ hj; simp [Pi.single_eq_of_ne hj]
      · simp
    rw [e1]
    -- nonnegativity of the energy of `x - t D⁻¹ e_i`
    set g : Fin 3 → ℝ := D⁻¹.mulVec (Pi.single i 1) with hg
    have hDg : D.mulVec g = Pi.single i 1 := by
      rw [hg, Matrix.mulVec_mulVec, Matrix.mul_nonsing_inv _ hdet, Matrix.one_mulVec]
    have hgi : g i = D⁻¹ i i := by simp [hg]
    have hxg : g ⬝ᵥ D.mulVec x = x i := by
      rw [Matrix.dotProduct_mulVec, ← Matrix.mulVec_transpose, hs.eq, hDg]; simp
    have q := hD.posSemidef.dotProduct_mulVec_nonneg (x - (x i / D⁻¹ i i) • g)
    simp only [star_trivial, Matrix.mulVec_sub, Matrix.mulVec_smul, hDg, sub_dotProduct, dotProduct_sub, smul_dotProduct,
      dotProduct_smul, smul_eq_mul, hxg, dotProduct_single, Pi.sub_apply, Pi.smul_apply, hgi, mul_one, mul_sub] at q
    have : x i / D⁻¹ i i * x i - x i / D⁻¹ i i * (x i / D⁻¹ i i * D⁻¹ i i) = 0 := by field_simp; ring
    have e3 : x i / D⁻¹ i i * x i = x i ^ 2 / D⁻¹ i i := by ring
    linarith

/-- **C89** a clamped plate compressed in one direction and not in the other carries at least the Euler load of a clamped strip of
stiffness `1 / (D⁻¹)_ii` in that direction. -/
theorem C89_euler (D : M3) (hD : D.PosDef) (p : PlateNum) (ha : 0 < p.a) (hb : 0 < p.b) (hm : 1 ≤ p.m)
    (hn : 1 ≤ p.n) (hm' : p.m ≤ 26) (hn' : p.n ≤ 26) (hxy : p.Nxy = 0) (K KG : SqMat (p.m * p.n))
    (hK : calcKKGD shipped (.ok D) (.str wCLAMPED) p = .ok (K, KG)) (lam : ℝ) (hl : PosMult K KG lam) :
    (0 ≤ p.Nyy → 4 * π ^ 2 / (D⁻¹ 0 0 * p.a ^ 2) ≤ lam * -p.Nxx) ∧
    (0 ≤ p.Nxx → 4 * π ^ 2 / (D⁻¹ 1 1 * p.b ^ 2) ≤ lam * -p.Nyy) := by
  constructor <;> intro hN
  · obtain ⟨hp, hs⟩ := strip_psd hD 0
    have e : (Pi.single 0 (1 / D⁻¹ 0 0) : Fin 3 → ℝ) = ![1 / D⁻¹ 0 0, 0, 0] := by
      funext j; fin_cases j <;> simp
    rw [e] at hs
    obtain ⟨X, Y, hX, hY, hpos, hle⟩ := mode_balance hD ha hb hm hn hm' hn' hxy (by positivity) le_rfl hs hK hl
    by_contra hno
    push Not at hno
    have lY : 0 ≤ lam * (p.Nyy * Y) := mul_nonneg hl.1.le (mul_nonneg hN hY)
    have e2 : 4 * π ^ 2 * (1 / D⁻¹ 0 0 / p.a ^ 2 * X + 0 / p.b ^ 2 * Y) = 4 * π ^ 2 / (D⁻¹ 0 0 * p.a ^ 2) * X := by
      field_simp; ring
    rw [e2] at hle
    have i1 : 0 ≤ (4 * π ^ 2 / (D⁻¹ 0 0 * p.a ^ 2) - lam * -p.Nxx) * X := mul_nonneg (by linarith) hX
    have z1 : (4 * π ^ 2 / (D⁻¹ 0 0 * p.a ^ 2) - lam * -p.Nxx) * X = 0 := by nlinarith
    rcases mul_eq_zero.mp z1 with h | h
    · linarith
    · rw [h] at hpos; nlinarith
  · obtain ⟨hp, hs⟩ := strip_psd hD 1
    have e : (Pi.single 1 (1 / D⁻¹ 1 1) : Fin 3 → ℝ) = ![0, 1 / D⁻¹ 1 1, 0] := by
      funext j; fin_cases j <;> simp
    rw [e] at hs
    obtain ⟨X, Y, hX, hY, hpos, hle⟩ := mode_balance hD ha hb hm hn hm' hn' hxy le_rfl (by positivity) hs hK hl
    by_contra hno
    push Not at hno
    have lX : 0 ≤ lam * (p.Nxx * X) := mul_nonneg hl.1.le (mul_nonneg hN hX)
    have e2 : 4 * π ^ 2 * (0 / p.a ^ 2 * X + 1 / D⁻¹ 1 1 / p.b ^ 2 * Y) = 4 * π ^ 2 / (D⁻¹ 1 1 * p.b ^ 2) * Y := by
      field_simp; ring
    rw [e2] at hle
    have i1 : 0 ≤ (4 * π ^ 2 / (D⁻¹ 1 1 * p.b ^ 2) - lam * -p.Nyy) * Y := mul_nonneg (by linarith) hY
    have z1 : (4 * π ^ 2 / (D⁻¹ 1 1 * p.b ^ 2) - lam * -p.Nyy) * Y = 0 := by nlinarith
    rcases mul_eq_zero.mp z1 with h | h
    · linarith
    · rw [h] at hpos; nlinarith

/-! ## The upper bound -/

theorem entry44' : exactV.fxixi_fxixi 4 4 = 2 / 5 ∧ exactV.fxixi_f 4 4 = -4 / 105 ∧ exactV.f_fxixi 4 4 = -4 / 105 := by
  have h : ∀ x, (shape 4).eval x = 1 / 8 * x ^ 4 - 1 / 4 * x ^ 2 + 1 / 8 := fun x => by
    rw [shape4]; simp
  have h2 : ∀ x, (derivative (derivative (shape 4))).eval x = 3 / 2 * x ^ 2 - 1 / 2 := fun x => by
    rw [shape4]; simp; ring
  simp only [exactV, h, h2]
  have e1 : (fun x : ℝ => (3 / 2 * x ^ 2 - 1 / 2) * (3 / 2 * x ^ 2 - 1 / 2))
      = fun x => (9 / 4 * x ^ 4 - 3 / 2 * x ^ 2 + 1 / 4) := by funext x; ring
  have e2 : (fun x : ℝ => (3 / 2 * x ^ 2 - 1 / 2) * (1 / 8 * x ^ 4 - 1 / 4 * x ^ 2 + 1 / 8))
      = fun x => (3 / 16 * x ^ 6 - 7 / 16 * x ^ 4 + 5 / 16 * x ^ 2 - 1 / 16) := by funext x; ring
  have e3 : (fun x : ℝ => (1 / 8 * x ^ 4 - 1 / 4 * x ^ 2 + 1 / 8) * (3 / 2 * x ^ 2 - 1 / 2))
      = fun x => (3 / 16 * x ^ 6 - 7 / 16 * x ^ 4 + 5 / 16 * x ^ 2 - 1 / 16) := by funext x; ring
  have ii : ∀ f : ℝ → ℝ, Continuous f → IntervalIntegrable f volume (-1) 1 := fun f hf => hf.intervalIntegrable _ _
  rw [e1, e2, e3]
  have j1 : ∫ x in (-1 : ℝ)..1, (9 / 4 * x ^ 4 - 3 / 2 * x ^ 2 + 1 / 4) = 2 / 5 := by
    rw [intervalIntegral.integral_add (ii _ (by fun_prop)) (ii _ (by fun_prop)),
      intervalIntegral.integral_sub (ii _ (by fun_prop)) (ii _ (by fun_prop))]
    simp only [intervalIntegral.integral_const_mul, integral_pow, intervalIntegral.integral_const]
    norm_num
  have j2 : ∫ x in (-1 : ℝ)..1, (3 / 16 * x ^ 6 - 7 / 16 * x ^ 4 + 5 / 16 * x ^ 2 - 1 / 16) = -4 / 105 := by
    rw [intervalIntegral.integral_sub (ii _ (by fun_prop)) (ii _ (by fun_prop)),
      intervalIntegral.integral_add (ii _ (by fun_prop)) (ii _ (by fun_prop)),
      intervalIntegral.integral_sub (ii _ (by fun_prop)) (ii _ (by fun_prop))]
    simp only [intervalIntegral.integral_const_mul, integral_pow, intervalIntegral.integral_const]
    norm_num
  exact ⟨j1, j2, j2⟩

/-- The Rayleigh quotient of the first clamped shape. -/
noncomputable def Spec.rayleigh (D : M3) (a b nx ny : ℝ) : ℝ :=
  (42 * (D 0 0 / a ^ 4 + D 1 1 / b ^ 4) + 24 * (D 0 1 + 2 * D 2 2) / (a ^ 2 * b ^ 2)) / (nx / a ^ 2 + ny / b ^ 2)

/-- **C89** upper bound: a clamped plate in compression has a positive multiplier not above the Rayleigh quotient of `(1 - xi^2)^2
(1 - eta^2)^2`, for every number of terms and whatever the shear load. -/
theorem C89_rayleigh (D : M3) (hD : D.PosDef) (p : PlateNum) (ha : 0 < p.a) (hb : 0 < p.b) (hm : 1 ≤ p.m)
    (hn : 1 ≤ p.n) (hm' : p.m ≤ 26) (hn' : p.n ≤ 26) (hx : 0 < -p.Nxx / p.a ^ 2 + -p.Nyy / p.b ^ 2)
    (K KG : SqMat (p.m * p.n)) (h : calcKKGD shipped (.ok D) (.str wCLAMPED) p = .ok (K, KG)) :
    ∃ lam ≤ rayleigh D p.a p.b (-p.Nxx) (-p.Nyy), PosMult K KG lam := by
  obtain ⟨w, ⟨h4, hlen, h44⟩, hf⟩ := clamped_forms p.m p.n hm' hn'
  have hpd := clamped_posDef hD ha hb hm hn hm' hn' h
  have hsym := (C48_symmetric _ _ p hm hn K KG h).2
  have e1 := hf D p.a p.b p.Nxx p.Nyy p.Nxy ha.ne' hb.ne'
  rw [show calcKKGD shipped (.ok D) (.str wCLAMPED) ⟨p.a, p.b, p.Nxx, p.Nyy, p.Nxy, p.m, p.n⟩ = .ok (K, KG) from h] at e1
  obtain ⟨hKe, hKG⟩ := Prod.mk.inj (Except.ok.inj e1)
  let i0 : Fin (p.m * p.n) := ⟨0, Nat.mul_pos hm hn⟩
  let v : Fin (p.m * p.n) → ℝ := Pi.single i0 1
  have hv : v ≠ 0 := fun h0 => by have := congrFun h0 i0; simp [v] at this
  obtain ⟨t1, t2, -⟩ := entry44
  obtain ⟨t3, t4, t5⟩ := entry44'
  have par := exactV_parity (le_refl 4) (le_refl 4)
  have hs : D 1 0 = D 0 1 := by simpa using hD.isHermitian.apply 0 1
  have hg : v ⬝ᵥ KG.mulVec v = -(16 / 33075 * (p.a * p.b) * (-p.Nxx / p.a ^ 2 + -p.Nyy / p.b ^ 2)) := by
    have e : v ⬝ᵥ KG.mulVec v = KG i0 i0 := by simp [v]
    rw [e, hKG]
    show g33v exactV p.a p.b p.Nxx p.Nyy p.Nxy (w.getD 0 (0, 0)) (w.getD 0 (0, 0)) = _
    rw [h44 hm hn]
    obtain ⟨-, s2, s3, -⟩ := par
    have z2 : exactV.fxi_f 4 4 = 0 := by norm_num at s2; linarith
    simp only [g33v, t1, t2, z2]
    field_simp
    ring
  have hk : v ⬝ᵥ K.mulVec v = 16 / 33075 * (p.a * p.b)
      * (42 * (D 0 0 / p.a ^ 4 + D 1 1 / p.b ^ 4) + 24 * (D 0 1 + 2 * D 2 2) / (p.a ^ 2 * p.b ^ 2)) := by
    have e : v ⬝ᵥ K.mulVec v = K i0 i0 := by simp [v]
    rw [e, hKe]
    show k33v exactV p.a p.b D (w.getD 0 (0, 0)) (w.getD 0 (0, 0)) = _
    rw [h44 hm hn]
    have z : exactV.fxi_f 4 4 = 0 ∧ exactV.f_fxi 4 4 = 0 ∧ exactV.fxixi_fxi 4 4 = 0 ∧ exactV.fxi_fxixi 4 4 = 0 := by
      obtain ⟨-, s2, s3, -, -, -, s7, s8, -⟩ := par
      norm_num at s2 s3 s7 s8
      exact ⟨by linarith, by linarith, by linarith, by linarith⟩
    obtain ⟨z1, z2, z3, z4⟩ := z
    simp only [k33v, t1, t2, t3, t4, t5, z1, z2, z3, z4, hs]
    field_simp
    ring
  have hk0 := hpd.dotProduct_mulVec_pos hv
  simp only [star_trivial] at hk0
  have hab : 0 < 16 / 33075 * (p.a * p.b) := by positivity
  have hr : rayleigh D p.a p.b (-p.Nxx) (-p.Nyy) = v ⬝ᵥ K.mulVec v / -(v ⬝ᵥ KG.mulVec v) := by
    rw [hk, hg, neg_neg, mul_div_mul_left _ _ hab.ne']
    rfl
  have hgn : 0 < -(v ⬝ᵥ KG.mulVec v) := by rw [hg, neg_neg]; positivity
  obtain ⟨mu, h1, h2⟩ := posMult_le hpd hsym hv (lam := v ⬝ᵥ K.mulVec v / -(v ⬝ᵥ KG.mulVec v)) (div_pos hk0 hgn) (by
    have : v ⬝ᵥ K.mulVec v / -(v ⬝ᵥ KG.mulVec v) * (v ⬝ᵥ KG.mulVec v) = -(v ⬝ᵥ K.mulVec v) := by
      have := hgn.ne'
      rw [div_neg, neg_mul, div_mul_cancel₀ _ (by linarith : v ⬝ᵥ KG.mulVec v < 0).ne]
    linarith)
  exact ⟨mu, by rw [hr]; exact h1, h2⟩

/-! ## What `buckling_analysis` reports -/

/-- A definite pencil with a positive multiplier has a smallest one. -/
theorem exists_min_posMult {N : ℕ} {K KG : SqMat N} (hK : K.PosDef) (hG : KG.IsSymm) (h : ∃ lam, PosMult K KG lam) :
    ∃ lam0, PosMult K KG lam0 ∧ ∀ lam, PosMult K KG lam → lam0 ≤ lam := by
  obtain ⟨w, x, -, hall⟩ := exists_eigenpairs hG hK
  have hfin : {lam | PosMult K KG lam}.Finite := by
    refine (Set.finite_range fun j => -1 / w j).subset ?_
    rintro lam ⟨hl, v, hv⟩
    obtain ⟨hv0, hp⟩ := (buckles_pencil hl.ne').mp hv
    obtain ⟨j, hj⟩ := hall _ v hv0 hp
    exact ⟨j, by simp only [hj]; field_simp⟩
  obtain ⟨l, hl⟩ := h
  obtain ⟨l0, h0, hm⟩ := Set.exists_min_image _ id hfin ⟨l, hl⟩
  exact ⟨l0, h0, hm⟩

/-- **C89** a clamped plate compressed in `x`, within the Euler load of its strips: the critical multiplier exists, lies between the
Euler and the Rayleigh bound, is reported by `buckling_analysis`, and is the smallest positive value reported. -/
theorem C89_reported (S : EigSolver) (D : M3) (hD : D.PosDef) (p : PlateNum) (ha : 0 < p.a) (hb : 0 < p.b) (hm : 1 ≤ p.m)
    (hn : 1 ≤ p.n) (hm' : p.m ≤ 26) (hn' : p.n ≤ 26) (hx : p.Nxx < 0) (hy : p.Nyy = 0) (hxy : p.Nxy = 0)
    (hload : -p.Nxx ≤ 4 * π ^ 2 / (D⁻¹ 0 0 * p.a ^ 2)) (K KG : SqMat (p.m * p.n))
    (hK : calcKKGD shipped (.ok D) (.str wCLAMPED) p = .ok (K, KG)) (hS : Honest S KG K)
    (numEig : ℤ) (st : PlateState (p.m * p.n)) (vals : List PyFloat) (vecs : List (Fin (p.m * p.n) → ℝ))
    (h : (bucklingAnalysis S (.ok D) (.str wCLAMPED) p numEig st).1 = .ok (vals, vecs)) :
    ∃ lam0, XF.fin lam0 ∈ vals ∧ (∀ lam, 0 < lam → XF.fin lam ∈ vals → lam0 ≤ lam) ∧ PosMult K KG lam0 ∧
      (∀ lam, PosMult K KG lam → lam0 ≤ lam) ∧ 4 * π ^ 2 / (D⁻¹ 0 0 * p.a ^ 2) / -p.Nxx ≤ lam0 ∧
      lam0 ≤ rayleigh D p.a p.b (-p.Nxx) 0 := by
  have hx' : 0 < -p.Nxx / p.a ^ 2 + -p.Nyy / p.b ^ 2 := by
    rw [hy]
    have : 0 < -p.Nxx / p.a ^ 2 := div_pos (by linarith) (by positivity)
    simpa using this
  obtain ⟨l, hle, hl⟩ := C89_rayleigh D hD p ha hb hm hn hm' hn' hx' K KG hK
  have hpd := clamped_posDef hD ha hb hm hn hm' hn' hK
  have hsym := (C48_symmetric _ _ p hm hn K KG hK).2
  obtain ⟨lam0, h0, hmin⟩ := exists_min_posMult hpd hsym ⟨l, hl⟩
  have heu := (C89_euler D hD p ha hb hm hn hm' hn' hxy K KG hK lam0 h0).1 hy.ge
  have h1 : 4 * π ^ 2 / (D⁻¹ 0 0 * p.a ^ 2) / -p.Nxx ≤ lam0 := (div_le_iff₀ (by linarith)).mpr heu
  have h2 : 1 ≤ 4 * π ^ 2 / (D⁻¹ 0 0 * p.a ^ 2) / -p.Nxx := (one_le_div₀ (by linarith)).mpr hload
  obtain ⟨r1, r2⟩ := C54_critical_reported_partial S _ _ p numEig st vals vecs h K KG hK hS lam0 h0 hmin (h2.trans h1)
  rw [hy, neg_zero] at hle
  exact ⟨lam0, r1, r2, h0, hmin, h1, (hmin l hl).trans hle⟩

/-- Non-vacuity of C89: the unit plate with `D = diag(1, 1, 1)` under the load 36 is within its Euler load `4 pi^2`, and some solver
keeping the contract runs on it. The Rayleigh bound is `132 / 36`, attained there: the multiplier found in `demo_matrices`. -/
example : ∃ (S : EigSolver) (K KG : SqMat (2 * 2)), (demoD 1 1).PosDef ∧
    -(demoPlate 36).Nxx ≤ 4 * π ^ 2 / ((demoD 1 1)⁻¹ 0 0 * (demoPlate 36).a ^ 2) ∧
    calcKKGD shipped (.ok (demoD 1 1)) (.str wCLAMPED) (demoPlate 36) = .ok (K, KG) ∧ Honest S KG K ∧
    (∃ vals vecs, (bucklingAnalysis S (.ok (demoD 1 1)) (.str wCLAMPED) (demoPlate 36) 5 (.fresh _)).1 = .ok (vals, vecs)) ∧
    rayleigh (demoD 1 1) 1 1 36 0 = 132 / 36 := by
  obtain ⟨K, KG, hK, hpd, hsym, hm, -⟩ := demo_matrices 1 1 36 one_pos one_pos (by norm_num)
  obtain ⟨S, h1, vals, vecs, h⟩ := demo_runs 1 1 36 K KG hK hpd hsym
  refine ⟨S, K, KG, ?_, ?_, hK, h1, ⟨vals, vecs, h⟩, ?_⟩
  · exact Matrix.PosDef.diagonal fun i => by fin_cases i <;> simp
  · have e : (demoD 1 1 : M3) = 1 := by
      rw [demoD, ← Matrix.diagonal_one]; congr 1; funext i; fin_cases i <;> rfl
    rw [e]
    simp only [inv_one, Matrix.one_apply_eq, demoPlate]
    nlinarith [pi_gt_three]
  · have o1 : demoD 1 1 0 0 = 1 := by simp [demoD]
    have o2 : demoD 1 1 0 1 = 0 := by simp [demoD]
    have o3 : demoD 1 1 1 1 = 1 := by simp [demoD]
    have o6 : demoD 1 1 2 2 = 1 := by simp [demoD]
    simp only [rayleigh, o1, o2, o3, o6]
    norm_num

end Composipy
