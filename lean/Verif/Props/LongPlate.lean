import Verif.Props.EulerBound
import Verif.Props.Supports
import Verif.Props.TableError

/-!
# C95: the classical buckling load of a long supported plate is a lower bound
-/

namespace Composipy
open Spec Matrix Polynomial MeasureTheory Real

variable {a b : ℝ}

/-! ## Deflections that vanish on the four edges -/

/-- Integration by parts for polynomials, the second one vanishing at both ends. -/
theorem parts_zero (p q : ℝ[X]) (h0 : q.eval 0 = 0) (h1 : q.eval a = 0) :
    ∫ x in (0 : ℝ)..a, (derivative p).eval x * q.eval x = -∫ x in (0 : ℝ)..a, p.eval x * (derivative q).eval x := by
  have := intervalIntegral.integral_mul_deriv_eq_deriv_mul (a := 0) (b := a) (u := fun x => q.eval x) (v := fun x => p.eval x)
    (u' := fun x => (derivative q).eval x) (v' := fun x => (derivative p).eval x) (fun x _ => q.hasDerivAt x)
    (fun x _ => p.hasDerivAt x) ((derivative q).continuous.intervalIntegrable _ _) ((derivative p).continuous.intervalIntegrable _ _)
  rw [h0, h1] at this
  simp only [zero_mul, sub_self, zero_sub] at this
  rw [show (fun x => (derivative p).eval x * q.eval x) = fun x => q.eval x * (derivative p).eval x from funext fun x => mul_comm _ _,
    this, show (fun x => (derivative q).eval x * p.eval x) = fun x => p.eval x * (derivative q).eval x from funext fun x => mul_comm _ _]

/-- `∬ w_xx w_yy = ∬ w_xy^2` for a deflection vanishing on the edges. -/
theorem twist_exchange {N : ℕ} (c : Fin N → ℝ) (P Q : Fin N → ℝ[X]) (hP : ∀ r, (P r).eval 0 = 0 ∧ (P r).eval a = 0)
    (hQ : ∀ r, (Q r).eval 0 = 0 ∧ (Q r).eval b = 0) : ∃ v,
    DI a b (fun x y => sep c (fun r => derivative (derivative (P r))) Q x y * sep c P (fun r => derivative (derivative (Q r))) x y) v ∧
    DI a b (fun x y => sep c (fun r => derivative (P r)) (fun r => derivative (Q r)) x y ^ 2) v := by
  have h1 := DI.quad (a := a) (b := b) c (fun r => derivative (derivative (P r))) Q P (fun r => derivative (derivative (Q r)))
  have h2 := DI.quad (a := a) (b := b) c (fun r => derivative (P r)) (fun r => derivative (Q r)) (fun r => derivative (P r))
    (fun r => derivative (Q r))
  have e : ∀ r s, (∫ x in (0 : ℝ)..a, (derivative (derivative (P r))).eval x * (P s).eval x)
        * (∫ y in (0 : ℝ)..b, (Q r).eval y * (derivative (derivative (Q s))).eval y)
      = (∫ x in (0 : ℝ)..a, (derivative (P r)).eval x * (derivative (P s)).eval x)
        * ∫ y in (0 : ℝ)..b, (derivative (Q r)).eval y * (derivative (Q s)).eval y := fun r s => by
    rw [parts_zero _ _ (hP s).1 (hP s).2,
      show (fun y => (Q r).eval y * (derivative (derivative (Q s))).eval y) = fun y => (derivative (derivative (Q s))).eval y * (Q r).eval y
        from funext fun y => mul_comm _ _, parts_zero _ _ (hQ r).1 (hQ r).2,
      show (fun y => (derivative (Q s)).eval y * (derivative (Q r)).eval y) = fun y => (derivative (Q r)).eval y * (derivative (Q s)).eval y
        from funext fun y => mul_comm _ _]
    ring
  simp only [e] at h1
  refine ⟨_, h1, ?_⟩
  simpa only [sep, pow_two] using h2

/-- The Poincaré inequality along `y` for a sum of products vanishing at both `y` ends. -/
theorem poincare_sep {N : ℕ} (ha : 0 < a) (hb : 0 < b) (c : Fin N → ℝ) (P Q : Fin N → ℝ[X])
    (hQ : ∀ r, (Q r).eval 0 = 0 ∧ (Q r).eval b = 0) :
    (π / b) ^ 2 * (∫ x in (0 : ℝ)..a, ∫ y in (0 : ℝ)..b, sep c P Q x y ^ 2)
      ≤ ∫ x in (0 : ℝ)..a, ∫ y in (0 : ℝ)..b, sep c P (fun r => derivative (Q r)) x y ^ 2 := by
  obtain ⟨u, hu⟩ := DI.sq (a := a) (b := b) c P Q
  obtain ⟨v, hv⟩ := DI.sq (a := a) (b := b) c P (fun r => derivative (Q r))
  rw [← intervalIntegral.integral_const_mul]
  refine intervalIntegral.integral_mono_on ha.le (hu.outer.const_mul _) hv.outer fun x _ => ?_
  have d0 : ∀ t, HasDerivAt (fun t => sep c P Q x t) (sep c P (fun r => derivative (Q r)) x t) t := fun t => by
    unfold sep
    exact HasDerivAt.fun_sum fun r _ => (((Q r).hasDerivAt t).const_mul _).const_mul _
  have := Verif.poincare d0 ((sep_continuous c P (fun r => derivative (Q r))).comp (continuous_const.prodMk continuous_id))
    (p := 0) (q := b) (by simp [sep, (hQ _).1]) (by simp [sep, (hQ _).2]) hb
  simpa using this

/-- A shape that vanishes at both ends. -/
def Spec.EndZero (i : ℕ) : Prop := i ≠ 0 ∧ i ≠ 2

theorem shape_endZero {i : ℕ} (h : EndZero i) : (shape i).eval (-1) = 0 ∧ (shape i).eval 1 = 0 := by
  by_cases h4 : 4 ≤ i
  · exact ⟨(C45_bubble i h4).1, (C45_bubble i h4).2.1⟩
  · have : i = 1 ∨ i = 3 := by have := h.1; have := h.2; omega
    rcases this with rfl | rfl
    · exact ⟨C45_low_values.2.1.1, C45_low_values.2.1.2.1⟩
    · exact ⟨C45_low_values.2.2.2.1, C45_low_values.2.2.2.2.1⟩

theorem phys_endZero (ha : a ≠ 0) {i : ℕ} (h : EndZero i) : (phys a (shape i)).eval 0 = 0 ∧ (phys a (shape i)).eval a = 0 := by
  have e0 : (0 : ℝ) - 1 = -1 := by ring
  have e1 : 2 / a * a - 1 = 1 := by field_simp; norm_num
  obtain ⟨h0, h1⟩ := shape_endZero h
  simp only [phys_eval, mul_zero, e0, e1, h0, h1, and_self]

/-- The stiffness of the classical formula: `sqrt(D11 D22) + D12 + 2 D66`. -/
noncomputable def Spec.longStiff (D : M3) : ℝ := √(D 0 0 * D 1 1) + D 0 1 + 2 * D 2 2

/-- No coupling between bending and twisting. -/
structure Spec.NoTwist (D : M3) : Prop where
  psd : D.PosSemidef
  d16 : D 0 2 = 0
  d26 : D 1 2 = 0

theorem Spec.NoTwist.symm {D : M3} (h : NoTwist D) : D.IsSymm := h.psd.isHermitian

theorem Spec.NoTwist.diag {D : M3} (h : NoTwist D) : 0 ≤ D 0 0 ∧ 0 ≤ D 1 1 ∧ 0 ≤ D 2 2 :=
  ⟨h.psd.diag_nonneg, h.psd.diag_nonneg, h.psd.diag_nonneg⟩

theorem longStiff_nonneg {D : M3} (h : NoTwist D) : 0 ≤ longStiff D := by
  obtain ⟨h0, h1, h2⟩ := h.diag
  have hs : D 1 0 = D 0 1 := h.symm.apply 0 1
  have key : 0 ≤ √(D 0 0 * D 1 1) + D 0 1 := by
    by_contra hneg
    push Not at hneg
    have hsq : D 0 0 * D 1 1 < D 0 1 ^ 2 := by
      have h3 := Real.sqrt_nonneg (D 0 0 * D 1 1)
      have h4 := Real.sq_sqrt (mul_nonneg h0 h1)
      nlinarith
    have q : ∀ x y : ℝ, 0 ≤ D 0 0 * x ^ 2 + 2 * D 0 1 * (x * y) + D 1 1 * y ^ 2 := fun x y => by
      have := h.psd.dotProduct_mulVec_nonneg ![x, y, 0]
      simp [dotProduct, Matrix.mulVec, Fin.sum_univ_three, hs] at this
      linarith
    have q1 := q (D 0 1) (-D 0 0)
    have q2 := q (-D 1 1) (D 0 1)
    have q3 := q 1 1
    have q4 := q 1 (-1)
    rcases h0.eq_or_lt with h0 | h0
    · rcases h1.eq_or_lt with h1 | h1
      · rw [← h0, ← h1] at hsq q3 q4
        nlinarith
      · nlinarith
    · nlinarith
  unfold longStiff
  linarith

/-- The bending energy of an uncoupled plate whose deflection vanishes on the edges. -/
theorem energy_twist (ha : 0 < a) (hb : 0 < b) {D : M3} (hD : NoTwist D) (w : List (ℕ × ℕ)) {N : ℕ} (hN : w.length = N)
    (hw : ∀ q ∈ w, EndZero q.1 ∧ EndZero q.2) (c : Fin N → ℝ) :
    2 * π ^ 2 / b ^ 2 * longStiff D * slopeX a b (ritz a b w c) ≤ bendEnergy D a b (ritz a b w c) ∧
    2 * π ^ 2 / a ^ 2 * longStiff D * slopeY a b (ritz a b w c) ≤ bendEnergy D a b (ritz a b w c) := by
  have hr : ∀ r : Fin N, EndZero (w.getD r (0, 0)).1 ∧ EndZero (w.getD r (0, 0)).2 := fun r => by
    have hlt : (r : ℕ) < w.length := by rw [hN]; exact r.2
    rw [List.getD_eq_getElem _ _ hlt]
    exact hw _ (List.getElem_mem hlt)
  obtain ⟨d0, d1, -⟩ := hD.diag
  have hs10 : D 1 0 = D 0 1 := hD.symm.apply 0 1
  have hs20 : D 2 0 = 0 := by rw [← hD.d16]; exact hD.symm.apply 0 2
  have hs21 : D 2 1 = 0 := by rw [← hD.d26]; exact hD.symm.apply 1 2
  set P : Fin N → ℝ[X] := fun r => phys a (shape (w.getD r (0, 0)).1) with hP
  set Q : Fin N → ℝ[X] := fun r => phys b (shape (w.getD r (0, 0)).2) with hQ
  have zP : ∀ r, (P r).eval 0 = 0 ∧ (P r).eval a = 0 := fun r => phys_endZero ha.ne' (hr r).1
  have zQ : ∀ r, (Q r).eval 0 = 0 ∧ (Q r).eval b = 0 := fun r => phys_endZero hb.ne' (hr r).2
  obtain ⟨t, ht1, ht2⟩ := twist_exchange c P Q zP zQ
  obtain ⟨u, hu⟩ := DI.sq (a := a) (b := b) c (fun r => derivative (derivative (P r))) Q
  obtain ⟨v, hv⟩ := DI.sq (a := a) (b := b) c P (fun r => derivative (derivative (Q r)))
  have hE : bendEnergy D a b (ritz a b w c) = D 0 0 * u + (2 * D 0 1 * t + (D 1 1 * v + 4 * D 2 2 * t)) := by
    unfold bendEnergy
    rw [← ((hu.smul (D 0 0)).add ((ht1.smul (2 * D 0 1)).add ((hv.smul (D 1 1)).add (ht2.smul (4 * D 2 2))))).val]
    refine intervalIntegral.integral_congr fun x _ => intervalIntegral.integral_congr fun y _ => ?_
    simp only [bendDensity, ritz_sep, dX_sep, dY_sep]
    generalize sep c (fun r => derivative (derivative (P r))) Q x y = X
    generalize sep c P (fun r => derivative (derivative (Q r))) x y = Y
    generalize sep c (fun r => derivative (P r)) (fun r => derivative (Q r)) x y = Z
    simp [dotProduct, Matrix.mulVec, Fin.sum_univ_three, hD.d16, hD.d26, hs10, hs20, hs21]
    ring
  -- the square of the difference of the two weighted curvatures
  have hsq : 0 ≤ D 0 0 * u + (-(2 * √(D 0 0 * D 1 1)) * t + D 1 1 * v) := by
    rw [← ((hu.smul (D 0 0)).add ((ht1.smul (-(2 * √(D 0 0 * D 1 1)))).add (hv.smul (D 1 1)))).val]
    refine intervalIntegral.integral_nonneg ha.le fun x _ => intervalIntegral.integral_nonneg hb.le fun y _ => ?_
    rw [Real.sqrt_mul d0]
    have e0 := Real.mul_self_sqrt d0
    have e1 := Real.mul_self_sqrt d1
    set X := sep c (fun r => derivative (derivative (P r))) Q x y
    set Y := sep c P (fun r => derivative (derivative (Q r))) x y
    have : D 0 0 * X ^ 2 + (-(2 * (√(D 0 0) * √(D 1 1))) * (X * Y) + D 1 1 * Y ^ 2) = (√(D 0 0) * X - √(D 1 1) * Y) ^ 2 := by
      linear_combination (-X ^ 2) * e0 + (-Y ^ 2) * e1
    rw [this]
    exact sq_nonneg _
  have hge : 2 * longStiff D * t ≤ bendEnergy D a b (ritz a b w c) := by
    rw [hE]
    unfold longStiff
    linarith
  have hS := longStiff_nonneg hD
  have p1 : (π / b) ^ 2 * slopeX a b (ritz a b w c) ≤ t := by
    rw [← ht2.val]
    have := poincare_sep ha hb c (fun r => derivative (P r)) Q zQ
    simp only [slopeX, ritz_sep, dX_sep]
    exact this
  have p2 : (π / a) ^ 2 * slopeY a b (ritz a b w c) ≤ t := by
    have := poincare_sep hb ha c (fun r => derivative (Q r)) P zP
    have sw : ∀ P Q : Fin N → ℝ[X], ∫ x in (0 : ℝ)..b, ∫ y in (0 : ℝ)..a, sep c Q P x y ^ 2
        = ∫ x in (0 : ℝ)..a, ∫ y in (0 : ℝ)..b, sep c P Q x y ^ 2 := fun P Q => by
      have e1 : Continuous (Function.uncurry fun x y => sep c Q P x y ^ 2) := (sep_continuous c Q P).pow 2
      rw [int_swap e1]
      refine intervalIntegral.integral_congr fun x _ => intervalIntegral.integral_congr fun y _ => ?_
      simp only [sep]
      congr 1
      exact Finset.sum_congr rfl fun r _ => by ring
    rw [sw, sw] at this
    rw [← ht2.val]
    simp only [slopeY, ritz_sep, dY_sep]
    exact this
  constructor
  · have := mul_le_mul_of_nonneg_left p1 (mul_nonneg zero_le_two hS)
    refine le_trans (le_of_eq ?_) (this.trans hge)
    ring
  · have := mul_le_mul_of_nonneg_left p2 (mul_nonneg zero_le_two hS)
    refine le_trans (le_of_eq ?_) (this.trans hge)
    ring

/-- The same for any stiffness above an uncoupled one. -/
theorem energy_dominates (ha : 0 < a) (hb : 0 < b) {D D0 : M3} (hD : D.IsSymm) (h0 : NoTwist D0) (hdom : (D - D0).PosSemidef)
    (w : List (ℕ × ℕ)) {N : ℕ} (hN : w.length = N) (hw : ∀ q ∈ w, EndZero q.1 ∧ EndZero q.2) (c : Fin N → ℝ) :
    2 * π ^ 2 / b ^ 2 * longStiff D0 * slopeX a b (ritz a b w c) ≤ bendEnergy D a b (ritz a b w c) ∧
    2 * π ^ 2 / a ^ 2 * longStiff D0 * slopeY a b (ritz a b w c) ≤ bendEnergy D a b (ritz a b w c) := by
  have k0 := kMat_nonneg hdom ha hb w c
  have e : c ⬝ᵥ (kMat exactV a b (D - D0) w N).mulVec c
      = bendEnergy D a b (ritz a b w c) - bendEnergy D0 a b (ritz a b w c) := by
    rw [← kMat_energy ha.ne' hb.ne' _ hD, ← kMat_energy ha.ne' hb.ne' _ h0.symm, ← dotProduct_sub, ← Matrix.sub_mulVec]
    congr 2
    ext r s
    simp only [kMat, of_apply, Matrix.sub_apply, k33v]
    ring
  obtain ⟨h1, h2⟩ := energy_twist ha hb h0 w hN hw c
  rw [e] at k0
  exact ⟨by linarith, by linarith⟩

/-! ## The lower bounds on the multipliers -/

theorem balance_one {c1 lam nx ny X Y E : ℝ} (hX : 0 ≤ X) (hY : 0 ≤ Y) (hE : 0 < E) (hl : 0 < lam) (hny : 0 ≤ ny)
    (h1 : c1 * X ≤ E) (hb : E + lam * (nx * X + ny * Y) = 0) : c1 ≤ lam * -nx := by
  by_contra hno
  push Not at hno
  have lY : 0 ≤ lam * (ny * Y) := mul_nonneg hl.le (mul_nonneg hny hY)
  have i1 : 0 ≤ (c1 - lam * -nx) * X := mul_nonneg (by linarith) hX
  have z1 : (c1 - lam * -nx) * X = 0 := by nlinarith
  rcases mul_eq_zero.mp z1 with h | h
  · linarith
  · rw [h] at hb; nlinarith

theorem balance_two {c1 c2 t lam nx ny X Y E : ℝ} (hX : 0 ≤ X) (hY : 0 ≤ Y) (hE : 0 < E) (ht : 0 ≤ t) (ht1 : t ≤ 1)
    (h1 : c1 * X ≤ E) (h2 : c2 * Y ≤ E) (hb : E + lam * (nx * X + ny * Y) = 0) :
    t * c1 ≤ lam * -nx ∨ (1 - t) * c2 ≤ lam * -ny := by
  by_contra hno
  push Not at hno
  have hle : t * c1 * X + (1 - t) * c2 * Y ≤ E := by
    have := mul_le_mul_of_nonneg_left h1 ht
    have := mul_le_mul_of_nonneg_left h2 (sub_nonneg.mpr ht1)
    nlinarith
  have i1 : 0 ≤ (t * c1 - lam * -nx) * X := mul_nonneg (by linarith [hno.1]) hX
  have i2 : 0 ≤ ((1 - t) * c2 - lam * -ny) * Y := mul_nonneg (by linarith [hno.2]) hY
  have z1 : (t * c1 - lam * -nx) * X = 0 := by nlinarith
  have z2 : ((1 - t) * c2 - lam * -ny) * Y = 0 := by nlinarith
  have zX : X = 0 := (mul_eq_zero.mp z1).resolve_left fun h => by linarith [hno.1]
  have zY : Y = 0 := (mul_eq_zero.mp z2).resolve_left fun h => by linarith [hno.2]
  rw [zX, zY] at hb
  simp at hb
  linarith

/-- What every multiplier satisfies: the load it multiplies is at least that of the long plate, in the direction of the compression
(one direction), and any convex combination of the two bounds is reached in one of the two (two directions). -/
def Spec.LongBound (D0 : M3) (p : PlateNum) (lam : ℝ) : Prop :=
  (0 ≤ p.Nyy → 2 * π ^ 2 / p.b ^ 2 * longStiff D0 ≤ lam * -p.Nxx) ∧
  (0 ≤ p.Nxx → 2 * π ^ 2 / p.a ^ 2 * longStiff D0 ≤ lam * -p.Nyy) ∧
  ∀ t, 0 ≤ t → t ≤ 1 → t * (2 * π ^ 2 / p.b ^ 2 * longStiff D0) ≤ lam * -p.Nxx ∨
    (1 - t) * (2 * π ^ 2 / p.a ^ 2 * longStiff D0) ≤ lam * -p.Nyy

theorem longBound_of {D D0 : M3} (hD : D.IsSymm) (h0 : NoTwist D0) (hdom : (D - D0).PosSemidef) {p : PlateNum} (ha : 0 < p.a)
    (hb : 0 < p.b) (hxy : p.Nxy = 0) (w : List (ℕ × ℕ)) (hN : w.length = p.m * p.n)
    (hw : ∀ q ∈ w, EndZero q.1 ∧ EndZero q.2) {K KG : SqMat (p.m * p.n)} (hpd : ∀ c, c ≠ 0 → 0 < c ⬝ᵥ K.mulVec c)
    (he : ∀ c : Fin (p.m * p.n) → ℝ, c ⬝ᵥ K.mulVec c = bendEnergy D p.a p.b (ritz p.a p.b w c) ∧
      c ⬝ᵥ KG.mulVec c = loadWork p.Nxx p.Nyy p.Nxy p.a p.b (ritz p.a p.b w c)) {lam : ℝ} (hl : PosMult K KG lam) :
    LongBound D0 p lam := by
  obtain ⟨hpos, v, hv⟩ := hl
  have k0 := hpd v hv.1
  have hb0 := buckles_energy hv
  rw [(he v).1] at k0
  rw [(he v).1, (he v).2, hxy, loadWork_split] at hb0
  obtain ⟨sx, sy⟩ := slopes_nonneg ha hb (ritz p.a p.b w v)
  obtain ⟨e1, e2⟩ := energy_dominates ha hb hD h0 hdom w hN hw v
  refine ⟨fun h => balance_one sx sy k0 hpos h e1 hb0, fun h => ?_, fun t ht ht1 => balance_two sx sy k0 ht ht1 e1 e2 hb0⟩
  exact balance_one sy sx k0 hpos h e2 (by rw [← hb0]; ring)

/-- All four edges of the plate are prevented from deflecting. -/
def Spec.EdgesHeld (e : Edges) : Prop := e.x0.has TZ ∧ e.xa.has TZ ∧ e.y0.has TX ∧ e.yb.has TX

theorem held_endZero {cs : Constraints} {m n : ℕ} {s : ShapeIdx} (hs : computeIdx cs m n = .ok s) {e : Edges}
    (he : chooseEdges cs = .ok e) (hh : EdgesHeld e) : ∀ q ∈ s.w, EndZero q.1 ∧ EndZero q.2 := by
  obtain ⟨e', xs, ys, he', hw, hx, hy⟩ := w_lists hs
  obtain rfl : e = e' := Except.ok.inj (he.symm.trans he')
  intro q hq
  rw [hw] at hq
  obtain ⟨h1, h2⟩ := List.mem_product.mp (show (q.1, q.2) ∈ xs ×ˢ ys from hq)
  obtain ⟨k0, -, k2, -⟩ := hx.sound _ h1
  obtain ⟨l0, -, l2, -⟩ := hy.sound _ h2
  exact ⟨⟨fun h => k0 ⟨h, hh.1⟩, fun h => k2 ⟨h, hh.2.1⟩⟩, ⟨fun h => l0 ⟨h, hh.2.2.1⟩, fun h => l2 ⟨h, hh.2.2.2⟩⟩⟩

/-- **C95** with the exact integrals: if the four edges cannot deflect (whatever else is restrained) and there is no shear load, then
every positive multiplier times the compression is at least `2 pi^2 (sqrt(D11 D22) + D12 + 2 D66) / width^2`. `D0` is the stiffness
itself if it does not couple bending and twisting, otherwise any uncoupled one below it. -/
theorem C95_held (D D0 : M3) (hD : D.PosDef) (h0 : NoTwist D0) (hdom : (D - D0).PosSemidef) (cs : Constraints) (p : PlateNum)
    (ha : 0 < p.a) (hb : 0 < p.b) (e : Edges) (he : chooseEdges cs = .ok e) (hh : EdgesHeld e) (hxy : p.Nxy = 0)
    (K KG : SqMat (p.m * p.n)) (hK : calcKKGD exactReaders (.ok D) cs p = .ok (K, KG)) (lam : ℝ) (hl : PosMult K KG lam) :
    LongBound D0 p lam := by
  obtain ⟨s, hs⟩ := (C40_accepted_iff cs p.m p.n).mpr ⟨_, he⟩
  have hsym : D.IsSymm := hD.isHermitian
  obtain ⟨K', KG', hK', hen⟩ := C49_energy D hsym cs p s hs ha.ne' hb.ne'
  obtain ⟨rfl, rfl⟩ := Prod.mk.inj (Except.ok.inj (hK.symm.trans hK'))
  refine longBound_of hsym h0 hdom ha hb hxy s.w (C40_sizes cs _ _ s hs).2.2.len (held_endZero hs he hh) (fun c hc => ?_) hen hl
  rw [(hen c).1]
  exact C87_supported D hD cs p ha hb s hs e he (.inl (.inl ⟨hh.1, .inr (.inl hh.2.1)⟩)) c hc

/-- **C95** the two named supports, with the exact integrals. -/
theorem C95_named (D D0 : M3) (hD : D.PosDef) (h0 : NoTwist D0) (hdom : (D - D0).PosSemidef) (p : PlateNum) (ha : 0 < p.a)
    (hb : 0 < p.b) (name : Str) (hname : name = wPINNED ∨ name = wCLAMPED) (hxy : p.Nxy = 0) (K KG : SqMat (p.m * p.n))
    (hK : calcKKGD exactReaders (.ok D) (.str name) p = .ok (K, KG)) (lam : ℝ) (hl : PosMult K KG lam) : LongBound D0 p lam := by
  rcases hname with rfl | rfl
  · exact C95_held D D0 hD h0 hdom _ p ha hb _ rfl ⟨by decide, by decide, by decide, by decide⟩ hxy K KG hK lam hl
  · exact C95_held D D0 hD h0 hdom _ p ha hb _ rfl ⟨by decide, by decide, by decide, by decide⟩ hxy K KG hK lam hl

/-- **C95** clamped plates with the tables as shipped. -/
theorem C95_clamped (D D0 : M3) (hD : D.PosDef) (h0 : NoTwist D0) (hdom : (D - D0).PosSemidef) (p : PlateNum) (ha : 0 < p.a)
    (hb : 0 < p.b) (hm : 1 ≤ p.m) (hn : 1 ≤ p.n) (hm' : p.m ≤ 26) (hn' : p.n ≤ 26) (hxy : p.Nxy = 0) (K KG : SqMat (p.m * p.n))
    (hK : calcKKGD shipped (.ok D) (.str wCLAMPED) p = .ok (K, KG)) (lam : ℝ) (hl : PosMult K KG lam) : LongBound D0 p lam := by
  have hsym : D.IsSymm := hD.isHermitian
  have hpd := clamped_posDef hD ha hb hm hn hm' hn' hK
  obtain ⟨s, K', KG', hs, hK', hen⟩ := C49_energy_clamped D hsym p ha.ne' hb.ne' hm' hn'
  obtain ⟨rfl, rfl⟩ := Prod.mk.inj (Except.ok.inj (hK.symm.trans hK'))
  refine longBound_of hsym h0 hdom ha hb hxy s.w (C40_sizes _ _ _ s hs).2.2.len
    (held_endZero hs rfl ⟨by decide, by decide, by decide, by decide⟩) (fun c hc => ?_) hen hl
  simpa using hpd.dotProduct_mulVec_pos hc

/-- **C95** any held plate with the tables as shipped: the bound holds up to the rounding of the tables, measured on the buckling
mode. -/
theorem C95_shipped (D D0 : M3) (hD : D.IsSymm) (h0 : NoTwist D0) (hdom : (D - D0).PosSemidef) (cs : Constraints) (p : PlateNum)
    (ha : 0 < p.a) (hb : 0 < p.b) (hm : 1 ≤ p.m) (hn : 1 ≤ p.n) (e : Edges) (he : chooseEdges cs = .ok e) (hh : EdgesHeld e)
    (hxy : p.Nxy = 0) (hyy : 0 ≤ p.Nyy) (K KG : SqMat (p.m * p.n)) (hK : calcKKGD shipped (.ok D) cs p = .ok (K, KG)) (lam : ℝ)
    (hl : 0 < lam) (v : Fin (p.m * p.n) → ℝ) (hv : Buckles K KG lam v) (s : ShapeIdx) (hs : computeIdx cs p.m p.n = .ok s) :
    (2 * π ^ 2 / p.b ^ 2 * longStiff D0 - lam * -p.Nxx) * slopeX p.a p.b (ritz p.a p.b s.w v)
      ≤ 4e-8 * (bendSize D p.a p.b + lam * loadSize p.a p.b p.Nxx p.Nyy p.Nxy) * (∑ r, |v r|) ^ 2 := by
  obtain ⟨s', hs', herr⟩ := C86_mode_balance D hD cs p hm hn hK lam v hv
  obtain rfl : s = s' := Except.ok.inj (hs.symm.trans hs')
  have e1 := (energy_dominates ha hb hD h0 hdom s.w (C40_sizes _ _ _ s hs).2.2.len (held_endZero hs he hh) v).1
  have h2 := (abs_le.mp herr).2
  rw [abs_of_pos hl] at h2
  rw [show loadWork p.Nxx p.Nyy p.Nxy p.a p.b (ritz p.a p.b s.w v) = p.Nxx * slopeX p.a p.b (ritz p.a p.b s.w v)
    + p.Nyy * slopeY p.a p.b (ritz p.a p.b s.w v) by rw [hxy, loadWork_split]] at h2
  have sy := (slopes_nonneg ha hb (ritz p.a p.b s.w v)).2
  have lY : 0 ≤ lam * (p.Nyy * slopeY p.a p.b (ritz p.a p.b s.w v)) := mul_nonneg hl.le (mul_nonneg hyy sy)
  refine le_trans ?_ h2
  linarith

/-- **C95** for an isotropic bending stiffness `d` the bound is the textbook `4 pi^2 d / b^2`. -/
theorem C95_isotropic (D : M3) (hD : NoTwist D) (h1 : D 0 0 = D 1 1) (h2 : 2 * D 2 2 = D 0 0 - D 0 1) :
    longStiff D = 2 * D 0 0 ∧ ∀ b : ℝ, 2 * π ^ 2 / b ^ 2 * longStiff D = 4 * π ^ 2 * D 0 0 / b ^ 2 := by
  have e : longStiff D = 2 * D 0 0 := by
    unfold longStiff
    rw [← h1, Real.sqrt_mul_self hD.diag.1]
    linarith
  exact ⟨e, fun b => by rw [e]; ring⟩

/-! ## The upper bound for simply supported plates -/

/-- The parabola `(x / a) (1 - x / a)`, a combination of the two shapes with a slope at the ends. -/
noncomputable def parab (a : ℝ) : ℝ[X] := C (1 / a) * X - C (1 / a ^ 2) * X ^ 2

theorem parab_eval (ha : a ≠ 0) (x : ℝ) :
    (parab a).eval x = (shape 1).eval (2 / a * x - 1) - (shape 3).eval (2 / a * x - 1) := by
  simp only [parab, shape, bardell, Polynomial.map_add, Polynomial.map_sub, Polynomial.map_neg, Polynomial.map_mul, Polynomial.map_pow,
    Polynomial.map_C, Polynomial.map_X, eval_add, eval_sub, eval_neg, eval_mul, eval_pow, eval_C, eval_X]
  norm_num
  field_simp
  ring

theorem parab_derivs : (∀ x, (parab a).eval x = x / a - x ^ 2 / a ^ 2) ∧ (∀ x, (derivative (parab a)).eval x = 1 / a - 2 * x / a ^ 2) ∧
    ∀ x, (derivative (derivative (parab a))).eval x = -(2 / a ^ 2) := by
  refine ⟨fun x => ?_, fun x => ?_, fun x => ?_⟩
  · simp [parab]; ring
  · simp [parab]; ring
  · simp [parab]; ring

theorem parab_ints (ha : a ≠ 0) :
    (∫ x in (0 : ℝ)..a, (parab a).eval x * (parab a).eval x) = a / 30 ∧
    (∫ x in (0 : ℝ)..a, (derivative (parab a)).eval x * (derivative (parab a)).eval x) = 1 / (3 * a) ∧
    (∫ x in (0 : ℝ)..a, (derivative (derivative (parab a))).eval x * (derivative (derivative (parab a))).eval x) = 4 / a ^ 3 ∧
    (∫ x in (0 : ℝ)..a, (parab a).eval x * (derivative (parab a)).eval x) = 0 ∧
    (∫ x in (0 : ℝ)..a, (derivative (parab a)).eval x * (parab a).eval x) = 0 ∧
    (∫ x in (0 : ℝ)..a, (derivative (derivative (parab a))).eval x * (derivative (parab a)).eval x) = 0 ∧
    (∫ x in (0 : ℝ)..a, (derivative (derivative (parab a))).eval x * (parab a).eval x) = -(1 / (3 * a)) ∧
    (∫ x in (0 : ℝ)..a, (parab a).eval x * (derivative (derivative (parab a))).eval x) = -(1 / (3 * a)) := by
  obtain ⟨h0, h1, h2⟩ := parab_derivs (a := a)
  have poly : ∀ c0 c1 c2 c3 c4 : ℝ, ∫ x in (0 : ℝ)..a, (c0 + c1 * x + c2 * x ^ 2 + c3 * x ^ 3 + c4 * x ^ 4)
      = c0 * a + c1 * a ^ 2 / 2 + c2 * a ^ 3 / 3 + c3 * a ^ 4 / 4 + c4 * a ^ 5 / 5 := fun c0 c1 c2 c3 c4 => by
    have ii : ∀ f : ℝ → ℝ, Continuous f → IntervalIntegrable f volume 0 a := fun f hf => hf.intervalIntegrable _ _
    rw [intervalIntegral.integral_add (ii _ (by fun_prop)) (ii _ (by fun_prop)),
      intervalIntegral.integral_add (ii _ (by fun_prop)) (ii _ (by fun_prop)),
      intervalIntegral.integral_add (ii _ (by fun_prop)) (ii _ (by fun_prop)),
      intervalIntegral.integral_add (ii _ (by fun_prop)) (ii _ (by fun_prop))]
    rw [intervalIntegral.integral_const_mul]
    simp only [intervalIntegral.integral_const_mul, integral_pow, intervalIntegral.integral_const, integral_id, smul_eq_mul]
    ring
  simp only [h0, h1, h2]
  have fin : ∀ (f : ℝ → ℝ) (c0 c1 c2 c3 c4 v : ℝ), (∀ x, f x = c0 + c1 * x + c2 * x ^ 2 + c3 * x ^ 3 + c4 * x ^ 4) →
      c0 * a + c1 * a ^ 2 / 2 + c2 * a ^ 3 / 3 + c3 * a ^ 4 / 4 + c4 * a ^ 5 / 5 = v → ∫ x in (0 : ℝ)..a, f x = v :=
    fun f c0 c1 c2 c3 c4 v hf hv => by rw [show f = _ from funext hf, poly, hv]
  refine ⟨?_, ?_, ?_, ?_, ?_, ?_, ?_, ?_⟩
  · refine fin _ 0 0 (1 / a ^ 2) (-2 / a ^ 3) (1 / a ^ 4) _ (fun x => ?_) ?_ <;> field_simp <;> ring
  · refine fin _ (1 / a ^ 2) (-4 / a ^ 3) (4 / a ^ 4) 0 0 _ (fun x => ?_) ?_ <;> field_simp <;> ring
  · refine fin _ (4 / a ^ 4) 0 0 0 0 _ (fun x => ?_) ?_ <;> field_simp <;> ring
  · refine fin _ 0 (1 / a ^ 2) (-3 / a ^ 3) (2 / a ^ 4) 0 _ (fun x => ?_) ?_ <;> field_simp <;> ring
  · refine fin _ 0 (1 / a ^ 2) (-3 / a ^ 3) (2 / a ^ 4) 0 _ (fun x => ?_) ?_ <;> field_simp <;> ring
  · refine fin _ (-2 / a ^ 3) (4 / a ^ 4) 0 0 0 _ (fun x => ?_) ?_ <;> field_simp <;> ring
  · refine fin _ 0 (-2 / a ^ 3) (2 / a ^ 4) 0 0 _ (fun x => ?_) ?_ <;> field_simp <;> ring
  · refine fin _ 0 (-2 / a ^ 3) (2 / a ^ 4) 0 0 _ (fun x => ?_) ?_ <;> field_simp <;> ring

/-- Energy and work of the product of the two parabolas. -/
theorem parab_energy (ha : a ≠ 0) (hb : b ≠ 0) (D : M3) (hD : D.IsSymm) (nx ny nt : ℝ) :
    bendEnergy D a b (fun x y => (parab a).eval x * (parab b).eval y)
      = a * b / 90 * (12 * (D 0 0 / a ^ 4 + D 1 1 / b ^ 4) + 20 * (D 0 1 + 2 * D 2 2) / (a ^ 2 * b ^ 2)) ∧
    loadWork nx ny nt a b (fun x y => (parab a).eval x * (parab b).eval y) = a * b / 90 * (nx / a ^ 2 + ny / b ^ 2) := by
  have e : (fun x y => (parab a).eval x * (parab b).eval y) = sep (N := 1) (fun _ => 1) (fun _ => parab a) (fun _ => parab b) := by
    funext x y; simp [sep]
  obtain ⟨p1, p2, p3, p4, p5, p6, p7, p8⟩ := parab_ints ha
  obtain ⟨q1, q2, q3, q4, q5, q6, q7, q8⟩ := parab_ints hb
  have h10 : D 1 0 = D 0 1 := hD.apply 0 1
  have h20 : D 2 0 = D 0 2 := hD.apply 0 2
  have h21 : D 2 1 = D 1 2 := hD.apply 1 2
  have q : ∀ P Q P' Q' : ℝ[X], DI a b (fun x y => P.eval x * Q.eval y * (P'.eval x * Q'.eval y))
      ((∫ x in (0 : ℝ)..a, P.eval x * P'.eval x) * ∫ y in (0 : ℝ)..b, Q.eval y * Q'.eval y) := fun P Q P' Q' => by
    have := DI.quad (a := a) (b := b) (N := 1) (fun _ => 1) (fun _ => P) (fun _ => Q) (fun _ => P') (fun _ => Q')
    simpa using this
  rw [e]
  set A := parab a with hA
  set B := parab b with hB
  constructor
  · unfold bendEnergy
    have big := ((q (derivative (derivative A)) B (derivative (derivative A)) B).smul (D 0 0)).add
      (((q (derivative (derivative A)) B A (derivative (derivative B))).smul (2 * D 0 1)).add
      (((q A (derivative (derivative B)) A (derivative (derivative B))).smul (D 1 1)).add
      (((q (derivative A) (derivative B) (derivative A) (derivative B)).smul (4 * D 2 2)).add
      (((q (derivative (derivative A)) B (derivative A) (derivative B)).smul (4 * D 0 2)).add
      ((q (derivative A) (derivative B) A (derivative (derivative B))).smul (4 * D 1 2))))))
    rw [p1, p2, p3, p5, p6, p7, q1, q2, q3, q4, q8] at big
    have hv := big.val
    refine Eq.trans (intervalIntegral.integral_congr fun x _ => intervalIntegral.integral_congr fun y _ => ?_) (hv.trans ?_)
    · simp only [bendDensity, dX_sep, dY_sep]
      simp only [sep, Finset.univ_unique, Finset.sum_singleton, one_mul]
      simp [dotProduct, Matrix.mulVec, Fin.sum_univ_three, h10, h20, h21]
      ring
    · field_simp
      ring
  · unfold loadWork
    have big := ((q (derivative A) B (derivative A) B).smul nx).add
      (((q A (derivative B) A (derivative B)).smul ny).add ((q (derivative A) B A (derivative B)).smul (2 * nt)))
    rw [p1, p2, p5, q1, q2, q4] at big
    have hv := big.val
    refine Eq.trans (intervalIntegral.integral_congr fun x _ => intervalIntegral.integral_congr fun y _ => ?_) (hv.trans ?_)
    · simp only [dX_sep, dY_sep]
      simp only [sep, Finset.univ_unique, Finset.sum_singleton, one_mul]
      ring
    · field_simp
      ring

/-- The four shapes that build the product of the parabolas. -/
def slopeShapes : List (ℕ × ℕ) := [(1, 1), (1, 3), (3, 1), (3, 3)]

/-- Coefficients of the product of the parabolas. -/
theorem parab_ritz (ha : a ≠ 0) (hb : b ≠ 0) (w : List (ℕ × ℕ)) {N : ℕ} (hN : w.length = N) (hsub : ∀ q ∈ slopeShapes, q ∈ w) :
    ∃ v : Fin N → ℝ, v ≠ 0 ∧ ritz a b w v = fun x y => (parab a).eval x * (parab b).eval y := by
  obtain ⟨e, hinj, he⟩ := exists_embed (w := slopeShapes) (N := 4) rfl hN (by decide) hsub
  refine ⟨extendBy e ![1, -1, -1, 1], fun h => ?_, ?_⟩
  · have := congrFun h (e 0)
    rw [extendBy_apply hinj] at this
    simp at this
  · funext x y
    have e0 : w.getD (e 0) (0, 0) = (1, 1) := he 0
    have e1 : w.getD (e 1) (0, 0) = (1, 3) := he 1
    have e2 : w.getD (e 2) (0, 0) = (3, 1) := he 2
    have e3 : w.getD (e 3) (0, 0) = (3, 3) := he 3
    rw [ritz, extendBy_sum, Fin.sum_univ_four, e0, e1, e2, e3, parab_eval ha, parab_eval hb]
    simp
    ring

/-- The Rayleigh quotient of the product of the parabolas. -/
noncomputable def Spec.rayleighPinned (D : M3) (a b nx ny : ℝ) : ℝ :=
  (12 * (D 0 0 / a ^ 4 + D 1 1 / b ^ 4) + 20 * (D 0 1 + 2 * D 2 2) / (a ^ 2 * b ^ 2)) / (nx / a ^ 2 + ny / b ^ 2)

theorem first_two {m : ℕ} (hm : 2 ≤ m) {t0 t1 r0 r1 : Prop} (h0 : t0) (h1 : t1) (h2 : ¬ r0) (h3 : ¬ r1) {xs : List ℕ}
    (hx : IsFirst m (Kept t0 r0 t1 r1) xs) : 1 ∈ xs ∧ 3 ∈ xs := by
  obtain ⟨x, y, r, rfl⟩ : ∃ x y r, xs = x :: y :: r := by
    rcases xs with _ | ⟨x, _ | ⟨y, r⟩⟩
    · have := hx.len; simp at this; omega
    · have := hx.len; simp at this; omega
    · exact ⟨x, y, r, rfl⟩
  have hxy : x < y := by have := hx.sorted; simp only [List.pairwise_cons] at this; exact this.1 y (by simp)
  have kx := hx.sound x (by simp)
  have ky := hx.sound y (by simp)
  have k1 : Kept t0 r0 t1 r1 1 := ⟨by simp, by simp [h2], by simp, by simp⟩
  have k3 : Kept t0 r0 t1 r1 3 := ⟨by simp, by simp, by simp, by simp [h3]⟩
  have x0 : x ≠ 0 := fun h => kx.1 ⟨h, h0⟩
  have y2 : y ≠ 2 := fun h => ky.2.2.1 ⟨h, h1⟩
  have i3 : 3 ∈ x :: y :: r := by
    by_cases h : y = 3
    · simp [h]
    · exact hx.complete y (by simp) 3 (by omega) k3
  exact ⟨hx.complete 3 i3 1 (by norm_num) k1, i3⟩

/-- The matrices made of the exact integrals are symmetric. -/
theorem exact_symm (D : M3) (w : List (ℕ × ℕ)) (N : ℕ) (x y t : ℝ) :
    (kMat exactV a b D w N).IsSymm ∧ (gMat exactV a b x y t w N).IsSymm := by
  have S : ∀ i k, exactV.ff i k = exactV.ff k i ∧ exactV.fxi_fxi i k = exactV.fxi_fxi k i ∧
      exactV.fxixi_fxixi i k = exactV.fxixi_fxixi k i ∧ exactV.f_fxi i k = exactV.fxi_f k i ∧
      exactV.f_fxixi i k = exactV.fxixi_f k i ∧ exactV.fxi_fxixi i k = exactV.fxixi_fxi k i := fun i k => by
    simp only [exactV]
    refine ⟨?_, ?_, ?_, ?_, ?_, ?_⟩ <;> (congr 1; funext x; ring)
  constructor
  · refine Matrix.IsSymm.ext fun r c => ?_
    simp only [kMat, Matrix.of_apply, k33v]
    set x := w.getD r (0, 0)
    set y := w.getD c (0, 0)
    rw [(S y.1 x.1).1, (S y.2 x.2).1, (S y.1 x.1).2.1, (S y.2 x.2).2.1, (S y.1 x.1).2.2.1, (S y.2 x.2).2.2.1,
      (S y.1 x.1).2.2.2.1, (S y.2 x.2).2.2.2.1, (S y.1 x.1).2.2.2.2.1, (S y.2 x.2).2.2.2.2.1,
      (S y.1 x.1).2.2.2.2.2, (S y.2 x.2).2.2.2.2.2,
      (S x.1 y.1).2.2.2.1, (S x.2 y.2).2.2.2.1, (S x.1 y.1).2.2.2.2.1, (S x.2 y.2).2.2.2.2.1,
      (S x.1 y.1).2.2.2.2.2, (S x.2 y.2).2.2.2.2.2]
    ring
  · refine Matrix.IsSymm.ext fun r c => ?_
    simp only [gMat, Matrix.of_apply, g33v]
    set x := w.getD r (0, 0)
    set y := w.getD c (0, 0)
    rw [(S y.1 x.1).1, (S y.2 x.2).1, (S y.1 x.1).2.1, (S y.2 x.2).2.1,
      (S y.1 x.1).2.2.2.1, (S y.2 x.2).2.2.2.1, (S x.1 y.1).2.2.2.1, (S x.2 y.2).2.2.2.1]
    ring

theorem exact_symm_ok {D : M3} {cs : Constraints} {p : PlateNum} (ha : p.a ≠ 0) (hb : p.b ≠ 0)
    {K KG : SqMat (p.m * p.n)} (hK : calcKKGD exactReaders (.ok D) cs p = .ok (K, KG)) {s : ShapeIdx}
    (hs : computeIdx cs p.m p.n = .ok s) : K.IsSymm ∧ KG.IsSymm := by
  have := calcKKGD_ok exact_ok D cs p s hs ha hb fun _ _ => ⟨trivial, trivial⟩
  obtain ⟨rfl, rfl⟩ := Prod.mk.inj (Except.ok.inj (hK.symm.trans this))
  exact exact_symm D s.w _ _ _ _

/-- **C95** upper bound: a simply supported plate in compression (at least two terms each way, any shear load) has a positive
multiplier not above the Rayleigh quotient of the parabolas. -/
theorem C95_rayleigh (D : M3) (hD : D.PosDef) (p : PlateNum) (ha : 0 < p.a) (hb : 0 < p.b) (hm : 2 ≤ p.m) (hn : 2 ≤ p.n)
    (hx : 0 < -p.Nxx / p.a ^ 2 + -p.Nyy / p.b ^ 2) (K KG : SqMat (p.m * p.n))
    (hK : calcKKGD exactReaders (.ok D) (.str wPINNED) p = .ok (K, KG)) :
    ∃ lam ≤ rayleighPinned D p.a p.b (-p.Nxx) (-p.Nyy), PosMult K KG lam := by
  obtain ⟨s, hs⟩ := (C40_accepted_iff (.str wPINNED) p.m p.n).mpr ⟨_, rfl⟩
  have hsym : D.IsSymm := hD.isHermitian
  obtain ⟨K', KG', hK', hpos⟩ := C87_named D hD p ha hb wPINNED (.inl rfl)
  obtain ⟨rfl, rfl⟩ := Prod.mk.inj (Except.ok.inj (hK.symm.trans hK'))
  obtain ⟨K', KG', hK'', hen⟩ := C49_energy D hsym (.str wPINNED) p s hs ha.ne' hb.ne'
  obtain ⟨rfl, rfl⟩ := Prod.mk.inj (Except.ok.inj (hK.symm.trans hK''))
  have hsK := exact_symm_ok ha.ne' hb.ne' hK hs
  have hpd := posDef_of_pos hsK.1 hpos
  obtain ⟨e, xs, ys, he, hw, h1, h2⟩ := w_lists hs
  obtain rfl := Except.ok.inj (show Except.ok _ = .ok e from he)
  obtain ⟨a1, a3⟩ := first_two hm (by decide) (by decide) (by decide) (by decide) h1
  obtain ⟨b1, b3⟩ := first_two hn (by decide) (by decide) (by decide) (by decide) h2
  obtain ⟨v, hv, hr⟩ := parab_ritz ha.ne' hb.ne' s.w (C40_sizes _ _ _ s hs).2.2.len (fun q hq => by
    rw [hw]
    simp only [slopeShapes, List.mem_cons, List.not_mem_nil, or_false] at hq
    rcases hq with rfl | rfl | rfl | rfl
    · exact List.mem_product.mpr ⟨a1, b1⟩
    · exact List.mem_product.mpr ⟨a1, b3⟩
    · exact List.mem_product.mpr ⟨a3, b1⟩
    · exact List.mem_product.mpr ⟨a3, b3⟩)
  obtain ⟨hE, hW⟩ := parab_energy ha.ne' hb.ne' D hsym p.Nxx p.Nyy p.Nxy
  have hk : v ⬝ᵥ K.mulVec v = _ := (hen v).1.trans ((congrArg _ hr).trans hE)
  have hg : v ⬝ᵥ KG.mulVec v = _ := (hen v).2.trans ((congrArg _ hr).trans hW)
  have hk0 := hpos v hv
  have hab : 0 < p.a * p.b / 90 := by positivity
  have hg' : -(v ⬝ᵥ KG.mulVec v) = p.a * p.b / 90 * (-p.Nxx / p.a ^ 2 + -p.Nyy / p.b ^ 2) := by rw [hg]; ring
  have hgn : 0 < -(v ⬝ᵥ KG.mulVec v) := by rw [hg']; positivity
  have hq : rayleighPinned D p.a p.b (-p.Nxx) (-p.Nyy) = v ⬝ᵥ K.mulVec v / -(v ⬝ᵥ KG.mulVec v) := by
    rw [hk, hg', mul_div_mul_left _ _ hab.ne']
    rfl
  obtain ⟨mu, h1, h2⟩ := posMult_le hpd hsK.2 hv (lam := v ⬝ᵥ K.mulVec v / -(v ⬝ᵥ KG.mulVec v)) (div_pos hk0 hgn) (by
    rw [div_neg, neg_mul, div_mul_cancel₀ _ (by linarith : v ⬝ᵥ KG.mulVec v < 0).ne]
    linarith)
  exact ⟨mu, by rw [hq]; exact h1, h2⟩

/-- Non-vacuity of C95, and how tight it is: a square isotropic plate. The smallest multiplier of the pinned plate under a unit load
exists and lies between `4 pi^2 d` and `44 d`. -/
theorem C95_square (d : ℝ) (hd : 0 < d) (m n : ℕ) (hm : 2 ≤ m) (hn : 2 ≤ n) (nu : ℝ) (hnu : -1 < nu) (hnu' : nu < 1) :
    let D : M3 := !![d, nu * d, 0; nu * d, d, 0; 0, 0, (1 - nu) / 2 * d]
    D.PosDef ∧ NoTwist D ∧ ∃ K KG, calcKKGD exactReaders (.ok D) (.str wPINNED) ⟨1, 1, -1, 0, 0, m, n⟩ = .ok (K, KG) ∧
      ∃ lam0, PosMult K KG lam0 ∧ (∀ lam, PosMult K KG lam → lam0 ≤ lam) ∧ 4 * π ^ 2 * d ≤ lam0 ∧ lam0 ≤ 44 * d := by
  intro D
  have hsym : D.IsSymm := by
    ext i j; fin_cases i <;> fin_cases j <;> rfl
  have hpd : D.PosDef := by
    refine Matrix.PosDef.of_dotProduct_mulVec_pos ?_ fun x hx => ?_
    · rw [IsHermitian, conjTranspose_eq_transpose_of_trivial, hsym.eq]
    · have e : star x ⬝ᵥ D.mulVec x = d * ((x 0 + nu * x 1) ^ 2 + (1 - nu ^ 2) * x 1 ^ 2 + (1 - nu) / 2 * x 2 ^ 2) := by
        simp [D, dotProduct, Matrix.mulVec, Fin.sum_univ_three]
        ring
      rw [e]
      have c1 : 0 < 1 - nu ^ 2 := by nlinarith
      have c2 : 0 < (1 - nu) / 2 := by linarith
      refine mul_pos hd ?_
      by_contra hno
      push Not at hno
      have n1 := mul_nonneg c1.le (sq_nonneg (x 1))
      have n2 := mul_nonneg c2.le (sq_nonneg (x 2))
      have n0 := sq_nonneg (x 0 + nu * x 1)
      have z1 : x 1 = 0 := by
        have : (1 - nu ^ 2) * x 1 ^ 2 = 0 := by linarith
        simpa [c1.ne'] using this
      have z2 : x 2 = 0 := by
        have : (1 - nu) / 2 * x 2 ^ 2 = 0 := by linarith
        simpa [c2.ne', show (1 - nu) ≠ 0 by linarith] using this
      have z0 : x 0 = 0 := by
        have : (x 0 + nu * x 1) ^ 2 = 0 := by linarith
        simpa [z1] using this
      exact hx (by funext i; fin_cases i <;> assumption)
  have hnt : NoTwist D := ⟨hpd.posSemidef, rfl, rfl⟩
  obtain ⟨K, KG, hK, hpos⟩ := C87_named D hpd ⟨1, 1, -1, 0, 0, m, n⟩ one_pos one_pos wPINNED (.inl rfl)
  obtain ⟨s, hs⟩ := (C40_accepted_iff (.str wPINNED) m n).mpr ⟨_, rfl⟩
  have hsK := exact_symm_ok one_ne_zero one_ne_zero hK hs
  obtain ⟨l, hle, hl⟩ := C95_rayleigh D hpd ⟨1, 1, -1, 0, 0, m, n⟩ one_pos one_pos hm hn (by norm_num) K KG hK
  obtain ⟨lam0, h0, hmin⟩ := exists_min_posMult (posDef_of_pos hsK.1 hpos) hsK.2 ⟨l, hl⟩
  refine ⟨hpd, hnt, K, KG, hK, lam0, h0, hmin, ?_, ?_⟩
  · have hb := (C95_named D D hpd hnt (by simpa using Matrix.PosSemidef.zero) ⟨1, 1, -1, 0, 0, m, n⟩ one_pos one_pos wPINNED
      (.inl rfl) rfl K KG hK lam0 h0).1 le_rfl
    rw [(C95_isotropic D hnt rfl (by show 2 * ((1 - nu) / 2 * d) = d - nu * d; ring)).2] at hb
    have : D 0 0 = d := rfl
    simpa [this] using hb
  · refine (hmin l hl).trans (hle.trans (le_of_eq ?_))
    show (12 * (d / 1 ^ 4 + d / 1 ^ 4) + 20 * (nu * d + 2 * ((1 - nu) / 2 * d)) / (1 ^ 2 * 1 ^ 2)) / (-(-1 : ℝ) / 1 ^ 2 + -0 / 1 ^ 2) = 44 * d
    norm_num
    ring

end Composipy
