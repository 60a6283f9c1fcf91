import Verif.Props.LongPlate
import Verif.Lemmas.SineSeries

/-!
# C99: simply supported plates and the Navier solution
-/

namespace Composipy
open Spec Matrix Polynomial MeasureTheory Real Verif

variable {a b : ℝ}

/-- Squared wave number of `n` half waves along the length `a`. -/
noncomputable def Spec.wave (a : ℝ) (n : ℕ) : ℝ := (n * π / a) ^ 2

/-- What the plate stiffness opposes to a field of half waves, `u` and `v` the squared wave numbers. -/
def Spec.navierStiff (D : M3) (u v : ℝ) : ℝ := D 0 0 * u ^ 2 + 2 * (D 0 1 + 2 * D 2 2) * (u * v) + D 1 1 * v ^ 2

/-- The coefficients of a polynomial that vanishes at both ends and of its second derivative. -/
theorem sineInt_second (ha : 0 < a) (P : ℝ[X]) (h0 : P.eval 0 = 0) (h1 : P.eval a = 0) (n : ℕ) :
    sineInt a (fun x => (derivative (derivative P)).eval x) ((n : ℕ) : ℤ) = -(wave a n) * sineInt a (fun x => P.eval x) ((n : ℕ) : ℤ) := by
  set k : ℝ := n * π / a with hk
  have arg : ∀ x, ((n : ℕ) : ℤ) * π * x / a = k * x := fun x => by rw [hk]; push_cast; ring
  have ds : ∀ x : ℝ, HasDerivAt (fun x => sin (k * x)) (k * cos (k * x)) x := fun x => by
    have := ((hasDerivAt_id x).const_mul k).sin
    simp only [id, mul_one] at this
    rwa [mul_comm] at this
  have dc : ∀ x : ℝ, HasDerivAt (fun x => k * cos (k * x)) (-(k ^ 2) * sin (k * x)) x := fun x => by
    have := (((hasDerivAt_id x).const_mul k).cos).const_mul k
    simp only [id, mul_one] at this
    refine this.congr_deriv ?_
    ring
  have cs : Continuous fun x : ℝ => sin (k * x) := by fun_prop
  have cc : Continuous fun x : ℝ => k * cos (k * x) := by fun_prop
  have css : Continuous fun x : ℝ => -(k ^ 2) * sin (k * x) := by fun_prop
  have sa : sin (k * a) = 0 := by
    rw [hk, div_mul_cancel₀ _ ha.ne']
    exact sin_nat_mul_pi n
  have i1 := intervalIntegral.integral_mul_deriv_eq_deriv_mul (a := 0) (b := a) (u := fun x => sin (k * x)) (v := fun x => (derivative P).eval x)
    (fun x _ => ds x) (fun x _ => (derivative P).hasDerivAt x) (cc.intervalIntegrable _ _)
    ((derivative (derivative P)).continuous.intervalIntegrable _ _)
  have i2 := intervalIntegral.integral_mul_deriv_eq_deriv_mul (a := 0) (b := a) (u := fun x => k * cos (k * x)) (v := fun x => P.eval x)
    (fun x _ => dc x) (fun x _ => P.hasDerivAt x) (css.intervalIntegrable _ _) ((derivative P).continuous.intervalIntegrable _ _)
  simp only [mul_zero, sin_zero, sa, zero_mul, sub_zero, zero_sub, h0, h1] at i1 i2
  have e : sineInt a (fun x => (derivative (derivative P)).eval x) ((n : ℕ) : ℤ)
      = ∫ x in (0 : ℝ)..a, sin (k * x) * (derivative (derivative P)).eval x := by
    unfold sineInt
    simp only [arg]
    exact intervalIntegral.integral_congr fun x _ => mul_comm _ _
  have e' : sineInt a (fun x => P.eval x) ((n : ℕ) : ℤ) = ∫ x in (0 : ℝ)..a, P.eval x * sin (k * x) := by
    unfold sineInt
    simp only [arg]
  rw [e, e', i1, i2, neg_neg, ← intervalIntegral.integral_const_mul]
  refine intervalIntegral.integral_congr fun x _ => ?_
  simp only [wave, ← hk]
  ring

/-- Amplitude of the `(p, q)` half waves in a sum of products. -/
noncomputable def amp (a b : ℝ) {N : ℕ} (c : Fin N → ℝ) (P Q : Fin N → ℝ[X]) (k : ℕ × ℕ) : ℝ :=
  ∑ r, c r * (sineInt a (fun x => (P r).eval x) ((k.1 + 1 : ℕ) : ℤ) * sineInt b (fun y => (Q r).eval y) ((k.2 + 1 : ℕ) : ℤ))

/-- Parseval for sums of products. -/
theorem parseval_sep (ha : 0 < a) (hb : 0 < b) {N : ℕ} (c : Fin N → ℝ) (P Q P' Q' : Fin N → ℝ[X]) {v : ℝ}
    (hv : DI a b (fun x y => sep c P Q x y * sep c P' Q' x y) v) :
    HasSum (fun k => amp a b c P Q k * amp a b c P' Q' k) (a * b / 4 * v) := by
  have hq := (DI.quad (a := a) (b := b) c P Q P' Q').val
  have : v = _ := hv.val.symm.trans hq
  rw [this, Finset.mul_sum]
  have hs : HasSum (fun k : ℕ × ℕ => ∑ r, ∑ s, c r * c s * ((sineInt a (fun x => (P r).eval x) ((k.1 + 1 : ℕ) : ℤ)
        * sineInt b (fun y => (Q r).eval y) ((k.2 + 1 : ℕ) : ℤ)) * (sineInt a (fun x => (P' s).eval x) ((k.1 + 1 : ℕ) : ℤ)
        * sineInt b (fun y => (Q' s).eval y) ((k.2 + 1 : ℕ) : ℤ))))
      (∑ r, ∑ s, c r * c s * (a * b / 4 * ((∫ x in (0 : ℝ)..a, (P r).eval x * (P' s).eval x)
        * ∫ y in (0 : ℝ)..b, (Q r).eval y * (Q' s).eval y))) :=
    hasSum_sum fun r _ => hasSum_sum fun s _ => (parseval_sine_prod ha hb (P r).continuous (P' s).continuous (Q r).continuous
      (Q' s).continuous).mul_left _
  refine hasSum_of_eq hs (fun k => ?_) ?_
  · unfold amp
    rw [Finset.sum_mul_sum]
    exact Finset.sum_congr rfl fun r _ => Finset.sum_congr rfl fun s _ => by ring
  · refine Finset.sum_congr rfl fun r _ => ?_
    rw [Finset.mul_sum]
    exact Finset.sum_congr rfl fun s _ => by ring

theorem slope_exchange_x {N : ℕ} (c : Fin N → ℝ) (P Q : Fin N → ℝ[X]) (zP : ∀ r, (P r).eval 0 = 0 ∧ (P r).eval a = 0) : ∃ v,
    DI a b (fun x y => sep c (fun r => derivative (P r)) Q x y ^ 2) v ∧
    DI a b (fun x y => sep c P Q x y * sep c (fun r => derivative (derivative (P r))) Q x y) (-v) := by
  have h1 := DI.quad (a := a) (b := b) c (fun r => derivative (P r)) Q (fun r => derivative (P r)) Q
  have h2 := DI.quad (a := a) (b := b) c P Q (fun r => derivative (derivative (P r))) Q
  refine ⟨_, by simpa only [sep, pow_two] using h1, ?_⟩
  refine Eq.subst (motive := fun v => DI a b _ v) ?_ h2
  symm
  rw [← Finset.sum_neg_distrib]
  refine Finset.sum_congr rfl fun r _ => ?_
  rw [← Finset.sum_neg_distrib]
  refine Finset.sum_congr rfl fun s _ => ?_
  have := parts_zero (a := a) (derivative (P s)) (P r) (zP r).1 (zP r).2
  rw [show (fun x => (P r).eval x * (derivative (derivative (P s))).eval x) = fun x => (derivative (derivative (P s))).eval x * (P r).eval x
    from funext fun x => mul_comm _ _, this,
    show (fun x => (derivative (P s)).eval x * (derivative (P r)).eval x) = fun x => (derivative (P r)).eval x * (derivative (P s)).eval x
    from funext fun x => mul_comm _ _]
  ring

theorem slope_exchange_y {N : ℕ} (c : Fin N → ℝ) (P Q : Fin N → ℝ[X]) (zQ : ∀ r, (Q r).eval 0 = 0 ∧ (Q r).eval b = 0) : ∃ v,
    DI a b (fun x y => sep c P (fun r => derivative (Q r)) x y ^ 2) v ∧
    DI a b (fun x y => sep c P Q x y * sep c P (fun r => derivative (derivative (Q r))) x y) (-v) := by
  have h1 := DI.quad (a := a) (b := b) c P (fun r => derivative (Q r)) P (fun r => derivative (Q r))
  have h2 := DI.quad (a := a) (b := b) c P Q P (fun r => derivative (derivative (Q r)))
  refine ⟨_, by simpa only [sep, pow_two] using h1, ?_⟩
  refine Eq.subst (motive := fun v => DI a b _ v) ?_ h2
  symm
  rw [← Finset.sum_neg_distrib]
  refine Finset.sum_congr rfl fun r _ => ?_
  rw [← Finset.sum_neg_distrib]
  refine Finset.sum_congr rfl fun s _ => ?_
  have := parts_zero (a := b) (derivative (Q s)) (Q r) (zQ r).1 (zQ r).2
  rw [show (fun x => (Q r).eval x * (derivative (derivative (Q s))).eval x) = fun x => (derivative (derivative (Q s))).eval x * (Q r).eval x
    from funext fun x => mul_comm _ _, this,
    show (fun x => (derivative (Q s)).eval x * (derivative (Q r)).eval x) = fun x => (derivative (Q r)).eval x * (derivative (Q s)).eval x
    from funext fun x => mul_comm _ _]
  ring

/-- The energies of a deflection vanishing on the edges, as sums over the half waves. -/
theorem navier_sums (ha : 0 < a) (hb : 0 < b) {D : M3} (hD : NoTwist D) (w : List (ℕ × ℕ)) {N : ℕ} (hN : w.length = N)
    (hw : ∀ q ∈ w, EndZero q.1 ∧ EndZero q.2) (c : Fin N → ℝ) : ∃ g : ℕ × ℕ → ℝ,
    HasSum (fun k => navierStiff D (wave a (k.1 + 1)) (wave b (k.2 + 1)) * g k ^ 2) (a * b / 4 * bendEnergy D a b (ritz a b w c)) ∧
    HasSum (fun k => wave a (k.1 + 1) * g k ^ 2) (a * b / 4 * slopeX a b (ritz a b w c)) ∧
    HasSum (fun k => wave b (k.2 + 1) * g k ^ 2) (a * b / 4 * slopeY a b (ritz a b w c)) := by
  have hr : ∀ r : Fin N, EndZero (w.getD r (0, 0)).1 ∧ EndZero (w.getD r (0, 0)).2 := fun r => by
    have hlt : (r : ℕ) < w.length := by rw [hN]; exact r.2
    rw [List.getD_eq_getElem _ _ hlt]
    exact hw _ (List.getElem_mem hlt)
  have hs10 : D 1 0 = D 0 1 := hD.symm.apply 0 1
  have hs20 : D 2 0 = 0 := by rw [← hD.d16]; exact hD.symm.apply 0 2
  have hs21 : D 2 1 = 0 := by rw [← hD.d26]; exact hD.symm.apply 1 2
  set P : Fin N → ℝ[X] := fun r => phys a (shape (w.getD r (0, 0)).1) with hP
  set Q : Fin N → ℝ[X] := fun r => phys b (shape (w.getD r (0, 0)).2) with hQ
  have zP : ∀ r, (P r).eval 0 = 0 ∧ (P r).eval a = 0 := fun r => phys_endZero ha.ne' (hr r).1
  have zQ : ∀ r, (Q r).eval 0 = 0 ∧ (Q r).eval b = 0 := fun r => phys_endZero hb.ne' (hr r).2
  set P2 : Fin N → ℝ[X] := fun r => derivative (derivative (P r)) with hP2
  set Q2 : Fin N → ℝ[X] := fun r => derivative (derivative (Q r)) with hQ2
  have aX : ∀ k, amp a b c P2 Q k = -(wave a (k.1 + 1)) * amp a b c P Q k := fun k => by
    unfold amp
    rw [Finset.mul_sum]
    refine Finset.sum_congr rfl fun r _ => ?_
    rw [hP2, sineInt_second ha _ (zP r).1 (zP r).2]
    ring
  have aY : ∀ k, amp a b c P Q2 k = -(wave b (k.2 + 1)) * amp a b c P Q k := fun k => by
    unfold amp
    rw [Finset.mul_sum]
    refine Finset.sum_congr rfl fun r _ => ?_
    rw [hQ2, sineInt_second hb _ (zQ r).1 (zQ r).2]
    ring
  obtain ⟨t, ht1, ht2⟩ := twist_exchange c P Q zP zQ
  obtain ⟨u, hu⟩ : ∃ u, DI a b (fun x y => sep c P2 Q x y * sep c P2 Q x y) u := ⟨_, DI.quad c P2 Q P2 Q⟩
  obtain ⟨v, hv⟩ : ∃ v, DI a b (fun x y => sep c P Q2 x y * sep c P Q2 x y) v := ⟨_, DI.quad c P Q2 P Q2⟩
  obtain ⟨sx, hx1, hx2⟩ := slope_exchange_x (b := b) c P Q zP
  obtain ⟨sy, hy1, hy2⟩ := slope_exchange_y (a := a) c P Q zQ
  refine ⟨fun k => amp a b c P Q k, ?_, ?_, ?_⟩
  · have hE : bendEnergy D a b (ritz a b w c) = D 0 0 * u + (2 * D 0 1 * t + (D 1 1 * v + 4 * D 2 2 * t)) := by
      unfold bendEnergy
      rw [← ((hu.smul (D 0 0)).add ((ht1.smul (2 * D 0 1)).add ((hv.smul (D 1 1)).add (ht2.smul (4 * D 2 2))))).val]
      refine intervalIntegral.integral_congr fun x _ => intervalIntegral.integral_congr fun y _ => ?_
      simp only [bendDensity, ritz_sep, dX_sep, dY_sep]
      generalize sep c (fun r => derivative (derivative (P r))) Q x y = X
      generalize sep c P (fun r => derivative (derivative (Q r))) x y = Y
      generalize sep c (fun r => derivative (P r)) (fun r => derivative (Q r)) x y = Z
      simp [dotProduct, Matrix.mulVec, Fin.sum_univ_three, hD.d16, hD.d26, hs10, hs20, hs21]
      ring
    have s1 := (parseval_sep ha hb c P2 Q P2 Q hu).mul_left (D 0 0)
    have s2 := (parseval_sep ha hb c P2 Q P Q2 ht1).mul_left (2 * D 0 1 + 4 * D 2 2)
    have s3 := (parseval_sep ha hb c P Q2 P Q2 hv).mul_left (D 1 1)
    refine hasSum_of_eq (s1.add (s2.add s3)) (fun k => ?_) ?_
    · rw [aX, aY]
      unfold navierStiff
      ring
    · rw [hE]
      ring
  · have e : slopeX a b (ritz a b w c) = sx := by
      rw [← hx1.val]
      simp only [slopeX, ritz_sep, dX_sep]
      rfl
    refine hasSum_of_eq (parseval_sep ha hb c P Q P2 Q hx2).neg (fun k => ?_) ?_
    · rw [aX]; ring
    · rw [e]; ring
  · have e : slopeY a b (ritz a b w c) = sy := by
      rw [← hy1.val]
      simp only [slopeY, ritz_sep, dY_sep]
      rfl
    refine hasSum_of_eq (parseval_sep ha hb c P Q P Q2 hy2).neg (fun k => ?_) ?_
    · rw [aY]; ring
    · rw [e]; ring

/-- **C99** for matrices that carry the energies: each positive multiplier is at least the Navier load of some pair of half waves. -/
theorem navier_of {D D0 : M3} (hD : D.IsSymm) (h0 : NoTwist D0) (hdom : (D - D0).PosSemidef) {p : PlateNum} (ha : 0 < p.a)
    (hb : 0 < p.b) (hxy : p.Nxy = 0) (w : List (ℕ × ℕ)) (hN : w.length = p.m * p.n)
    (hw : ∀ q ∈ w, EndZero q.1 ∧ EndZero q.2) {K KG : SqMat (p.m * p.n)} (hpd : ∀ c, c ≠ 0 → 0 < c ⬝ᵥ K.mulVec c)
    (he : ∀ c : Fin (p.m * p.n) → ℝ, c ⬝ᵥ K.mulVec c = bendEnergy D p.a p.b (ritz p.a p.b w c) ∧
      c ⬝ᵥ KG.mulVec c = loadWork p.Nxx p.Nyy p.Nxy p.a p.b (ritz p.a p.b w c)) {lam : ℝ} (hl : PosMult K KG lam) :
    ∃ i j : ℕ, 1 ≤ i ∧ 1 ≤ j ∧ navierStiff D0 (wave p.a i) (wave p.b j) ≤ lam * -(p.Nxx * wave p.a i + p.Nyy * wave p.b j) := by
  obtain ⟨hpos, v, hv⟩ := hl
  have k0 := hpd v hv.1
  have hb0 := buckles_energy hv
  rw [(he v).1] at k0
  rw [(he v).1, (he v).2, hxy, loadWork_split] at hb0
  by_contra hno
  push Not at hno
  obtain ⟨g, g1, g2, g3⟩ := navier_sums ha hb h0 w hN hw v
  have hge : bendEnergy D0 p.a p.b (ritz p.a p.b w v) ≤ bendEnergy D p.a p.b (ritz p.a p.b w v) := by
    have k0 := kMat_nonneg hdom ha hb w v
    have e : v ⬝ᵥ (kMat exactV p.a p.b (D - D0) w (p.m * p.n)).mulVec v
        = bendEnergy D p.a p.b (ritz p.a p.b w v) - bendEnergy D0 p.a p.b (ritz p.a p.b w v) := by
      rw [← kMat_energy ha.ne' hb.ne' _ hD, ← kMat_energy ha.ne' hb.ne' _ h0.symm, ← dotProduct_sub, ← Matrix.sub_mulVec]
      congr 2
      ext r s
      simp only [kMat, of_apply, Matrix.sub_apply, k33v]
      ring
    linarith
  have hab : 0 < p.a * p.b / 4 := by positivity
  have tot := g1.add ((g2.mul_left (lam * p.Nxx)).add (g3.mul_left (lam * p.Nyy)))
  have ht : ∀ k : ℕ × ℕ, 0 ≤ navierStiff D0 (wave p.a (k.1 + 1)) (wave p.b (k.2 + 1)) * g k ^ 2 + (lam * p.Nxx * (wave p.a (k.1 + 1) * g k ^ 2)
      + lam * p.Nyy * (wave p.b (k.2 + 1) * g k ^ 2)) := fun k => by
    have := hno (k.1 + 1) (k.2 + 1) (by omega) (by omega)
    nlinarith [sq_nonneg (g k)]
  have hle : p.a * p.b / 4 * bendEnergy D0 p.a p.b (ritz p.a p.b w v) + (lam * p.Nxx * (p.a * p.b / 4 * slopeX p.a p.b (ritz p.a p.b w v))
      + lam * p.Nyy * (p.a * p.b / 4 * slopeY p.a p.b (ritz p.a p.b w v))) ≤ 0 := by
    have := mul_le_mul_of_nonneg_left hge hab.le
    have h2 : p.a * p.b / 4 * (bendEnergy D p.a p.b (ritz p.a p.b w v) + lam * (p.Nxx * slopeX p.a p.b (ritz p.a p.b w v)
      + p.Nyy * slopeY p.a p.b (ritz p.a p.b w v))) = 0 := by rw [hb0, mul_zero]
    linarith
  have hz : ∀ k, g k = 0 := fun k => by
    have h1 := le_hasSum tot k fun j _ => ht j
    have h2 : navierStiff D0 (wave p.a (k.1 + 1)) (wave p.b (k.2 + 1)) * g k ^ 2 + (lam * p.Nxx * (wave p.a (k.1 + 1) * g k ^ 2)
      + lam * p.Nyy * (wave p.b (k.2 + 1) * g k ^ 2)) = 0 := le_antisymm (h1.trans hle) (ht k)
    have h3 : (navierStiff D0 (wave p.a (k.1 + 1)) (wave p.b (k.2 + 1))
      - lam * -(p.Nxx * wave p.a (k.1 + 1) + p.Nyy * wave p.b (k.2 + 1))) * g k ^ 2 = 0 := by linarith
    have h4 := hno (k.1 + 1) (k.2 + 1) (by omega) (by omega)
    rcases mul_eq_zero.mp h3 with h | h
    · linarith
    · exact pow_eq_zero_iff (two_ne_zero) |>.mp h
  simp only [hz, ne_eq, OfNat.ofNat_ne_zero, not_false_eq_true, zero_pow, mul_zero] at g2 g3
  have x0 : slopeX p.a p.b (ritz p.a p.b w v) = 0 := by
    have := g2.unique hasSum_zero
    simpa [hab.ne', ha.ne', hb.ne'] using this
  have y0 : slopeY p.a p.b (ritz p.a p.b w v) = 0 := by
    have := g3.unique hasSum_zero
    simpa [hab.ne', ha.ne', hb.ne'] using this
  rw [x0, y0] at hb0
  simp at hb0
  linarith

/-- The Navier buckling multiplier of `i` by `j` half waves. -/
noncomputable def Spec.navier (D : M3) (a b nx ny : ℝ) (i j : ℕ) : ℝ :=
  navierStiff D (wave a i) (wave b j) / -(nx * wave a i + ny * wave b j)

/-- The Navier multipliers of all pairs of half waves the load can drive. -/
def Spec.navierSet (D : M3) (a b nx ny : ℝ) : Set ℝ :=
  {t | ∃ i j : ℕ, 1 ≤ i ∧ 1 ≤ j ∧ 0 < -(nx * wave a i + ny * wave b j) ∧ t = navier D a b nx ny i j}

theorem wave_pos (ha : 0 < a) {i : ℕ} (hi : 1 ≤ i) : 0 < wave a i := by
  have : (0 : ℝ) < i := by exact_mod_cast hi
  unfold wave
  positivity

theorem navierStiff_pos {D : M3} (hD : D.PosDef) {u v : ℝ} (hu : 0 < u) (hv : 0 < v) : 0 < navierStiff D u v := by
  have hs : D 1 0 = D 0 1 := by
    have := hD.isHermitian.apply 0 1
    simpa using this
  have h1 := hD.dotProduct_mulVec_pos (x := ![u, v, 0]) (fun h => by
    have := congrFun h 0
    simp at this
    exact hu.ne' this)
  simp [dotProduct, Matrix.mulVec, Fin.sum_univ_three, hs] at h1
  have h2 : 0 < D 2 2 := hD.diag_pos
  have h3 := mul_pos h2 (mul_pos hu hv)
  unfold navierStiff
  nlinarith

/-- What every multiplier satisfies: it is at least the Navier multiplier of one of the pairs of half waves. -/
def Spec.NavierBound (D0 : M3) (p : PlateNum) (lam : ℝ) : Prop :=
  ∃ i j : ℕ, 1 ≤ i ∧ 1 ≤ j ∧ navierStiff D0 (wave p.a i) (wave p.b j) ≤ lam * -(p.Nxx * wave p.a i + p.Nyy * wave p.b j)

/-- For a definite stiffness this means being above an element of the Navier set. -/
theorem C99_bound_iff (D0 : M3) (h0 : D0.PosDef) (p : PlateNum) (ha : 0 < p.a) (hb : 0 < p.b) (lam : ℝ) (hl : 0 < lam) :
    NavierBound D0 p lam ↔ ∃ t ∈ navierSet D0 p.a p.b p.Nxx p.Nyy, t ≤ lam := by
  constructor
  · rintro ⟨i, j, hi, hj, h⟩
    have hp := navierStiff_pos h0 (wave_pos ha hi) (wave_pos hb hj)
    have hload : 0 < -(p.Nxx * wave p.a i + p.Nyy * wave p.b j) := by
      by_contra hno
      push Not at hno
      nlinarith
    exact ⟨_, ⟨i, j, hi, hj, hload, rfl⟩, by rw [navier, div_le_iff₀ hload]; exact h⟩
  · rintro ⟨t, ⟨i, j, hi, hj, hload, rfl⟩, h⟩
    exact ⟨i, j, hi, hj, by rw [navier, div_le_iff₀ hload] at h; exact h⟩

/-- **C99** with the exact integrals: if the four edges cannot deflect (whatever else is restrained) and there is no shear load, then
every positive multiplier is at least the Navier multiplier of some pair of half waves. `D0` is the stiffness itself if it does not
couple bending and twisting, otherwise any uncoupled one below it. -/
theorem C99_held (D D0 : M3) (hD : D.PosDef) (h0 : NoTwist D0) (hdom : (D - D0).PosSemidef) (cs : Constraints) (p : PlateNum)
    (ha : 0 < p.a) (hb : 0 < p.b) (e : Edges) (he : chooseEdges cs = .ok e) (hh : EdgesHeld e) (hxy : p.Nxy = 0)
    (K KG : SqMat (p.m * p.n)) (hK : calcKKGD exactReaders (.ok D) cs p = .ok (K, KG)) (lam : ℝ) (hl : PosMult K KG lam) :
    NavierBound D0 p lam := by
  obtain ⟨s, hs⟩ := (C40_accepted_iff cs p.m p.n).mpr ⟨_, he⟩
  have hsym : D.IsSymm := hD.isHermitian
  obtain ⟨K', KG', hK', hen⟩ := C49_energy D hsym cs p s hs ha.ne' hb.ne'
  obtain ⟨rfl, rfl⟩ := Prod.mk.inj (Except.ok.inj (hK.symm.trans hK'))
  refine navier_of hsym h0 hdom ha hb hxy s.w (C40_sizes cs _ _ s hs).2.2.len (held_endZero hs he hh) (fun c hc => ?_) hen hl
  rw [(hen c).1]
  exact C87_supported D hD cs p ha hb s hs e he (.inl (.inl ⟨hh.1, .inr (.inl hh.2.1)⟩)) c hc

/-- **C99** clamped plates with the tables as shipped. -/
theorem C99_clamped (D D0 : M3) (hD : D.PosDef) (h0 : NoTwist D0) (hdom : (D - D0).PosSemidef) (p : PlateNum) (ha : 0 < p.a)
    (hb : 0 < p.b) (hm : 1 ≤ p.m) (hn : 1 ≤ p.n) (hm' : p.m ≤ 26) (hn' : p.n ≤ 26) (hxy : p.Nxy = 0) (K KG : SqMat (p.m * p.n))
    (hK : calcKKGD shipped (.ok D) (.str wCLAMPED) p = .ok (K, KG)) (lam : ℝ) (hl : PosMult K KG lam) : NavierBound D0 p lam := by
  have hsym : D.IsSymm := hD.isHermitian
  have hpd := clamped_posDef hD ha hb hm hn hm' hn' hK
  obtain ⟨s, K', KG', hs, hK', hen⟩ := C49_energy_clamped D hsym p ha.ne' hb.ne' hm' hn'
  obtain ⟨rfl, rfl⟩ := Prod.mk.inj (Except.ok.inj (hK.symm.trans hK'))
  refine navier_of hsym h0 hdom ha hb hxy s.w (C40_sizes _ _ _ s hs).2.2.len
    (held_endZero hs rfl ⟨by decide, by decide, by decide, by decide⟩) (fun c hc => ?_) hen hl
  simpa using hpd.dotProduct_mulVec_pos hc

end Composipy
