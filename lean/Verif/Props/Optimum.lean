import Verif.Props.TestLoads

/-!
# C103: what the optimisers look for; the optimisation tests

Two half waves: the Rayleigh quotient of a quintic.  Shear traded for compression.  The best lamination parameters of a pinned panel twice
as long as wide, and the thickness of the lightest panel of `tests/optimization_test`.
-/

namespace Composipy
open Polynomial Spec Matrix Real

variable {a b : ℝ}

/-! ## Product trial functions -/

/-- Pinned plates, exact integrals: a positive multiplier is not above the Rayleigh quotient of a product of polynomials that vanish at the
edges, whatever the coupling of bending and twisting and the shear load. -/
theorem C103_trial (D : M3) (hD : D.PosDef) (p : PlateNum) (ha : 0 < p.a) (hb : 0 < p.b) (hm : 2 ≤ p.m) (hn : 2 ≤ p.n) (P Q : ℝ[X])
    (dP : P.natDegree ≤ p.m + 1) (dQ : Q.natDegree ≤ p.n + 1) (p0 : P.eval 0 = 0) (p1 : P.eval p.a = 0) (q0 : Q.eval 0 = 0)
    (q1 : Q.eval p.b = 0) (I0 I1 I2 J0 J1 J2 : ℝ)
    (hI0 : ∫ x in (0 : ℝ)..p.a, P.eval x * P.eval x = I0)
    (hI1 : ∫ x in (0 : ℝ)..p.a, (derivative P).eval x * (derivative P).eval x = I1)
    (hI2 : ∫ x in (0 : ℝ)..p.a, (derivative (derivative P)).eval x * (derivative (derivative P)).eval x = I2)
    (hJ0 : ∫ y in (0 : ℝ)..p.b, Q.eval y * Q.eval y = J0)
    (hJ1 : ∫ y in (0 : ℝ)..p.b, (derivative Q).eval y * (derivative Q).eval y = J1)
    (hJ2 : ∫ y in (0 : ℝ)..p.b, (derivative (derivative Q)).eval y * (derivative (derivative Q)).eval y = J2)
    (hload : 0 < -(p.Nxx * (I1 * J0) + p.Nyy * (I0 * J1))) (K KG : SqMat (p.m * p.n))
    (hK : calcKKGD exactReaders (.ok D) (.str wPINNED) p = .ok (K, KG)) :
    ∃ lam ≤ (D 0 0 * (I2 * J0) + 2 * (D 0 1 + 2 * D 2 2) * (I1 * J1) + D 1 1 * (I0 * J2)) / -(p.Nxx * (I1 * J0) + p.Nyy * (I0 * J1)),
      PosMult K KG lam := by
  have hsym : D.IsSymm := hD.isHermitian
  obtain ⟨s, hs⟩ := (C40_accepted_iff (.str wPINNED) p.m p.n).mpr ⟨_, rfl⟩
  obtain ⟨K', KG', hK', hpos⟩ := C87_named D hD p ha hb wPINNED (.inl rfl)
  obtain ⟨rfl, rfl⟩ := Prod.mk.inj (Except.ok.inj (hK.symm.trans hK'))
  obtain ⟨K', KG', hK'', hen⟩ := C49_energy D hsym (.str wPINNED) p s hs ha.ne' hb.ne'
  obtain ⟨rfl, rfl⟩ := Prod.mk.inj (Except.ok.inj (hK.symm.trans hK''))
  have hsK := exact_symm_ok ha.ne' hb.ne' hK hs
  have hpd := posDef_of_pos hsK.1 hpos
  obtain ⟨v, hr⟩ := prod_ritz ha.ne' hb.ne' hs P Q hm hn dP dQ p0 p1 q0 q1
  obtain ⟨eE, eW⟩ := prod_energy D hsym p.Nxx p.Nyy p.Nxy P Q p0 p1 q0 q1
  rw [hI0, hI1, hI2, hJ0, hJ1, hJ2] at eE
  rw [hI0, hI1, hJ0, hJ1] at eW
  have hkE : v ⬝ᵥ K.mulVec v = _ := ((hen v).1.trans (congrArg _ hr)).trans eE
  have hkW : v ⬝ᵥ KG.mulVec v = _ := ((hen v).2.trans (congrArg _ hr)).trans eW
  have hWp : 0 < -(v ⬝ᵥ KG.mulVec v) := by rw [hkW]; exact hload
  have hv : v ≠ 0 := fun h => by
    subst h
    simp at hWp
  obtain ⟨mu, h1, h2⟩ := posMult_le hpd hsK.2 hv (lam := v ⬝ᵥ K.mulVec v / -(v ⬝ᵥ KG.mulVec v)) (div_pos (hpos v hv) hWp) (by
    rw [div_neg, neg_mul, div_mul_cancel₀ _ (by linarith : v ⬝ᵥ KG.mulVec v < 0).ne]
    linarith)
  exact ⟨mu, h1.trans (le_of_eq (by rw [hkE, hkW])), h2⟩

/-- The quintic `-t + 10 t^3 - 15 t^4 + 6 t^5`, `t = x / a`: close to two half waves. -/
noncomputable def quint (a : ℝ) : ℝ[X] := -(C (1 / a) * X) + C (10 / a ^ 3) * X ^ 3 - C (15 / a ^ 4) * X ^ 4 + C (6 / a ^ 5) * X ^ 5

theorem quint_derivs : (∀ x, (quint a).eval x = -(x / a) + 10 * x ^ 3 / a ^ 3 - 15 * x ^ 4 / a ^ 4 + 6 * x ^ 5 / a ^ 5) ∧
    (∀ x, (derivative (quint a)).eval x = -(1 / a) + 30 * x ^ 2 / a ^ 3 - 60 * x ^ 3 / a ^ 4 + 30 * x ^ 4 / a ^ 5) ∧
    ∀ x, (derivative (derivative (quint a))).eval x = 60 * x / a ^ 3 - 180 * x ^ 2 / a ^ 4 + 120 * x ^ 3 / a ^ 5 := by
  refine ⟨fun x => ?_, fun x => ?_, fun x => ?_⟩
  · simp [quint]; ring
  · simp [quint]; ring
  · simp [quint]; ring

theorem quint_ends (ha : a ≠ 0) : (quint a).eval 0 = 0 ∧ (quint a).eval a = 0 ∧ (quint a).natDegree ≤ 5 := by
  obtain ⟨h0, -, -⟩ := quint_derivs (a := a)
  refine ⟨by rw [h0]; simp, by rw [h0]; field_simp; ring, ?_⟩
  unfold quint
  compute_degree

theorem quint_ints (ha : a ≠ 0) :
    (∫ x in (0 : ℝ)..a, (quint a).eval x * (quint a).eval x) = 5 / 462 * a ∧
    (∫ x in (0 : ℝ)..a, (derivative (quint a)).eval x * (derivative (quint a)).eval x) = 3 / 7 / a ∧
    (∫ x in (0 : ℝ)..a, (derivative (derivative (quint a))).eval x * (derivative (derivative (quint a))).eval x) = 120 / 7 / a ^ 3 := by
  obtain ⟨h0, h1, h2⟩ := quint_derivs (a := a)
  refine ⟨?_, ?_, ?_⟩
  · rw [int_poly _ (C (1 / (3 * a ^ 2)) * X ^ 3 + C (-4 / a ^ 4) * X ^ 5 + C (5 / a ^ 5) * X ^ 6 + C (88 / (7 * a ^ 6)) * X ^ 7
      + C (-75 / (2 * a ^ 7)) * X ^ 8 + C (115 / (3 * a ^ 8)) * X ^ 9 + C (-18 / a ^ 9) * X ^ 10 + C (36 / (11 * a ^ 10)) * X ^ 11)
      (fun x => by
        rw [h0]
        simp
        field_simp
        ring)]
    simp
    field_simp
    ring
  · rw [int_poly _ (C (1 / a ^ 2) * X + C (-20 / a ^ 4) * X ^ 3 + C (30 / a ^ 5) * X ^ 4 + C (168 / a ^ 6) * X ^ 5 + C (-600 / a ^ 7) * X ^ 6
      + C (5400 / (7 * a ^ 8)) * X ^ 7 + C (-450 / a ^ 9) * X ^ 8 + C (100 / a ^ 10) * X ^ 9) (fun x => by
        rw [h1]
        simp
        field_simp
        ring)]
    simp
    field_simp
    ring
  · rw [int_poly _ (C (1200 / a ^ 6) * X ^ 3 + C (-5400 / a ^ 7) * X ^ 4 + C (9360 / a ^ 8) * X ^ 5 + C (-7200 / a ^ 9) * X ^ 6
      + C (14400 / (7 * a ^ 10)) * X ^ 7) (fun x => by
        rw [h2]
        simp
        field_simp
        ring)]
    simp
    field_simp
    ring

/-- The Rayleigh quotient of the quintic along `x` and the quartic along `y`, `nx` and `ny` the compressions. -/
noncomputable def Spec.rayleighTwo (D : M3) (a b nx ny : ℝ) : ℝ :=
  (40 * D 0 0 / a ^ 4 + 612 / 31 * (D 0 1 + 2 * D 2 2) / (a ^ 2 * b ^ 2) + 840 / 341 * D 1 1 / b ^ 4) / (nx / a ^ 2 + 85 / 341 * ny / b ^ 2)

/-- **C103** the quotient is within 1.7 percent of the Navier multiplier of two half waves along `x` and one along `y`. -/
theorem C103_quotient (D : M3) (hD : D.PosDef) (hH : 0 ≤ D 0 1 + 2 * D 2 2) (a b nx ny : ℝ) (ha : 0 < a) (hb : 0 < b) (hx : nx ≤ 0)
    (hy : ny ≤ 0) (hload : 0 < -nx / a ^ 2 + -ny / b ^ 2) :
    rayleighTwo D a b (-nx) (-ny) ≤ 1.017 * navier D a b nx ny 2 1 := by
  have d0 : 0 < D 0 0 := hD.diag_pos
  have d1 : 0 < D 1 1 := hD.diag_pos
  obtain ⟨q1, q2⟩ := pi_sq_bounds
  have hx' : 0 ≤ -nx / a ^ 2 := div_nonneg (by linarith) (by positivity)
  have hy' : 0 ≤ -ny / b ^ 2 := div_nonneg (by linarith) (by positivity)
  set u := -nx / a ^ 2 with hu
  set v := -ny / b ^ 2 with hv
  have e : navier D a b nx ny 2 1 = π ^ 2 * (4 * (D 0 0 / a ^ 4) + 2 * ((D 0 1 + 2 * D 2 2) / (a ^ 2 * b ^ 2)) + D 1 1 / b ^ 4 / 4)
      / (u + v / 4) := by
    unfold navier navierStiff wave
    have h1 : -(nx * ((2 : ℕ) * π / a) ^ 2 + ny * ((1 : ℕ) * π / b) ^ 2) = 4 * π ^ 2 * (u + v / 4) := by
      rw [hu, hv]; push_cast; field_simp; ring
    have hden : u + v / 4 ≠ 0 := by linarith
    rw [h1, div_eq_div_iff (mul_ne_zero (by positivity) hden) hden]
    push_cast
    field_simp
    ring
  have p1 : 0 ≤ D 0 0 / a ^ 4 := by positivity
  have p2 : 0 ≤ (D 0 1 + 2 * D 2 2) / (a ^ 2 * b ^ 2) := by positivity
  have p3 : 0 ≤ D 1 1 / b ^ 4 := by positivity
  have e2 : rayleighTwo D a b (-nx) (-ny) = (40 * (D 0 0 / a ^ 4) + 612 / 31 * ((D 0 1 + 2 * D 2 2) / (a ^ 2 * b ^ 2)) + 840 / 341 * (D 1 1 / b ^ 4))
      / (u + 85 / 341 * v) := by
    rw [hu, hv, rayleighTwo]; ring
  rw [e, e2]
  clear_value u v
  generalize D 0 0 / a ^ 4 = X at *
  generalize (D 0 1 + 2 * D 2 2) / (a ^ 2 * b ^ 2) = Y at *
  generalize D 1 1 / b ^ 4 = Z at *
  have hpos : 0 < u + 85 / 341 * v := by
    rcases hx'.lt_or_eq with h | h
    · positivity
    · have : 0 < v := by linarith
      positivity
  rw [← mul_div_assoc, div_le_div_iff₀ hpos (by linarith)]
  have n1 : 40 * X + 612 / 31 * Y + 840 / 341 * Z ≤ 1.0137 * (π ^ 2 * (4 * X + 2 * Y + Z / 4)) := by
    have m1 := mul_le_mul_of_nonneg_right q1 p1
    have m2 := mul_le_mul_of_nonneg_right q1 p2
    have m3 := mul_le_mul_of_nonneg_right q1 p3
    nlinarith
  have n2 : 1.0137 * (u + v / 4) ≤ 1.017 * (u + 85 / 341 * v) := by linarith
  have n0 : 0 ≤ π ^ 2 * (4 * X + 2 * Y + Z / 4) := by positivity
  calc _ ≤ 1.0137 * (π ^ 2 * (4 * X + 2 * Y + Z / 4)) * (u + v / 4) := mul_le_mul_of_nonneg_right n1 (by linarith)
    _ = π ^ 2 * (4 * X + 2 * Y + Z / 4) * (1.0137 * (u + v / 4)) := by ring
    _ ≤ π ^ 2 * (4 * X + 2 * Y + Z / 4) * (1.017 * (u + 85 / 341 * v)) := mul_le_mul_of_nonneg_left n2 n0
    _ = _ := by ring

/-- **C103** upper bound for pinned plates with four terms or more along `x` and three along `y`, exact integrals: a positive multiplier is
not above the quotient of two half waves. -/
theorem C103_two (D : M3) (hD : D.PosDef) (p : PlateNum) (ha : 0 < p.a) (hb : 0 < p.b) (hm : 4 ≤ p.m) (hn : 3 ≤ p.n)
    (hload : 0 < -p.Nxx / p.a ^ 2 + 85 / 341 * -p.Nyy / p.b ^ 2) (K KG : SqMat (p.m * p.n))
    (hK : calcKKGD exactReaders (.ok D) (.str wPINNED) p = .ok (K, KG)) :
    ∃ lam ≤ rayleighTwo D p.a p.b (-p.Nxx) (-p.Nyy), PosMult K KG lam := by
  obtain ⟨za, za', da⟩ := quint_ends ha.ne'
  obtain ⟨zb, zb', db⟩ := quart_ends hb.ne'
  obtain ⟨i0, i1, i2⟩ := quint_ints ha.ne'
  obtain ⟨j0, j1, j2⟩ := quart_ints hb.ne'
  set L := -p.Nxx / p.a ^ 2 + 85 / 341 * -p.Nyy / p.b ^ 2 with hL
  have hW : -(p.Nxx * (3 / 7 / p.a * (31 / 630 * p.b)) + p.Nyy * (5 / 462 * p.a * (17 / 35 / p.b))) = 31 / 1470 * (p.a * p.b) * L := by
    rw [hL]
    field_simp
    ring
  obtain ⟨lam, h1, h2⟩ := C103_trial D hD p ha hb (by omega) (by omega) (quint p.a) (quart p.b) (by omega) (by omega) za za' zb zb' _ _ _ _ _ _
    i0 i1 i2 j0 j1 j2 (by rw [hW]; positivity) K KG hK
  refine ⟨lam, h1.trans (le_of_eq ?_), h2⟩
  have hE : D 0 0 * (120 / 7 / p.a ^ 3 * (31 / 630 * p.b)) + 2 * (D 0 1 + 2 * D 2 2) * (3 / 7 / p.a * (17 / 35 / p.b))
      + D 1 1 * (5 / 462 * p.a * (24 / 5 / p.b ^ 3)) = 31 / 1470 * (p.a * p.b)
      * (40 * D 0 0 / p.a ^ 4 + 612 / 31 * (D 0 1 + 2 * D 2 2) / (p.a ^ 2 * p.b ^ 2) + 840 / 341 * D 1 1 / p.b ^ 4) := by
    field_simp
    ring
  rw [hE, hW, mul_div_mul_left _ _ (by positivity)]
  rfl

/-! ## Shear traded for compression -/

/-- The work of a shear load is not above that of a compression in both directions. -/
theorem work_shear (ha : 0 < a) (hb : 0 < b) (x y s k : ℝ) (hk : 0 < k) (w : List (ℕ × ℕ)) {N : ℕ} (c : Fin N → ℝ) :
    loadWork (x - k * |s|) (y - |s| / k) 0 a b (ritz a b w c) ≤ loadWork x y s a b (ritz a b w c) := by
  rw [loadWork_split]
  set P : Fin N → ℝ[X] := fun r => phys a (shape (w.getD r (0, 0)).1) with hP
  set Q : Fin N → ℝ[X] := fun r => phys b (shape (w.getD r (0, 0)).2) with hQ
  obtain ⟨u, hu⟩ := DI.sq (a := a) (b := b) c (fun r => derivative (P r)) Q
  obtain ⟨v, hv⟩ := DI.sq (a := a) (b := b) c P (fun r => derivative (Q r))
  have hz := DI.quad (a := a) (b := b) c (fun r => derivative (P r)) Q P (fun r => derivative (Q r))
  set z := ∑ r, ∑ s, c r * c s * _ with hzdef
  clear_value z
  have hz' : DI a b (fun x y => sep c (fun r => derivative (P r)) Q x y * sep c P (fun r => derivative (Q r)) x y) z := hz
  have hX : slopeX a b (ritz a b w c) = u := by
    rw [← hu.val]
    simp only [slopeX, ritz_sep, dX_sep]
    rfl
  have hY : slopeY a b (ritz a b w c) = v := by
    rw [← hv.val]
    simp only [slopeY, ritz_sep, dY_sep]
    rfl
  have hW : loadWork x y s a b (ritz a b w c) = x * u + y * v + 2 * s * z := by
    rw [← (((hu.smul x).add (hv.smul y)).add (hz'.smul (2 * s))).val]
    simp only [loadWork, ritz_sep, dX_sep, dY_sep]
    rfl
  have sq : ∀ t : ℝ, 0 ≤ t ^ 2 * u + v + 2 * t * z := fun t => by
    rw [← ((((hu.smul (t ^ 2))).add hv).add (hz'.smul (2 * t))).val]
    refine intervalIntegral.integral_nonneg ha.le fun x _ => intervalIntegral.integral_nonneg hb.le fun y _ => ?_
    generalize sep c (fun r => derivative (P r)) Q x y = A
    generalize sep c P (fun r => derivative (Q r)) x y = B
    nlinarith [sq_nonneg (t * A + B)]
  rw [hX, hY, hW]
  have key : 0 ≤ |s| * (k * u + v / k) + 2 * s * z := by
    have e : ∀ t : ℝ, k * (|s| * (k * u + v / k) + 2 * t * z) = |s| * (k ^ 2 * u + v) + 2 * t * k * z := fun t => by
      field_simp
    have : 0 ≤ k * (|s| * (k * u + v / k) + 2 * s * z) := by
      rw [e]
      rcases abs_cases s with ⟨h, h'⟩ | ⟨h, h'⟩
      · have := mul_nonneg h' (sq k)
        rw [h]; nlinarith
      · have := mul_nonneg (neg_nonneg.mpr h'.le) (sq (-k))
        rw [h]; nlinarith
    exact nonneg_of_mul_nonneg_right this hk
  have : (x - k * |s|) * u + (y - |s| / k) * v = x * u + y * v - |s| * (k * u + v / k) := by ring
  linarith

/-- **C103** plates held along all edges, exact integrals: the multipliers under a shear load are not below the least one of the plate where
the shear is replaced by compressions `k |Nxy|` and `|Nxy| / k`. -/
theorem C103_shear (D : M3) (hD : D.PosDef) (cs : Constraints) (p : PlateNum) (ha : 0 < p.a) (hb : 0 < p.b) (e : Edges)
    (he : chooseEdges cs = .ok e) (hh : EdgesHeld e) (k : ℝ) (hk : 0 < k) (K KG K' KG' : SqMat (p.m * p.n))
    (hK : calcKKGD exactReaders (.ok D) cs p = .ok (K, KG))
    (hK' : calcKKGD exactReaders (.ok D) cs ⟨p.a, p.b, p.Nxx - k * |p.Nxy|, p.Nyy - |p.Nxy| / k, 0, p.m, p.n⟩ = .ok (K', KG'))
    (lam : ℝ) (hl : PosMult K KG lam) : ∃ nu ≤ lam, PosMult K' KG' nu := by
  have hsym : D.IsSymm := hD.isHermitian
  obtain ⟨s, hs⟩ := (C40_accepted_iff cs p.m p.n).mpr ⟨_, he⟩
  obtain ⟨K1, KG1, hK1, hen⟩ := C49_energy D hsym cs p s hs ha.ne' hb.ne'
  obtain ⟨rfl, rfl⟩ := Prod.mk.inj (Except.ok.inj (hK.symm.trans hK1))
  obtain ⟨K2, KG2, hK2, hen2⟩ := C49_energy D hsym cs ⟨p.a, p.b, p.Nxx - k * |p.Nxy|, p.Nyy - |p.Nxy| / k, 0, p.m, p.n⟩ s hs ha.ne' hb.ne'
  obtain ⟨rfl, rfl⟩ := Prod.mk.inj (Except.ok.inj (hK'.symm.trans hK2))
  have hsK := exact_symm_ok ha.ne' hb.ne' hK hs
  have hsK' := exact_symm_ok (p := ⟨p.a, p.b, p.Nxx - k * |p.Nxy|, p.Nyy - |p.Nxy| / k, 0, p.m, p.n⟩) ha.ne' hb.ne' hK' hs
  have hpd := posDef_of_pos hsK.1 fun c hc => by
    rw [(hen c).1]
    exact C87_supported D hD cs p ha hb s hs e he (.inl (.inl ⟨hh.1, .inr (.inl hh.2.1)⟩)) c hc
  have hpd' := posDef_of_pos hsK'.1 fun c hc => by
    rw [(hen2 c).1, ← (hen c).1]
    have := hpd.dotProduct_mulVec_pos hc
    simpa using this
  obtain ⟨nu, h1, h2⟩ := compare hpd' hpd hsK'.2 one_pos one_pos hl (fun c => by rw [one_mul, (hen c).1, (hen2 c).1]) fun c _ => by
    rw [one_mul, (hen c).2, (hen2 c).2]
    exact neg_le_neg (work_shear ha hb _ _ _ _ hk s.w c)
  exact ⟨nu, by linarith, h1⟩

/-! ## Panels twice as long as wide -/

/-- Plate twice as long as wide, compressed along its length: two half waves along and one across give the least Navier multiplier. -/
theorem double_one {d c g : ℝ} (hd : 0 ≤ d) (hH : 0 ≤ c + 2 * g) {p : PlateNum} (hb : 0 < p.b) (hab : p.a = 2 * p.b) (hx : p.Nxx = -1)
    (hy : p.Nyy = 0) (l : ℝ) (h : NavierBound (evenD d c g) p l) : π ^ 2 / p.b ^ 2 * (2 * (d + (c + 2 * g))) ≤ l := by
  obtain ⟨i, j, hi, hj, h⟩ := h
  have hi' : (1 : ℝ) ≤ (i : ℝ) ^ 2 := one_le_pow₀ (by exact_mod_cast hi)
  have hj' : (1 : ℝ) ≤ (j : ℝ) ^ 2 := one_le_pow₀ (by exact_mod_cast hj)
  have hk : 0 < π ^ 2 / p.b ^ 2 := by positivity
  have hP : 0 < (i : ℝ) ^ 2 / 4 := by linarith
  have w1 : wave p.a i = π ^ 2 / p.b ^ 2 * ((i : ℝ) ^ 2 / 4) := by
    rw [hab, wave]
    field_simp
    ring
  have w2 : wave p.b j = π ^ 2 / p.b ^ 2 * (j : ℝ) ^ 2 := by simp only [wave]; ring
  simp only [w1, w2, navierStiff, hx, hy] at h
  set k := π ^ 2 / p.b ^ 2
  set P := (i : ℝ) ^ 2 / 4
  set Q := (j : ℝ) ^ 2
  change d * (k * P) ^ 2 + 2 * (c + 2 * g) * (k * P * (k * Q)) + d * (k * Q) ^ 2 ≤ l * -(-1 * (k * P) + 0 * (k * Q)) at h
  set H := c + 2 * g
  have hz : k * (d * (P - 1) ^ 2 + d * ((Q - 1) * (Q + 1)) + 2 * H * (P * (Q - 1))) + k * (2 * (d + H)) * P ≤ l * P := by
    refine le_of_mul_le_mul_left ?_ hk
    nlinarith
  have hnn : 0 ≤ d * (P - 1) ^ 2 + d * ((Q - 1) * (Q + 1)) + 2 * H * (P * (Q - 1)) := by
    have a2 := mul_nonneg (by linarith : 0 ≤ Q - 1) (by linarith : 0 ≤ Q + 1)
    have a3 := mul_nonneg hP.le (by linarith : 0 ≤ Q - 1)
    positivity
  refine le_of_mul_le_mul_right ?_ hP
  nlinarith [mul_nonneg hk.le hnn]

/-- What bends and twists in a pattern of square half waves. -/
def Spec.squareStiff (D : M3) : ℝ := D 0 0 + D 1 1 + 2 * (D 0 1 + 2 * D 2 2)

/-- **C103** pinned panels twice as long as wide, compressed along the length, tables as shipped: there is a least positive multiplier, and it
is at most ten over the squared width times the stiffness against square half waves, up to the accuracy of the tables. -/
theorem C103_design (D : M3) (mu M : ℝ) (hD : Between D mu M) (hH : 0 ≤ D 0 1 + 2 * D 2 2) (p : PlateNum) (hb : 0 < p.b)
    (hab : p.a = 2 * p.b) (hm : 4 ≤ p.m) (hn : 3 ≤ p.n) (hx : p.Nxx = -1) (hy : p.Nyy = 0) (hxy : p.Nxy = 0) (hcond : bendErr p mu M < 1)
    (K KG : SqMat (p.m * p.n)) (h : calcKKGD shipped (.ok D) (.str wPINNED) p = .ok (K, KG)) :
    ∃ lam0, PosMult K KG lam0 ∧ (∀ lam, PosMult K KG lam → lam0 ≤ lam) ∧
      (1 - tableAcc p.m p.n) * lam0 ≤ (1 + bendErr p mu M) * (10 / p.b ^ 2 * squareStiff D) := by
  have ha : 0 < p.a := by rw [hab]; linarith
  obtain ⟨e, he, hh⟩ : ∃ e, chooseEdges (.str wPINNED) = .ok e ∧ EdgesHeld e := ⟨_, rfl, by decide, by decide, by decide, by decide⟩
  obtain ⟨s, hs⟩ := (C40_accepted_iff (.str wPINNED) p.m p.n).mpr ⟨_, he⟩
  obtain ⟨Ke, KGe, hKe, -⟩ := C49_energy D hD.symm (.str wPINNED) p s hs ha.ne' hb.ne'
  obtain ⟨nu, hle, hnu⟩ := C103_two D hD.posDef p ha hb hm hn (by rw [hx, hy]; simp; positivity) Ke KGe hKe
  obtain ⟨l, hl, hle'⟩ := (C100_multipliers D mu M hD (.str wPINNED) p ha hb (by omega) (by omega) e he hh (by rw [hx]; norm_num)
    (by rw [hy]) hxy hcond K KG h Ke KGe hKe).2 nu hnu
  have hpd := C100_posDef D mu M hD (.str wPINNED) p ha hb (by omega) (by omega) e he hh hcond K KG h
  obtain ⟨lam0, hl0, hmin⟩ := exists_min_posMult hpd (C48_symmetric _ _ p (by omega) (by omega) K KG h).2 ⟨l, hl⟩
  refine ⟨lam0, hl0, hmin, ?_⟩
  have hacc : tableAcc p.m p.n < 1 := by unfold tableAcc; split_ifs <;> norm_num
  have herr : 0 ≤ bendErr p mu M := by
    have := hD.M_nonneg
    have := hD.pos
    have := tableAcc_pos p.m p.n
    unfold bendErr; positivity
  have hR : rayleighTwo D p.a p.b (-p.Nxx) (-p.Nyy) ≤ 10 / p.b ^ 2 * squareStiff D := by
    have d0 : 0 < D 0 0 := hD.posDef.diag_pos
    have d1 : 0 < D 1 1 := hD.posDef.diag_pos
    have e1 : rayleighTwo D p.a p.b (-p.Nxx) (-p.Nyy) = (10 * D 0 0 + 612 / 31 * (D 0 1 + 2 * D 2 2) + 3360 / 341 * D 1 1) / p.b ^ 2 := by
      rw [rayleighTwo, hab, hx, hy]
      field_simp
      ring
    rw [e1, div_le_iff₀ (by positivity), show 10 / p.b ^ 2 * squareStiff D * p.b ^ 2 = 10 * squareStiff D by field_simp]
    unfold squareStiff
    linarith
  calc (1 - tableAcc p.m p.n) * lam0 ≤ (1 - tableAcc p.m p.n) * l := mul_le_mul_of_nonneg_left (hmin l hl) (by linarith)
    _ ≤ (1 + bendErr p mu M) * nu := hle'
    _ ≤ _ := mul_le_mul_of_nonneg_left (hle.trans hR) (by linarith)

/-- **C103** the same panels with equal bending in both directions and no coupling: the multipliers are at least `π²` over the squared width
times the stiffness against square half waves, up to the accuracy of the tables. -/
theorem C103_even (d c g : ℝ) (mu M : ℝ) (hD : Between (evenD d c g) mu M) (hH : 0 ≤ c + 2 * g) (p : PlateNum) (hb : 0 < p.b)
    (hab : p.a = 2 * p.b) (hm : 1 ≤ p.m) (hn : 1 ≤ p.n) (hx : p.Nxx = -1) (hy : p.Nyy = 0) (hxy : p.Nxy = 0) (hcond : bendErr p mu M < 1)
    (K KG : SqMat (p.m * p.n)) (h : calcKKGD shipped (.ok (evenD d c g)) (.str wPINNED) p = .ok (K, KG)) (lam : ℝ) (hl : PosMult K KG lam) :
    (1 - bendErr p mu M) * (π ^ 2 / p.b ^ 2 * squareStiff (evenD d c g)) ≤ (1 + tableAcc p.m p.n) * lam := by
  have ha : 0 < p.a := by rw [hab]; linarith
  have d0 : 0 < evenD d c g 0 0 := hD.posDef.diag_pos
  change 0 < d at d0
  have hnt : NoTwist (evenD d c g) := ⟨hD.posDef.posSemidef, rfl, rfl⟩
  have := double_one d0.le hH hb hab hx hy _ (C100_bounds _ _ mu M hD hnt (by rw [sub_self]; exact Matrix.PosSemidef.zero) (.str wPINNED) p ha hb
    hm hn _ rfl ⟨by decide, by decide, by decide, by decide⟩ (by rw [hx]; norm_num) (by rw [hy]) hxy hcond K KG h lam hl).1
  have hB : 0 < 1 - bendErr p mu M := by linarith
  have this := mul_le_mul_of_nonneg_left this hB.le
  rw [← mul_assoc (1 - bendErr p mu M) (_ / _) lam, mul_div_cancel₀ _ hB.ne'] at this
  have e : squareStiff (evenD d c g) = 2 * (d + (c + 2 * g)) := by
    show d + d + 2 * (c + 2 * g) = _
    ring
  rw [e]
  linarith

/-! ## The panel of the optimisers -/

/-- A solver that keeps the contract of `eigsh`, returns the pairs in Cayley order, and answers whenever it can. -/
def Spec.GoodSolver (S : EigSolver) : Prop :=
  ∀ (N : ℕ) (A M : SqMat N), A.IsSymm → M.PosDef →
    Honest S A M ∧ (∀ k out, S N A M k = .ok out → CayleySorted out) ∧ ∀ k ≤ N, ∃ out, S N A M k = .ok out

theorem panelD_eq (g : Panel) (U : Invariants) (hU : (panelMat g).invariants = .ok U) (T x1 x3 : ℝ) :
    panelD g T x1 x3 = .ok (lpStiffness (T ^ 3 / 12) U ![x1, 0, x3, 0]) := by
  obtain ⟨l, hl⟩ : ∃ l, Lam.init (.dict ⟨none, none, some (.vec [x1, 0, x3, 0]), some (.num T)⟩) (.single (panelMat g)) = .ok l := ⟨_, rfl⟩
  rw [panelD, hl]
  exact (C26_lp_matrices _ _ l hl U hU T rfl).2.2.2 ![x1, 0, x3, 0] rfl

/-- The stiffness of a design. -/
theorem design_entries (k : ℝ) (U : Invariants) (x1 x3 : ℝ) : let D := lpStiffness k U ![x1, 0, x3, 0]
    D.IsSymm ∧ D 0 0 = k * (U.U1 + U.U2 * x1 + U.U3 * x3) ∧ D 1 1 = k * (U.U1 - U.U2 * x1 + U.U3 * x3) ∧ D 0 1 = k * (U.U4 - U.U3 * x3) ∧
      D 2 2 = k * (U.U5 - U.U3 * x3) ∧ D 0 2 = 0 ∧ D 1 2 = 0 := by
  intro D
  refine ⟨?_, rfl, rfl, rfl, rfl, ?_, ?_⟩
  · ext i j
    fin_cases i <;> fin_cases j <;> rfl
  · show k * (U.U2 / 2 * 0 + U.U3 * 0) = 0
    ring
  · show k * (U.U2 / 2 * 0 - U.U3 * 0) = 0
    ring

theorem design_between {k : ℝ} {U : Invariants} {x1 x3 mu M : ℝ} (hk : 0 < k) (hmu : 0 < mu)
    (h0 : mu + |U.U4 - U.U3 * x3| ≤ U.U1 + U.U2 * x1 + U.U3 * x3) (h1 : mu + |U.U4 - U.U3 * x3| ≤ U.U1 - U.U2 * x1 + U.U3 * x3)
    (h2 : mu ≤ U.U5 - U.U3 * x3) (m0 : U.U1 + U.U2 * x1 + U.U3 * x3 ≤ M) (m1 : U.U1 - U.U2 * x1 + U.U3 * x3 ≤ M)
    (m2 : U.U5 - U.U3 * x3 ≤ M) : Between (lpStiffness k U ![x1, 0, x3, 0]) (k * mu) (k * M) := by
  obtain ⟨hs, e00, e11, e01, e22, e02, e12⟩ := design_entries k U x1 x3
  set D := lpStiffness k U ![x1, 0, x3, 0]
  have hc : |D 0 1| = k * |U.U4 - U.U3 * x3| := by rw [e01, abs_mul, abs_of_pos hk]
  have a := abs_nonneg (U.U4 - U.U3 * x3)
  have n0 := mul_le_mul_of_nonneg_left h0 hk.le
  have n1 := mul_le_mul_of_nonneg_left h1 hk.le
  have n2 := mul_le_mul_of_nonneg_left h2 hk.le
  have M0 := mul_le_mul_of_nonneg_left m0 hk.le
  have M1 := mul_le_mul_of_nonneg_left m1 hk.le
  have M2 := mul_le_mul_of_nonneg_left m2 hk.le
  have kmu : 0 < k * mu := mul_pos hk hmu
  have ka : 0 ≤ k * |U.U4 - U.U3 * x3| := mul_nonneg hk.le a
  refine ⟨hs, ?_, kmu, fun i j => ?_⟩
  · rw [smul_one_even]
    refine dominates_even hs ?_ ?_ ?_
    · rw [sub_zero, hc, e02, e00, abs_zero]; linarith
    · rw [sub_zero, hc, e12, e11, abs_zero]; linarith
    · rw [e02, e12, e22, abs_zero]; linarith
  · have s10 : D 1 0 = D 0 1 := hs.apply 0 1
    have s20 : D 2 0 = D 0 2 := hs.apply 0 2
    have s21 : D 2 1 = D 1 2 := hs.apply 1 2
    have a0 : |D 0 0| ≤ k * M := by rw [e00]; exact abs_le.mpr ⟨by linarith, M0⟩
    have a1 : |D 1 1| ≤ k * M := by rw [e11]; exact abs_le.mpr ⟨by linarith, M1⟩
    have a2 : |D 2 2| ≤ k * M := by rw [e22]; exact abs_le.mpr ⟨by linarith, M2⟩
    have b2 : |D 0 1| ≤ k * M := by rw [hc]; linarith
    have z0 : |D 0 2| ≤ k * M := by rw [e02, abs_zero]; linarith
    have z1 : |D 1 2| ≤ k * M := by rw [e12, abs_zero]; linarith
    fin_cases i <;> fin_cases j
    · exact a0
    · exact b2
    · exact z0
    · exact (congrArg abs s10).le.trans b2
    · exact a1
    · exact z1
    · exact (congrArg abs s20).le.trans z0
    · exact (congrArg abs s21).le.trans z1
    · exact a2

/-- What the optimisers get for a design: the first value `buckling_analysis` reports, the solver being asked about a definite pencil. -/
theorem panel_first (S : EigSolver) (hS : GoodSolver S) (g : Panel) (hg : PanelOk g) (hc : g.c = .str wPINNED) (ha : 0 < g.a) (hb : 0 < g.b)
    (hm : g.m ≤ 26) (hn : g.n ≤ 26) (h2 : 2 < g.m * g.n) (T x1 x3 x y s : ℝ) (D : M3) (hD : panelD g T x1 x3 = .ok D) (mu M : ℝ)
    (hbt : Between D mu M) (hcond : bendErr (panelPlate g x y s) mu M < 1) :
    ∃ K KG vals vecs e, calcKKGD shipped (.ok D) (.str wPINNED) (panelPlate g x y s) = .ok (K, KG) ∧ K.PosDef ∧ KG.IsSymm ∧
      Honest S KG K ∧ (∀ k out, S _ KG K k = .ok out → CayleySorted out) ∧
      (bucklingAnalysis S (.ok D) (.str wPINNED) (panelPlate g x y s) 5 (.fresh _)).1 = .ok (vals, vecs) ∧
      vals[0]? = some e ∧ ncrFromLp S g T x1 x3 x y s = .ok e := by
  have hm1 : 1 ≤ (panelPlate g x y s).m := hg.2.2.2.2.2.2.1
  have hn1 : 1 ≤ (panelPlate g x y s).n := hg.2.2.2.2.2.2.2
  obtain ⟨K, KG, hK, -, hr⟩ := (((C93_outcome S (.ok D) (.str wPINNED) (panelPlate g x y s) hm1 hn1 5
    (PlateState.fresh _)).2 D rfl).2 _ rfl).2.2 ha.ne' hb.ne' (by
      show g.m + _ ≤ 30
      refine (Nat.add_le_add hm (?_ : _ ≤ 4)).trans (le_refl 30)
      decide) (by
      show g.n + _ ≤ 30
      refine (Nat.add_le_add hn (?_ : _ ≤ 4)).trans (le_refl 30)
      decide)
  have hpd := C100_posDef D mu M hbt (.str wPINNED) (panelPlate g x y s) ha hb hm1 hn1 _ rfl ⟨by decide, by decide, by decide, by decide⟩
    hcond K KG hK
  have hsy := (C48_symmetric _ _ (panelPlate g x y s) hm1 hn1 K KG hK).2
  obtain ⟨s1, s2, s3⟩ := hS _ KG K hsy hpd
  have hrun := hr (by norm_num) h2
  set k := (min 5 (((g.m * g.n : ℕ) : ℤ) - 2)).toNat with hk
  have hk1 : 1 ≤ k := by omega
  have hkN : k ≤ g.m * g.n := by omega
  obtain ⟨out, ho⟩ := s3 k hkN
  have hrun' : (bucklingAnalysis S (.ok D) (.str wPINNED) (panelPlate g x y s) 5 (.fresh _)).1
      = (S _ KG K k).map fun out => (out.map fun q => npDiv (-1) q.1, out.map Prod.snd) := by
    rw [hrun, hk]
    push_cast
    rfl
  rw [ho] at hrun'
  have hlen := (s1 _ _ ho).len
  cases hout : out with
  | nil => rw [hout] at hlen; simp at hlen; omega
  | cons q rest =>
    rw [hout] at hrun'
    refine ⟨K, KG, _, _, npDiv (-1) q.1, hK, hpd, hsy, s1, s2, hrun', rfl, ?_⟩
    rw [ncr_eq S g hg, hD, hc, hrun']
    rfl

theorem lpStiffness_even (k : ℝ) (U : Invariants) : lpStiffness k U ![0, 0, -1, 0]
    = evenD (k * (U.U1 - U.U3)) (k * (U.U4 + U.U3)) (k * (U.U5 + U.U3)) := by
  ext i j
  fin_cases i <;> fin_cases j <;> simp [lpStiffness, invariantQ, evenD, sub_eq_add_neg]

/-- **C103** pinned panels twice as long as wide, compressed along the length, of a material with `U3 ≥ 0`: no design carries more than 1.4
percent more than `xi1 = 0`, `xi3 = -1` (plies at plus and minus 45 degrees), up to the accuracy of the tables. -/
theorem C103_best (g : Panel) (hb : 0 < g.b) (hab : g.a = 2 * g.b) (hm : 4 ≤ g.m) (hn : 3 ≤ g.n) (U : Invariants)
    (hU : (panelMat g).invariants = .ok U) (hU3 : 0 ≤ U.U3) (T : ℝ) (hT : 0 < T) (x1 x3 : ℝ) (h3 : -1 ≤ x3) (D D' : M3)
    (hD : panelD g T x1 x3 = .ok D) (hD' : panelD g T 0 (-1) = .ok D') (mu M : ℝ) (hbt : Between D mu M) (hbt' : Between D' mu M)
    (hH : 0 ≤ D 0 1 + 2 * D 2 2) (hcond : bendErr (panelPlate g (-1) 0 0) mu M < 1) (K KG K' KG' : SqMat (g.m * g.n))
    (h : calcKKGD shipped (.ok D) (.str wPINNED) (panelPlate g (-1) 0 0) = .ok (K, KG))
    (h' : calcKKGD shipped (.ok D') (.str wPINNED) (panelPlate g (-1) 0 0) = .ok (K', KG'))
    (lam lam' : ℝ) (hl : IsLeast {l | PosMult K KG l} lam) (hl' : PosMult K' KG' lam') :
    (1 - tableAcc g.m g.n) * (1 - bendErr (panelPlate g (-1) 0 0) mu M) * lam
      ≤ 1.014 * ((1 + tableAcc g.m g.n) * (1 + bendErr (panelPlate g (-1) 0 0) mu M)) * lam' := by
  rw [panelD_eq g U hU] at hD hD'
  obtain rfl := Except.ok.inj hD
  rw [lpStiffness_even] at hD'
  obtain rfl := Except.ok.inj hD'
  obtain ⟨hs, e00, e11, e01, e22, -, -⟩ := design_entries (T ^ 3 / 12) U x1 x3
  have hk : 0 < T ^ 3 / 12 := by positivity
  have hmono : squareStiff (lpStiffness (T ^ 3 / 12) U ![x1, 0, x3, 0]) ≤ squareStiff (evenD (T ^ 3 / 12 * (U.U1 - U.U3))
      (T ^ 3 / 12 * (U.U4 + U.U3)) (T ^ 3 / 12 * (U.U5 + U.U3))) := by
    rw [squareStiff, e00, e11, e01, e22]
    change _ ≤ T ^ 3 / 12 * (U.U1 - U.U3) + T ^ 3 / 12 * (U.U1 - U.U3) + 2 * (T ^ 3 / 12 * (U.U4 + U.U3) + 2 * (T ^ 3 / 12 * (U.U5 + U.U3)))
    have := mul_nonneg hk.le (mul_nonneg hU3 (by linarith : 0 ≤ x3 + 1))
    linarith
  have hHe : 0 ≤ T ^ 3 / 12 * (U.U4 + U.U3) + 2 * (T ^ 3 / 12 * (U.U5 + U.U3)) := by
    rw [e01, e22] at hH
    have := mul_nonneg hk.le (mul_nonneg hU3 (by linarith : 0 ≤ x3 + 1))
    linarith
  set D := lpStiffness (T ^ 3 / 12) U ![x1, 0, x3, 0]
  obtain ⟨lam0, hl0, hmin, hup⟩ := C103_design D mu M hbt hH (panelPlate g (-1) 0 0) hb hab hm hn rfl rfl rfl hcond K KG h
  have hlow := C103_even _ _ _ mu M hbt' hHe (panelPlate g (-1) 0 0) hb hab (show 1 ≤ g.m by omega) (show 1 ≤ g.n by omega) rfl rfl rfl
    hcond K' KG' h' lam' hl'
  obtain rfl : lam = lam0 := le_antisymm (hl.2 hl0) (hmin lam hl.1)
  set E := squareStiff (evenD (T ^ 3 / 12 * (U.U1 - U.U3)) (T ^ 3 / 12 * (U.U4 + U.U3)) (T ^ 3 / 12 * (U.U5 + U.U3)))
  set r := bendErr (panelPlate g (-1) 0 0) mu M
  change (1 - tableAcc g.m g.n) * lam ≤ (1 + r) * (10 / g.b ^ 2 * squareStiff D) at hup
  change (1 - r) * (π ^ 2 / g.b ^ 2 * E) ≤ (1 + tableAcc g.m g.n) * lam' at hlow
  have hr : 0 ≤ r := by
    have := hbt.M_nonneg
    have := hbt.pos
    have := tableAcc_pos (panelPlate g (-1) 0 0).m (panelPlate g (-1) 0 0).n
    simp only [r, bendErr]
    positivity
  obtain ⟨q1, q2⟩ := pi_sq_bounds
  have hbb : 0 < 1 / g.b ^ 2 := by positivity
  have hE : 0 ≤ E := by
    have d0 : 0 < T ^ 3 / 12 * (U.U1 - U.U3) := by
      have : 0 < evenD (T ^ 3 / 12 * (U.U1 - U.U3)) (T ^ 3 / 12 * (U.U4 + U.U3)) (T ^ 3 / 12 * (U.U5 + U.U3)) 0 0 := hbt'.posDef.diag_pos
      exact this
    show 0 ≤ T ^ 3 / 12 * (U.U1 - U.U3) + T ^ 3 / 12 * (U.U1 - U.U3) + 2 * (T ^ 3 / 12 * (U.U4 + U.U3) + 2 * (T ^ 3 / 12 * (U.U5 + U.U3)))
    linarith
  have hmid : 10 / g.b ^ 2 * squareStiff D ≤ 1.014 * (π ^ 2 / g.b ^ 2 * E) := by
    calc 10 / g.b ^ 2 * squareStiff D = 10 * (1 / g.b ^ 2 * squareStiff D) := by ring
      _ ≤ 10 * (1 / g.b ^ 2 * E) := by
        have := mul_le_mul_of_nonneg_left hmono hbb.le
        linarith
      _ ≤ 1.014 * π ^ 2 * (1 / g.b ^ 2 * E) := mul_le_mul_of_nonneg_right (by norm_num at q1 ⊢; linarith) (mul_nonneg hbb.le hE)
      _ = _ := by ring
  have h1r : 0 ≤ 1 - r := by linarith
  calc (1 - tableAcc g.m g.n) * (1 - r) * lam = (1 - r) * ((1 - tableAcc g.m g.n) * lam) := by ring
    _ ≤ (1 - r) * ((1 + r) * (1.014 * (π ^ 2 / g.b ^ 2 * E))) :=
      mul_le_mul_of_nonneg_left (hup.trans (mul_le_mul_of_nonneg_left hmid (by linarith))) h1r
    _ = 1.014 * (1 + r) * ((1 - r) * (π ^ 2 / g.b ^ 2 * E)) := by ring
    _ ≤ 1.014 * (1 + r) * ((1 + tableAcc g.m g.n) * lam') := mul_le_mul_of_nonneg_left hlow (by norm_num; linarith)
    _ = _ := by ring

/-! ## `tests/optimization_test/maximize_buckling_load_test.py` -/

/-- `numpy.isclose(x, r, rtol, atol)` -/
def Spec.NpClose (rtol atol x r : ℝ) : Prop := |x - r| ≤ atol + rtol * |r|

/-- The panel of the test. -/
noncomputable def maxPanel : Panel := ⟨508, 254, 128e3, 13e3, 0.3, 6.4e3, 7, 7, .str wPINNED⟩

/-- The invariants of its material. -/
noncomputable def maxU : Invariants :=
  ⟨729865600 / 12683, 736000000 / 12683, 172534400 / 12683, 222454400 / 12683, 253705600 / 12683⟩

theorem maxU_eq : (panelMat maxPanel).invariants = .ok maxU := by
  show (do let Q ← OrthoMat.Q0 _; return invariantsOf Q) = Except.ok maxU
  rw [OrthoMat.Q0_of_ne _ (by norm_num [OrthoMat.v21, maxPanel])]
  rw [ok_bind, pure_eq_ok]
  congr 1
  simp only [invariantsOf, maxU, OrthoMat.v21, maxPanel, Matrix.of_apply, Matrix.cons_val]
  norm_num

/-- A design within the bounds and constraints of the test has a stiffness that is far from singular. -/
theorem max_between {x1 x3 : ℝ} (b3 : -1 ≤ x3) (b3' : x3 ≤ 1) (g1 : -0.0001 ≤ x3 + 2 * x1 + 1) (g2 : -0.0001 ≤ x3 - 2 * x1 + 1) :
    Between (lpStiffness (3.048 ^ 3 / 12) maxU ![x1, 0, x3, 0]) (3.048 ^ 3 / 12 * 5000) (3.048 ^ 3 / 12 * 140000) := by
  have hc : |maxU.U4 - maxU.U3 * x3| = maxU.U4 - maxU.U3 * x3 := by
    rw [abs_of_nonneg]
    simp only [maxU]
    linarith
  refine design_between (by norm_num) (by norm_num) ?_ ?_ ?_ ?_ ?_ ?_
  · rw [hc]; simp only [maxU]; linarith
  · rw [hc]; simp only [maxU]; linarith
  · simp only [maxU]; linarith
  · simp only [maxU]; linarith
  · simp only [maxU]; linarith
  · simp only [maxU]; linarith

/-- What the objective is at such a design. -/
theorem max_value (S : EigSolver) (hS : GoodSolver S) {x1 x3 : ℝ} (b3 : -1 ≤ x3) (b3' : x3 ≤ 1) (g1 : -0.0001 ≤ x3 + 2 * x1 + 1)
    (g2 : -0.0001 ≤ x3 - 2 * x1 + 1) :
    ∃ lam, ncrFromLp S maxPanel 3.048 x1 x3 (-1) 0 0 = .ok (.fin lam) ∧ 1 ≤ lam ∧
      0.99999 * lam ≤ 10 / 254 ^ 2 * (3.048 ^ 3 / 12 * (2 * maxU.U1 + 2 * maxU.U4 + 4 * maxU.U5 - 4 * maxU.U3 * x3)) ∧
      (x1 = 0 → x3 = -1 → π ^ 2 / 254 ^ 2 * (3.048 ^ 3 / 12 * (2 * maxU.U1 + 2 * maxU.U4 + 4 * maxU.U5 + 4 * maxU.U3)) ≤ 1.00001 * lam) ∧
      ∃ K KG, calcKKGD shipped (panelD maxPanel 3.048 x1 x3) maxPanel.c (panelPlate maxPanel (-1) 0 0) = .ok (K, KG) ∧ K.PosDef ∧
        IsLeast {l | PosMult K KG l} lam := by
  have hbt := max_between b3 b3' g1 g2
  obtain ⟨hs, e00, e11, e01, e22, -, -⟩ := design_entries (3.048 ^ 3 / 12) maxU x1 x3
  have hD := panelD_eq maxPanel maxU maxU_eq 3.048 x1 x3
  have hok : PanelOk maxPanel := by norm_num [PanelOk, maxPanel, abs_le]
  have hacc : tableAcc 7 7 = 3e-9 := by simp [tableAcc]
  have herr : bendErr (panelPlate maxPanel (-1) 0 0) (3.048 ^ 3 / 12 * 5000) (3.048 ^ 3 / 12 * 140000) = 2.52e-7 := by
    rw [bendErr, show tableAcc (panelPlate maxPanel (-1) 0 0).m (panelPlate maxPanel (-1) 0 0).n = 3e-9 from hacc]
    norm_num
  obtain ⟨K, KG, vals, vecs, e, hK, hpd, hsy, ho, hso, hrun, he, hn⟩ := panel_first S hS maxPanel hok rfl (by norm_num [maxPanel])
    (by norm_num [maxPanel]) (by norm_num [maxPanel]) (by norm_num [maxPanel]) (by norm_num [maxPanel]) 3.048 x1 x3 (-1) 0 0 _ hD _ _ hbt
    (by rw [herr]; norm_num)
  have hp := hbt.pos
  have hab : (panelPlate maxPanel (-1) 0 0).a = 2 * (panelPlate maxPanel (-1) 0 0).b := by norm_num [panelPlate, maxPanel]
  have hb0 : 0 < (panelPlate maxPanel (-1) 0 0).b := by norm_num [panelPlate, maxPanel]
  obtain ⟨lam0, hl0, hmin, hup⟩ := C103_design _ _ _ hbt (by rw [e01, e22]; simp only [maxU]; linarith) (panelPlate maxPanel (-1) 0 0) hb0 hab
    (by norm_num [panelPlate, maxPanel]) (by norm_num [panelPlate, maxPanel]) rfl rfl rfl (by rw [herr]; norm_num) K KG hK
  obtain ⟨q1, q2⟩ := pi_sq_bounds
  have h1 : 1 ≤ lam0 := by
    have hid : NoTwist (evenD (3.048 ^ 3 / 12 * 5000) 0 (3.048 ^ 3 / 12 * 5000)) := evenD_noTwist le_rfl (by norm_num) (by norm_num)
    have hlow := hbt.low
    rw [smul_one_even] at hlow
    have := double_one (by norm_num) (by norm_num) hb0 hab rfl rfl _ (C100_bounds _ _ _ _ hbt hid hlow (.str wPINNED) (panelPlate maxPanel (-1) 0 0)
      (by norm_num [panelPlate, maxPanel]) hb0 (by norm_num [panelPlate, maxPanel]) (by norm_num [panelPlate, maxPanel]) _ rfl
      ⟨by decide, by decide, by decide, by decide⟩ (by norm_num [panelPlate]) (by norm_num [panelPlate]) rfl (by rw [herr]; norm_num) K KG hK lam0
      hl0).1
    rw [herr, show tableAcc (panelPlate maxPanel (-1) 0 0).m (panelPlate maxPanel (-1) 0 0).n = 3e-9 from hacc,
      show (panelPlate maxPanel (-1) 0 0).b = 254 from rfl] at this
    norm_num at this
    linarith
  have hhead := head_critical hrun hK ho hso hl0 hmin h1
  rw [he] at hhead
  obtain rfl := Option.some.inj hhead
  refine ⟨lam0, hn, h1, ?_, ?_, K, KG, by rw [hD]; exact hK, hpd, hl0, fun l hl => hmin l hl⟩
  · rw [herr, show tableAcc (panelPlate maxPanel (-1) 0 0).m (panelPlate maxPanel (-1) 0 0).n = 3e-9 from hacc,
      show (panelPlate maxPanel (-1) 0 0).b = 254 from rfl, squareStiff, e00, e11, e01, e22] at hup
    simp only [maxU] at hup ⊢
    norm_num at hup ⊢
    linarith
  · rintro rfl rfl
    rw [lpStiffness_even] at hbt hK
    have := C103_even _ _ _ _ _ hbt (by norm_num [maxU]) (panelPlate maxPanel (-1) 0 0) hb0 hab (by norm_num [panelPlate, maxPanel])
      (by norm_num [panelPlate, maxPanel]) rfl rfl rfl (by rw [herr]; norm_num) K KG hK lam0 hl0
    rw [herr, show tableAcc (panelPlate maxPanel (-1) 0 0).m (panelPlate maxPanel (-1) 0 0).n = 3e-9 from hacc,
      show (panelPlate maxPanel (-1) 0 0).b = 254 from rfl] at this
    change (1 - 2.52e-7) * (π ^ 2 / 254 ^ 2 * (3.048 ^ 3 / 12 * (maxU.U1 - maxU.U3) + 3.048 ^ 3 / 12 * (maxU.U1 - maxU.U3)
      + 2 * (3.048 ^ 3 / 12 * (maxU.U4 + maxU.U3) + 2 * (3.048 ^ 3 / 12 * (maxU.U5 + maxU.U3))))) ≤ _ at this
    simp only [maxU] at this ⊢
    norm_num at this ⊢
    linarith

/-- **C103** `tests/optimization_test/maximize_buckling_load_test.py`: the problem given to `minimize` has values at the feasible designs, and
a design with the least objective among them is close to the reference in the sense of the test, and so is its objective. -/
theorem C103_test_maximize (S : EigSolver) (hS : GoodSolver S) :
    ∃ prob, (maximizeBucklingLoad S maxPanel 3.048 (-1) 0 0).2 = .ok prob ∧
    (∀ x1 x3, InBounds prob.bounds [x1, x3] → (∀ c ∈ prob.cons, Satisfied c [x1, x3]) → ∃ o, prob.obj [x1, x3] = .ok (.fin o)) ∧
    ∀ x1 x3 o, InBounds prob.bounds [x1, x3] → (∀ c ∈ prob.cons, Satisfied c [x1, x3]) → prob.obj [x1, x3] = .ok (.fin o) →
      (∀ y1 y3 o', InBounds prob.bounds [y1, y3] → (∀ c ∈ prob.cons, Satisfied c [y1, y3]) → prob.obj [y1, y3] = .ok (.fin o') → o ≤ o') →
      NpClose 0.1 0.1 x1 5e-5 ∧ NpClose 0.1 0.1 x3 (-1) ∧ NpClose 0.1 0.1 o (-102.73893) := by
  have hnorm : normalizeCriticalLoad (-1) 0 0 = .ok (-1, 0, 0, 1) := by
    have := normalize_eq (-1) 0 0 (by norm_num)
    norm_num at this
    exact this
  obtain ⟨prob, hp⟩ : ∃ prob, (maximizeBucklingLoad S maxPanel 3.048 (-1) 0 0).2 = .ok prob := by
    simp only [maximizeBucklingLoad, hnorm, ok_bind, pure_eq_ok]
    exact ⟨_, rfl⟩
  have hobj : ∀ x1 x3 lam, ncrFromLp S maxPanel 3.048 x1 x3 (-1) 0 0 = .ok (.fin lam) → prob.obj [x1, x3] = .ok (.fin (-lam)) := by
    intro x1 x3 lam h
    obtain ⟨x, y, s, M, hn, h1, -, -⟩ := C59_objective S maxPanel 3.048 (-1) 0 0 true prob hp x1 x3
    rw [hnorm] at hn
    obtain ⟨rfl, rfl, rfl, rfl⟩ : x = -1 ∧ y = 0 ∧ s = 0 ∧ M = 1 := by
      have := Except.ok.inj hn
      simp only [Prod.mk.injEq] at this
      exact ⟨this.1.symm, this.2.1.symm, this.2.2.1.symm, this.2.2.2.symm⟩
    exact h1 lam h
  have hbounds : prob.bounds = [(-1, 1), (-1, 1)] := by
    simp only [maximizeBucklingLoad, hnorm, ok_bind, pure_eq_ok, Except.ok.injEq] at hp
    rw [← hp]
  have hfeas : ∀ x1 x3, InBounds prob.bounds [x1, x3] → ((∀ c ∈ prob.cons, Satisfied c [x1, x3]) ↔
      -0.0001 ≤ x3 + 2 * x1 + 1 ∧ -0.0001 ≤ x3 - 2 * x1 + 1) := fun x1 x3 hb => by
    have := C59_feasible_set S maxPanel 3.048 (-1) 0 0 true prob hp x1 x3 hb
    simpa using this
  have hin : ∀ x1 x3 : ℝ, InBounds prob.bounds [x1, x3] ↔ (-1 ≤ x1 ∧ x1 ≤ 1) ∧ -1 ≤ x3 ∧ x3 ≤ 1 := fun x1 x3 => by
    rw [hbounds]
    simp [InBounds]
  refine ⟨prob, hp, fun x1 x3 hb hc => ?_, fun x1 x3 o hb hc ho hmin => ?_⟩
  · obtain ⟨g1, g2⟩ := (hfeas x1 x3 hb).mp hc
    obtain ⟨-, b3, b3'⟩ := (hin x1 x3).mp hb
    obtain ⟨lam, hl, -⟩ := max_value S hS b3 b3' g1 g2
    exact ⟨_, hobj _ _ _ hl⟩
  · obtain ⟨g1, g2⟩ := (hfeas x1 x3 hb).mp hc
    obtain ⟨-, b3, b3'⟩ := (hin x1 x3).mp hb
    obtain ⟨lam, hl, -, hup, -⟩ := max_value S hS b3 b3' g1 g2
    obtain ⟨lam', hl', -, -, hlow, -⟩ := max_value S hS (x1 := 0) (x3 := -1) le_rfl (by norm_num) (by norm_num) (by norm_num)
    have hlow := hlow rfl rfl
    have hbo : InBounds prob.bounds [0, -1] := (hin _ _).mpr (by norm_num)
    have hle := hmin 0 (-1) _ hbo ((hfeas _ _ hbo).mpr (by norm_num)) (hobj _ _ _ hl')
    have hol : o = -lam := by
      have := (hobj _ _ _ hl).symm.trans ho
      exact (XF.fin.inj (Except.ok.inj this)).symm
    obtain ⟨q1, q2⟩ := pi_sq_bounds
    simp only [maxU] at hup hlow
    norm_num at hup hlow q1 q2
    unfold NpClose
    have h3 : x3 ≤ -0.93 := by norm_num; linarith
    have ho1 : 102 ≤ lam := by linarith
    have ho2 : lam ≤ 105 := by linarith
    norm_num at g1 g2 h3
    refine ⟨abs_le.mpr ⟨?_, ?_⟩, abs_le.mpr ⟨?_, ?_⟩, abs_le.mpr ⟨?_, ?_⟩⟩ <;> norm_num <;> linarith

/-! ## `tests/optimization_test/minimize_panel_weight_test.py` -/

/-- A first reported value of at least 1 is at most every positive multiplier above its inverse. -/
theorem head_le {S : EigSolver} {D : Except PyErr M3} {c : Constraints} {p : PlateNum} {numEig : ℤ} {st : PlateState (p.m * p.n)}
    {vals : List PyFloat} {vecs : List (Fin (p.m * p.n) → ℝ)} (h : (bucklingAnalysis S D c p numEig st).1 = .ok (vals, vecs))
    {K KG : SqMat (p.m * p.n)} (hK : calcKKGD shipped D c p = .ok (K, KG)) (hS : Honest S KG K)
    (hsort : ∀ k out, S _ KG K k = .ok out → CayleySorted out) {e lam : ℝ} (he : vals[0]? = some (.fin e)) (h1 : 1 ≤ e)
    (hl : PosMult K KG lam) (hel : 1 < e * lam) : e ≤ lam := by
  obtain ⟨_, K', KG', out, _, hK', _, hout, rfl, -, -⟩ := buckling_inv h
  rw [hK] at hK'
  obtain ⟨rfl, rfl⟩ := Prod.mk.inj (Except.ok.inj hK')
  have hc := hS _ _ hout
  have hso := hsort _ _ hout
  cases out with
  | nil => cases he
  | cons q rest =>
    simp only [List.map_cons, List.getElem?_cons_zero, Option.some.injEq] at he
    have hq : e ≠ 0 ∧ q.1 = -1 / e := by
      obtain ⟨a, q', hq', b⟩ := reported_iff.mp (show XF.fin e ∈ [q].map (fun q => npDiv (-1) q.1) by simp [he])
      simp only [List.mem_singleton] at hq'
      exact ⟨a, by rw [← hq']; exact b⟩
    obtain ⟨hlpos, v, hv⟩ := hl
    obtain ⟨hv0, hp⟩ := (buckles_pencil hlpos.ne').mp hv
    have hkey : |q.1 + 1| * |-1 / lam - 1| ≤ |-1 / lam + 1| * |q.1 - 1| := by
      by_cases hin : ∃ q' ∈ q :: rest, q'.1 = -1 / lam
      · obtain ⟨q', hq', e'⟩ := hin
        rcases List.mem_cons.mp hq' with rfl | hr
        · rw [e', mul_comm]
        · have := (List.pairwise_cons.mp hso).1 q' hr
          rw [e'] at this
          exact this
      · push Not at hin
        exact hc.best _ v hv0 hp hin q List.mem_cons_self
    rw [hq.2] at hkey
    obtain ⟨k1, k2⟩ := cayley_key hlpos.ne'
    obtain ⟨m1, m2⟩ := cayley_key hq.1
    have hb2 : |e - 1| * |lam + 1| ≤ |lam - 1| * |e + 1| := by
      rw [← k1, ← k2, ← m1, ← m2]
      have := mul_le_mul_of_nonneg_right hkey (mul_nonneg (abs_nonneg lam) (abs_nonneg e))
      nlinarith [this]
    rw [abs_of_nonneg (by linarith : 0 ≤ e - 1), abs_of_pos (by linarith : 0 < lam + 1), abs_of_pos (by linarith : 0 < e + 1)] at hb2
    rcases le_total 1 lam with hl1 | hl1
    · rw [abs_of_nonneg (by linarith)] at hb2
      nlinarith
    · rw [abs_of_nonpos (by linarith)] at hb2
      nlinarith

/-- **C103** any loads, tables as shipped: a positive multiplier is above a Navier multiplier of the loads with the shear replaced by
compressions, up to the accuracy of the tables. -/
theorem C103_shear_bound (D D0 : M3) (mu M : ℝ) (hD : Between D mu M) (h0 : NoTwist D0) (hdom : (D - D0).PosSemidef) (cs : Constraints)
    (p : PlateNum) (ha : 0 < p.a) (hb : 0 < p.b) (hm : 1 ≤ p.m) (hn : 1 ≤ p.n) (e : Edges) (he : chooseEdges cs = .ok e) (hh : EdgesHeld e)
    (k : ℝ) (hk : 0 < k) (hx : p.Nxx - k * |p.Nxy| ≤ 0) (hy : p.Nyy - |p.Nxy| / k ≤ 0) (K KG : SqMat (p.m * p.n))
    (h : calcKKGD shipped (.ok D) cs p = .ok (K, KG)) (lam : ℝ) (hl : PosMult K KG lam) (hcond : bendErr p mu M + lam * loadErr p mu < 1) :
    NavierBound D0 ⟨p.a, p.b, p.Nxx - k * |p.Nxy|, p.Nyy - |p.Nxy| / k, 0, p.m, p.n⟩ (lam / (1 - bendErr p mu M - lam * loadErr p mu)) := by
  obtain ⟨s, hs⟩ := (C40_accepted_iff cs p.m p.n).mpr ⟨_, he⟩
  obtain ⟨Ke, KGe, hKe, hen⟩ := C49_energy D hD.symm cs p s hs ha.ne' hb.ne'
  set p' : PlateNum := ⟨p.a, p.b, p.Nxx - k * |p.Nxy|, p.Nyy - |p.Nxy| / k, 0, p.m, p.n⟩ with hp'
  obtain ⟨Ke', KGe', hKe', hen'⟩ := C49_energy D hD.symm cs p' s hs ha.ne' hb.ne'
  have hlo : 0 ≤ lam * loadErr p mu := mul_nonneg hl.1.le (by
    have := hD.pos
    have := tableAcc_pos p.m p.n
    unfold loadErr
    positivity)
  obtain ⟨nu, hnu, hle⟩ := (C100_shear D mu M hD cs p ha hb hm hn e he hh (by linarith) K KG h Ke KGe hKe).1 lam hl hcond
  obtain ⟨nu', hle', hnu'⟩ := C103_shear D hD.posDef cs p ha hb e he hh k hk Ke KGe Ke' KGe' hKe hKe' nu hnu
  have hle2 : nu' ≤ lam / (1 - bendErr p mu M - lam * loadErr p mu) := by
    rw [le_div_iff₀ (by linarith)]
    have := mul_le_mul_of_nonneg_right hle' (by linarith : 0 ≤ 1 - bendErr p mu M - lam * loadErr p mu)
    linarith
  exact navierBound_mono hx hy hle2 (C99_held D D0 hD.posDef h0 hdom cs p' ha hb e he hh rfl Ke' KGe' hKe' nu' hnu')

/-- The panel of the test. -/
noncomputable def wtPanel : Panel := ⟨1181.1, 746.74, 127560, 13030, 0.3, 6410, 7, 7, .str wPINNED⟩

/-- The invariants of its material. -/
noncomputable def wtU : Invariants :=
  ⟨24182839855 / 421291, 1873006000 / 32407, 5706594145 / 421291, 7368700945 / 421291, 8407069455 / 421291⟩

theorem wtU_eq : (panelMat wtPanel).invariants = .ok wtU := by
  show (do let Q ← OrthoMat.Q0 _; return invariantsOf Q) = Except.ok wtU
  rw [OrthoMat.Q0_of_ne _ (by norm_num [OrthoMat.v21, wtPanel])]
  rw [ok_bind, pure_eq_ok]
  congr 1
  simp only [invariantsOf, wtU, OrthoMat.v21, wtPanel, Matrix.of_apply, Matrix.cons_val]
  norm_num

/-- The plate of the test with its normalised loads. -/
noncomputable abbrev wtPlate : PlateNum := panelPlate wtPanel (-1) (-907 / 3100) (59 / 775)

theorem wt_between {k x1 x3 : ℝ} (hk : 0 < k) (b3 : -1 ≤ x3) (b3' : x3 ≤ 1) (g1 : -0.0001 ≤ x3 + 2 * x1 + 1)
    (g2 : -0.0001 ≤ x3 - 2 * x1 + 1) : Between (lpStiffness k wtU ![x1, 0, x3, 0]) (k * 5000) (k * 140000) := by
  have hc : |wtU.U4 - wtU.U3 * x3| = wtU.U4 - wtU.U3 * x3 := by
    rw [abs_of_nonneg]
    simp only [wtU]
    linarith
  refine design_between hk (by norm_num) ?_ ?_ ?_ ?_ ?_ ?_
  · rw [hc]; simp only [wtU]; linarith
  · rw [hc]; simp only [wtU]; linarith
  · simp only [wtU]; linarith
  · simp only [wtU]; linarith
  · simp only [wtU]; linarith
  · simp only [wtU]; linarith

theorem wt_err {k : ℝ} (hk : 0 < k) : bendErr wtPlate (k * 5000) (k * 140000) = 2.52e-7 ∧
    0 ≤ loadErr wtPlate (k * 5000) ∧ loadErr wtPlate (k * 5000) * k ≤ 4e-8 := by
  have hacc : tableAcc wtPlate.m wtPlate.n = 3e-9 := by simp [tableAcc, panelPlate, wtPanel]
  obtain ⟨q1, q2⟩ := pi_sq_bounds
  refine ⟨?_, ?_, ?_⟩
  · rw [bendErr, hacc]
    field_simp
    norm_num
  · rw [loadErr, hacc]
    positivity
  · rw [loadErr, hacc]
    have hM : max |wtPlate.Nxx| (max |wtPlate.Nyy| |wtPlate.Nxy|) = 1 := by norm_num [panelPlate, abs_div]
    rw [hM, show wtPlate.a = 1181.1 from rfl, show wtPlate.b = 746.74 from rfl, div_mul_eq_mul_div, div_le_iff₀ (by positivity)]
    have := mul_le_mul_of_nonneg_right q1 hk.le
    norm_num at this ⊢
    nlinarith

/-- Every design within the constraints: there is a least positive multiplier, at most `3.461` times the cube of the thickness over 12. -/
theorem wt_upper {k x1 x3 : ℝ} (hk : 0 < k) (b3 : -1 ≤ x3) (b3' : x3 ≤ 1) (g1 : -0.0001 ≤ x3 + 2 * x1 + 1) (g2 : -0.0001 ≤ x3 - 2 * x1 + 1)
    (K KG : SqMat (wtPlate.m * wtPlate.n)) (h : calcKKGD shipped (.ok (lpStiffness k wtU ![x1, 0, x3, 0])) (.str wPINNED) wtPlate = .ok (K, KG)) :
    ∃ lam ≤ 3.461 * k, PosMult K KG lam := by
  have hbt := wt_between hk b3 b3' g1 g2
  obtain ⟨e1, e2, e3⟩ := wt_err hk
  obtain ⟨hs, e00, e11, e01, e22, -, -⟩ := design_entries k wtU x1 x3
  have ha : 0 < wtPlate.a := by norm_num [panelPlate, wtPanel]
  have hb : 0 < wtPlate.b := by norm_num [panelPlate, wtPanel]
  obtain ⟨s, hsx⟩ := (C40_accepted_iff (.str wPINNED) wtPlate.m wtPlate.n).mpr ⟨_, rfl⟩
  obtain ⟨Ke, KGe, hKe, -⟩ := C49_energy _ hbt.symm (.str wPINNED) wtPlate s hsx ha.ne' hb.ne'
  obtain ⟨n1, r1, p1⟩ := C102_pinned_exact _ hbt.posDef wtPlate ha hb (by norm_num [panelPlate, wtPanel]) (by norm_num [panelPlate, wtPanel])
    (by norm_num [panelPlate, wtPanel]) Ke KGe hKe
  obtain ⟨n2, r2, p2⟩ := C103_two _ hbt.posDef wtPlate ha hb (by norm_num [panelPlate, wtPanel]) (by norm_num [panelPlate, wtPanel])
    (by norm_num [panelPlate, wtPanel]) Ke KGe hKe
  have hcomb : 0.861 * n1 + 0.139 * n2 ≤ 3.4605 * k := by
    set A := wtU.U1 + wtU.U2 * x1 + wtU.U3 * x3 with hA
    set B := wtU.U1 - wtU.U2 * x1 + wtU.U3 * x3 with hB
    set H := wtU.U4 - wtU.U3 * x3 + 2 * (wtU.U5 - wtU.U3 * x3) with hH
    have t1 : n1 ≤ k * ((168 / 17 * (A / 1181.1 ^ 4 + B / 746.74 ^ 4) + 612 / 31 * H / (1181.1 ^ 2 * 746.74 ^ 2))
        / (1 / 1181.1 ^ 2 + 907 / 3100 / 746.74 ^ 2)) := by
      refine r1.trans (le_of_eq ?_)
      rw [rayleighQuart, e00, e11, e01, e22, show wtPlate.a = 1181.1 from rfl, show wtPlate.b = 746.74 from rfl,
        show -wtPlate.Nxx = 1 by norm_num [panelPlate], show -wtPlate.Nyy = 907 / 3100 by norm_num [panelPlate], hH]
      ring
    have t2 : n2 ≤ k * ((40 * A / 1181.1 ^ 4 + 612 / 31 * H / (1181.1 ^ 2 * 746.74 ^ 2) + 840 / 341 * B / 746.74 ^ 4)
        / (1 / 1181.1 ^ 2 + 85 / 341 * (907 / 3100) / 746.74 ^ 2)) := by
      refine r2.trans (le_of_eq ?_)
      rw [rayleighTwo, e00, e11, e01, e22, show wtPlate.a = 1181.1 from rfl, show wtPlate.b = 746.74 from rfl,
        show -wtPlate.Nxx = 1 by norm_num [panelPlate], show -wtPlate.Nyy = 907 / 3100 by norm_num [panelPlate], hH]
      ring
    have t3 : 0.861 * ((168 / 17 * (A / 1181.1 ^ 4 + B / 746.74 ^ 4) + 612 / 31 * H / (1181.1 ^ 2 * 746.74 ^ 2))
        / (1 / 1181.1 ^ 2 + 907 / 3100 / 746.74 ^ 2)) + 0.139 * ((40 * A / 1181.1 ^ 4 + 612 / 31 * H / (1181.1 ^ 2 * 746.74 ^ 2)
        + 840 / 341 * B / 746.74 ^ 4) / (1 / 1181.1 ^ 2 + 85 / 341 * (907 / 3100) / 746.74 ^ 2)) ≤ 3.4605 := by
      rw [hA, hB, hH]
      simp only [wtU]
      norm_num at g1 g2 ⊢
      linarith
    have := mul_le_mul_of_nonneg_left t3 hk.le
    linarith
  obtain ⟨nu, hnu, hle⟩ : ∃ nu, PosMult Ke KGe nu ∧ nu ≤ 3.4605 * k := by
    rcases le_total n1 n2 with hh | hh
    · exact ⟨n1, p1, by linarith⟩
    · exact ⟨n2, p2, by linarith⟩
  have hnl : nu * loadErr wtPlate (k * 5000) ≤ 1.4e-7 := by
    have := mul_le_mul_of_nonneg_right hle e2
    norm_num at this e3 ⊢
    nlinarith
  obtain ⟨lam, hl, hll⟩ := (C100_shear _ _ _ hbt (.str wPINNED) wtPlate ha hb (by norm_num [panelPlate, wtPanel]) (by norm_num [panelPlate, wtPanel])
    _ rfl ⟨by decide, by decide, by decide, by decide⟩ (by rw [e1]; norm_num) K KG h Ke KGe hKe).2 nu hnu (by linarith)
  refine ⟨lam, ?_, hl⟩
  rw [e1] at hll
  have hlp := hl.1
  have := mul_le_mul_of_nonneg_right hnl hlp.le
  norm_num at hle hll this ⊢
  nlinarith

/-- Designs of some thickness: every positive multiplier is above one over 3100. -/
theorem wt_small {k x1 x3 : ℝ} (hk : 0.003 ≤ k) (b3 : -1 ≤ x3) (b3' : x3 ≤ 1) (g1 : -0.0001 ≤ x3 + 2 * x1 + 1) (g2 : -0.0001 ≤ x3 - 2 * x1 + 1)
    (K KG : SqMat (wtPlate.m * wtPlate.n)) (h : calcKKGD shipped (.ok (lpStiffness k wtU ![x1, 0, x3, 0])) (.str wPINNED) wtPlate = .ok (K, KG))
    (lam : ℝ) (hl : PosMult K KG lam) : 1 / 3100 < lam := by
  by_contra hcon
  push Not at hcon
  have hk0 : 0 < k := lt_of_lt_of_le (by norm_num) hk
  have hbt := wt_between hk0 b3 b3' g1 g2
  obtain ⟨e1, e2, e3⟩ := wt_err hk0
  have ha : 0 < wtPlate.a := by norm_num [panelPlate, wtPanel]
  have hb : 0 < wtPlate.b := by norm_num [panelPlate, wtPanel]
  have hlow := hbt.low
  rw [smul_one_even] at hlow
  have hle : loadErr wtPlate (k * 5000) ≤ 2e-5 := by
    have := mul_le_mul_of_nonneg_left hk e2
    norm_num at this e3 ⊢
    linarith
  have hlo : lam * loadErr wtPlate (k * 5000) ≤ 1e-8 := by
    have h1 := mul_le_mul_of_nonneg_left hle hl.1.le
    norm_num at h1 ⊢
    linarith
  have hlo0 : 0 ≤ lam * loadErr wtPlate (k * 5000) := mul_nonneg hl.1.le e2
  obtain ⟨i, j, hi, hj, hN⟩ := C103_shear_bound _ (evenD (k * 5000) 0 (k * 5000)) _ _ hbt (evenD_noTwist le_rfl (by positivity) (by positivity)) hlow
    (.str wPINNED) wtPlate ha hb (by norm_num [panelPlate, wtPanel]) (by norm_num [panelPlate, wtPanel]) _ rfl
    ⟨by decide, by decide, by decide, by decide⟩ 1 one_pos (by norm_num [panelPlate, abs_of_pos]) (by norm_num [panelPlate, abs_of_pos]) K KG h lam hl
    (by rw [e1]; norm_num at hlo ⊢; linarith)
  rw [e1] at hN
  have hu := wave_pos (a := wtPlate.a) ha hi
  have hv : 1.7e-5 ≤ wave wtPlate.b j := by
    obtain ⟨q1, q2⟩ := pi_sq_bounds
    have hj' : (1 : ℝ) ≤ (j : ℝ) ^ 2 := one_le_pow₀ (by exact_mod_cast hj)
    rw [wave, show wtPlate.b = 746.74 from rfl, div_pow, mul_pow, le_div_iff₀ (by norm_num)]
    have := mul_le_mul hj' q1 (by norm_num) (by positivity)
    norm_num at this ⊢
    linarith
  set u := wave wtPlate.a i
  set v := wave wtPlate.b j
  set d := lam * loadErr wtPlate (k * 5000)
  have hd : lam / (1 - 2.52e-7 - d) ≤ 3.3e-4 := by
    rw [div_le_iff₀ (by norm_num at hlo ⊢; linarith)]
    norm_num at hlo ⊢
    linarith
  have hw : -((-1 - 1 * |59 / 775|) * u + (-907 / 3100 - |59 / 775| / 1) * v) ≤ 1.08 * (u + v) := by
    rw [abs_of_pos (by norm_num)]
    norm_num at hv ⊢
    linarith
  change navierStiff (evenD (k * 5000) 0 (k * 5000)) u v ≤ lam / (1 - 2.52e-7 - d) * -((-1 - 1 * |59 / 775|) * u + (-907 / 3100 - |59 / 775| / 1) * v) at hN
  have hv0 : 0 < v := lt_of_lt_of_le (by norm_num) hv
  have hstiff : 15 * (u + v) ^ 2 ≤ navierStiff (evenD (k * 5000) 0 (k * 5000)) u v := by
    show _ ≤ k * 5000 * u ^ 2 + 2 * (0 + 2 * (k * 5000)) * (u * v) + k * 5000 * v ^ 2
    have h1 : (15 : ℝ) ≤ k * 5000 := by norm_num at hk ⊢; linarith
    have h2 := mul_pos hu hv0
    have h3 := mul_le_mul_of_nonneg_right h1 (sq_nonneg (u + v))
    nlinarith
  have hpos : 0 ≤ lam / (1 - 2.52e-7 - d) := div_nonneg hl.1.le (by norm_num at hlo ⊢; linarith)
  have h4 : 15 * (u + v) ^ 2 ≤ 3.3e-4 * (1.08 * (u + v)) :=
    hstiff.trans (hN.trans ((mul_le_mul_of_nonneg_left hw hpos).trans (mul_le_mul_of_nonneg_right hd (by positivity))))
  norm_num at h4 hv
  nlinarith

/-- The design `T = 23.1`, `xi1 = -0.41`, `xi3 = -0.18` carries the loads. -/
theorem wt_good (K KG : SqMat (wtPlate.m * wtPlate.n))
    (h : calcKKGD shipped (.ok (lpStiffness (23.1 ^ 3 / 12) wtU ![-0.41, 0, -0.18, 0])) (.str wPINNED) wtPlate = .ok (K, KG))
    (lam : ℝ) (hl : PosMult K KG lam) : 3100 ≤ lam := by
  by_contra hcon
  push Not at hcon
  have hk0 : (0 : ℝ) < 23.1 ^ 3 / 12 := by norm_num
  have hbt := wt_between (x1 := -0.41) (x3 := -0.18) hk0 (by norm_num) (by norm_num) (by norm_num) (by norm_num)
  obtain ⟨e1, e2, e3⟩ := wt_err hk0
  obtain ⟨hs, e00, e11, e01, e22, e02, e12⟩ := design_entries (23.1 ^ 3 / 12) wtU (-0.41) (-0.18)
  have ha : 0 < wtPlate.a := by norm_num [panelPlate, wtPanel]
  have hb : 0 < wtPlate.b := by norm_num [panelPlate, wtPanel]
  set D := lpStiffness (23.1 ^ 3 / 12) wtU ![-0.41, 0, -0.18, 0]
  have hlo : lam * loadErr wtPlate (23.1 ^ 3 / 12 * 5000) ≤ 2e-7 := by
    have h1 := mul_le_mul_of_nonneg_right hcon.le e2
    norm_num at h1 e3 ⊢
    linarith
  have hlo0 := mul_nonneg hl.1.le e2
  obtain ⟨i, j, hi, hj, hN⟩ := C103_shear_bound D D _ _ hbt ⟨hbt.posDef.posSemidef, e02, e12⟩ (by rw [sub_self]; exact Matrix.PosSemidef.zero)
    (.str wPINNED) wtPlate ha hb (by norm_num [panelPlate, wtPanel]) (by norm_num [panelPlate, wtPanel]) _ rfl
    ⟨by decide, by decide, by decide, by decide⟩ 1.5 (by norm_num) (by norm_num [panelPlate, abs_of_pos]) (by norm_num [panelPlate, abs_of_pos]) K KG
    h lam hl (by rw [e1]; norm_num at hlo ⊢; linarith)
  rw [e1] at hN
  set d := lam * loadErr wtPlate (23.1 ^ 3 / 12 * 5000)
  have hd : lam / (1 - 2.52e-7 - d) ≤ 3100.01 := by
    rw [div_le_iff₀ (by norm_num at hlo ⊢; linarith)]
    norm_num at hlo ⊢
    linarith
  have hP : 0 ≤ ((i : ℝ) ^ 2 - 1) * ((i : ℝ) ^ 2 - 4) := by
    rcases Nat.lt_or_ge i 2 with h2 | h2
    · obtain rfl : i = 1 := by omega
      norm_num
    · have h4 : (4 : ℝ) ≤ (i : ℝ) ^ 2 := by
        have : (2 : ℝ) ≤ i := by exact_mod_cast h2
        nlinarith
      exact mul_nonneg (by linarith) (by linarith)
  have hP1 : (1 : ℝ) ≤ (i : ℝ) ^ 2 := one_le_pow₀ (by exact_mod_cast hi)
  have hQ1 : (1 : ℝ) ≤ (j : ℝ) ^ 2 := one_le_pow₀ (by exact_mod_cast hj)
  obtain ⟨q1, q2⟩ := pi_sq_bounds
  have w1 : wave wtPlate.a i = π ^ 2 * ((i : ℝ) ^ 2 / 1181.1 ^ 2) := by
    rw [wave, show wtPlate.a = 1181.1 from rfl]; ring
  have w2 : wave wtPlate.b j = π ^ 2 * ((j : ℝ) ^ 2 / 746.74 ^ 2) := by
    rw [wave, show wtPlate.b = 746.74 from rfl]; ring
  change navierStiff D (wave wtPlate.a i) (wave wtPlate.b j) ≤ lam / (1 - 2.52e-7 - d) *
    -((-1 - 1.5 * |59 / 775|) * wave wtPlate.a i + (-907 / 3100 - |59 / 775| / 1.5) * wave wtPlate.b j) at hN
  rw [w1, w2, navierStiff, e00, e11, e01, e22, abs_of_pos (by norm_num : (0 : ℝ) < 59 / 775)] at hN
  set P := (i : ℝ) ^ 2
  set Q := (j : ℝ) ^ 2
  clear_value P Q
  set c := lam / (1 - 2.52e-7 - d)
  clear_value c
  have hpi : 0 < π ^ 2 := by positivity
  set w := π ^ 2
  clear_value w
  simp only [wtU] at hN
  have hN2 : w * (23.1 ^ 3 / 12 * (24182839855 / 421291 + 1873006000 / 32407 * -0.41 + 5706594145 / 421291 * -0.18) * (P / 1181.1 ^ 2) ^ 2
      + 2 * (23.1 ^ 3 / 12 * (7368700945 / 421291 - 5706594145 / 421291 * -0.18)
        + 2 * (23.1 ^ 3 / 12 * (8407069455 / 421291 - 5706594145 / 421291 * -0.18))) * (P / 1181.1 ^ 2 * (Q / 746.74 ^ 2))
      + 23.1 ^ 3 / 12 * (24182839855 / 421291 - 1873006000 / 32407 * -0.41 + 5706594145 / 421291 * -0.18) * (Q / 746.74 ^ 2) ^ 2)
      ≤ c * ((1 + 1.5 * (59 / 775)) * (P / 1181.1 ^ 2) + (907 / 3100 + 59 / 775 / 1.5) * (Q / 746.74 ^ 2)) := by
    refine le_of_mul_le_mul_left ?_ hpi
    linarith
  have hX : 0 ≤ 23.1 ^ 3 / 12 * (24182839855 / 421291 + 1873006000 / 32407 * -0.41 + 5706594145 / 421291 * -0.18) * (P / 1181.1 ^ 2) ^ 2
      + 2 * (23.1 ^ 3 / 12 * (7368700945 / 421291 - 5706594145 / 421291 * -0.18)
        + 2 * (23.1 ^ 3 / 12 * (8407069455 / 421291 - 5706594145 / 421291 * -0.18))) * (P / 1181.1 ^ 2 * (Q / 746.74 ^ 2))
      + 23.1 ^ 3 / 12 * (24182839855 / 421291 - 1873006000 / 32407 * -0.41 + 5706594145 / 421291 * -0.18) * (Q / 746.74 ^ 2) ^ 2 := by
    have : 0 ≤ P * Q := by positivity
    norm_num
    positivity
  have hL : 0 ≤ (1 + 1.5 * (59 / 775)) * (P / 1181.1 ^ 2) + (907 / 3100 + 59 / 775 / 1.5) * (Q / 746.74 ^ 2) := by positivity
  have hN3 := (mul_le_mul_of_nonneg_right q1 hX).trans (hN2.trans (mul_le_mul_of_nonneg_right hd hL))
  have hPQ : 0 ≤ P * (Q - 1) := mul_nonneg (by linarith) (by linarith)
  have hQQ := sq_nonneg (Q - 1)
  norm_num at hN3
  ring_nf at hN3 hPQ hQQ hP
  linarith

/-- **C103** `tests/optimization_test/minimize_panel_weight_test.py`: among the designs of thickness at least 0.35 within the bounds and
constraints of the problem given to `minimize`, one has thickness 23.1, none is thinner than 22.06, and the objective of a lightest one is
attained at a thickness close to the reference in the sense of the test. -/
theorem C103_test_weight (S : EigSolver) (hS : GoodSolver S) (x0 : List ℝ) :
    ∃ prob, (minimizePanelWeight S wtPanel (-3100) (-907) 236 x0).2 = .ok prob ∧
    (InBounds prob.bounds [23.1, -0.41, -0.18] ∧ ∀ c ∈ prob.cons, Satisfied c [23.1, -0.41, -0.18]) ∧
    (∀ T x1 x3, 0.35 ≤ T → InBounds prob.bounds [T, x1, x3] → (∀ c ∈ prob.cons, Satisfied c [T, x1, x3]) → 22.06 ≤ T) ∧
    ∀ T x1 x3 o, 0.35 ≤ T → InBounds prob.bounds [T, x1, x3] → (∀ c ∈ prob.cons, Satisfied c [T, x1, x3]) →
      prob.obj [T, x1, x3] = .ok (.fin o) →
      (∀ T' y1 y3 o', 0.35 ≤ T' → InBounds prob.bounds [T', y1, y3] → (∀ c ∈ prob.cons, Satisfied c [T', y1, y3]) →
        prob.obj [T', y1, y3] = .ok (.fin o') → o ≤ o') → NpClose 0.1 0.1 T 22.09 := by
  have hnorm : normalizeCriticalLoad (-3100) (-907) 236 = .ok (-1, -907 / 3100, 59 / 775, 3100) := by
    have := normalize_eq (-3100) (-907) 236 (by norm_num)
    norm_num at this
    rw [this]
    norm_num
  obtain ⟨prob, hp⟩ : ∃ prob, (minimizePanelWeight S wtPanel (-3100) (-907) 236 x0).2 = .ok prob := by
    simp only [minimizePanelWeight, hnorm, ok_bind, pure_eq_ok]
    exact ⟨_, rfl⟩
  have hp' := hp
  simp only [minimizePanelWeight, hnorm, ok_bind, pure_eq_ok, Except.ok.injEq] at hp'
  have hok : PanelOk wtPanel := by norm_num [PanelOk, wtPanel, abs_le]
  have hcons : ∀ T x1 x3, (∀ c ∈ prob.cons, Satisfied c [T, x1, x3]) ↔
      (∃ e, ncrFromLp S wtPanel T x1 x3 (-1) (-907 / 3100) (59 / 775) = .ok (.fin e) ∧ 3100 ≤ e) ∧
      (-0.0001 ≤ x3 + 2 * x1 + 1 ∧ x3 + 2 * x1 + 1 ≤ 10000) ∧ -0.0001 ≤ x3 - 2 * x1 + 1 ∧ x3 - 2 * x1 + 1 ≤ 10000 := by
    intro T x1 x3
    rw [← hp']
    simp only [List.forall_mem_cons, List.not_mem_nil, false_imp_iff, implies_true, and_true]
    refine and_congr ?_ (and_congr ?_ ?_)
    · constructor
      · rintro ⟨v, hv, hval⟩
        simp only [minCriticalLoad] at hv
        rcases hN : ncrFromLp S wtPanel T x1 x3 (-1) (-907 / 3100) (59 / 775) with e | w
        · rw [hN] at hv
          cases e <;> simp [guardedNcr] at hv
          subst hv
          rcases hval with ⟨r, hr, h1, -⟩ | ⟨hr, -⟩
          · have := XF.fin.inj hr
            simp only at h1
            linarith
          · cases hr
        · rw [hN] at hv
          simp only [guardedNcr, Except.ok.injEq] at hv
          subst hv
          rcases hval with ⟨r, rfl, h1, -⟩ | ⟨rfl, -⟩
          · exact ⟨r, rfl, h1⟩
          · exact absurd hN ncr_not_pinf
      · rintro ⟨e, he, h1⟩
        exact ⟨.fin e, by simp [minCriticalLoad, he, guardedNcr], Or.inl ⟨e, rfl, h1, Or.inl rfl⟩⟩
    · simp [Satisfied, penaltyG1, unpackXi, Except.map]
    · simp [Satisfied, penaltyG2, unpackXi, Except.map]
  have hin : ∀ T x1 x3 : ℝ, InBounds prob.bounds [T, x1, x3] ↔ (0.001 ≤ T ∧ T ≤ 1000000) ∧ (-1 ≤ x1 ∧ x1 ≤ 1) ∧ -1 ≤ x3 ∧ x3 ≤ 1 := by
    intro T x1 x3
    rw [← hp']
    simp [InBounds]
  have hobj : ∀ T x1 x3, prob.obj [T, x1, x3] = .ok (.fin (T ^ 3)) := by
    intro T x1 x3
    rw [← hp']
    rfl
  have hgood : InBounds prob.bounds [23.1, -0.41, -0.18] ∧ ∀ c ∈ prob.cons, Satisfied c [23.1, -0.41, -0.18] := by
    refine ⟨(hin _ _ _).mpr (by norm_num), (hcons _ _ _).mpr ⟨?_, by norm_num⟩⟩
    have hk0 : (0 : ℝ) < 23.1 ^ 3 / 12 := by norm_num
    have hbt := wt_between (x1 := -0.41) (x3 := -0.18) hk0 (by norm_num) (by norm_num) (by norm_num) (by norm_num)
    obtain ⟨K, KG, vals, vecs, e, hK, hpd, hsy, ho, hso, hrun, he, hn⟩ := panel_first S hS wtPanel hok rfl (by norm_num [wtPanel])
      (by norm_num [wtPanel]) (by norm_num [wtPanel]) (by norm_num [wtPanel]) (by norm_num [wtPanel]) 23.1 (-0.41) (-0.18) (-1) (-907 / 3100) (59 / 775)
      _ (panelD_eq wtPanel wtU wtU_eq _ _ _) _ _ hbt (by rw [(wt_err hk0).1]; norm_num)
    obtain ⟨l, -, hl⟩ := wt_upper hk0 (by norm_num) (by norm_num) (by norm_num) (by norm_num) K KG hK
    obtain ⟨lam0, hl0, hmin⟩ := exists_min_posMult hpd hsy ⟨l, hl⟩
    have h31 := wt_good K KG hK lam0 hl0
    have hhead := head_critical hrun hK ho hso hl0 hmin (by linarith)
    rw [he] at hhead
    obtain rfl := Option.some.inj hhead
    exact ⟨lam0, hn, h31⟩
  have hthin : ∀ T x1 x3, 0.35 ≤ T → InBounds prob.bounds [T, x1, x3] → (∀ c ∈ prob.cons, Satisfied c [T, x1, x3]) → 22.06 ≤ T := by
    intro T x1 x3 hT hb hc
    obtain ⟨⟨r, hr, h31⟩, ⟨g1, -⟩, g2, -⟩ := (hcons T x1 x3).mp hc
    obtain ⟨-, -, b3, b3'⟩ := (hin T x1 x3).mp hb
    have hT3 : (0.35 : ℝ) ^ 3 ≤ T ^ 3 := pow_le_pow_left₀ (by norm_num) hT 3
    have hk : (0.003 : ℝ) ≤ T ^ 3 / 12 := by norm_num at hT3 ⊢; linarith
    have hk0 : 0 < T ^ 3 / 12 := lt_of_lt_of_le (by norm_num) hk
    have hbt := wt_between hk0 b3 b3' g1 g2
    obtain ⟨K, KG, vals, vecs, e, hK, hpd, hsy, ho, hso, hrun, he, hn⟩ := panel_first S hS wtPanel hok rfl (by norm_num [wtPanel])
      (by norm_num [wtPanel]) (by norm_num [wtPanel]) (by norm_num [wtPanel]) (by norm_num [wtPanel]) T x1 x3 (-1) (-907 / 3100) (59 / 775)
      _ (panelD_eq wtPanel wtU wtU_eq _ _ _) _ _ hbt (by rw [(wt_err hk0).1]; norm_num)
    obtain rfl : e = .fin r := Except.ok.inj (hn.symm.trans hr)
    obtain ⟨lam, hle, hl⟩ := wt_upper hk0 b3 b3' g1 g2 K KG hK
    have hsmall := wt_small hk b3 b3' g1 g2 K KG hK lam hl
    have hrl := head_le hrun hK ho hso he (by linarith) hl (by
      calc (1 : ℝ) = 3100 * (1 / 3100) := by norm_num
        _ < 3100 * lam := by linarith
        _ ≤ r * lam := mul_le_mul_of_nonneg_right h31 hl.1.le)
    by_contra hcon
    push Not at hcon
    have : T ^ 3 ≤ (22.06 : ℝ) ^ 3 := pow_le_pow_left₀ (by linarith [show (0 : ℝ) < 0.35 by norm_num]) hcon.le 3
    norm_num at this hle
    linarith
  refine ⟨prob, hp, hgood, hthin, fun T x1 x3 o hT hb hc ho hmin => ?_⟩
  have h1 := hthin T x1 x3 hT hb hc
  have h2 := hmin 23.1 (-0.41) (-0.18) _ (by norm_num) hgood.1 hgood.2 (hobj _ _ _)
  have h3 := XF.fin.inj (Except.ok.inj ((hobj T x1 x3).symm.trans ho))
  have hodd : StrictMono fun t : ℝ => t ^ 3 := Odd.strictMono_pow (by decide)
  have h4 : T ≤ 23.1 := hodd.le_iff_le.mp (show T ^ 3 ≤ 23.1 ^ 3 by rw [h3]; exact h2)
  unfold NpClose
  norm_num at h1 h4
  exact abs_le.mpr ⟨by norm_num; linarith, by norm_num; linarith⟩

/-- Non-vacuity: there is a solver that keeps its contract, so the statements about the tests are about something. -/
theorem exists_goodSolver : ∃ S : EigSolver, GoodSolver S := exists_honest

/-- Non-vacuity of `C103_best`: the panel of the first test and its feasible designs meet the hypotheses. -/
example (S : EigSolver) (hS : GoodSolver S) {x1 x3 : ℝ} (b3 : -1 ≤ x3) (b3' : x3 ≤ 1) (g1 : -0.0001 ≤ x3 + 2 * x1 + 1)
    (g2 : -0.0001 ≤ x3 - 2 * x1 + 1) : maxPanel.a = 2 * maxPanel.b ∧ (panelMat maxPanel).invariants = .ok maxU ∧ 0 ≤ maxU.U3 ∧
    (∃ D mu M, panelD maxPanel 3.048 x1 x3 = .ok D ∧ Between D mu M ∧ bendErr (panelPlate maxPanel (-1) 0 0) mu M < 1) ∧
    ∃ lam, ncrFromLp S maxPanel 3.048 x1 x3 (-1) 0 0 = .ok (.fin lam) ∧ 1 ≤ lam := by
  refine ⟨by norm_num [maxPanel], maxU_eq, by norm_num [maxU], ⟨_, _, _, panelD_eq maxPanel maxU maxU_eq _ _ _, max_between b3 b3' g1 g2, ?_⟩, ?_⟩
  · rw [bendErr, show tableAcc (panelPlate maxPanel (-1) 0 0).m (panelPlate maxPanel (-1) 0 0).n = 3e-9 by simp [tableAcc, panelPlate, maxPanel]]
    norm_num
  · obtain ⟨lam, h, h1, -⟩ := max_value S hS b3 b3' g1 g2
    exact ⟨lam, h, h1⟩

end Composipy
