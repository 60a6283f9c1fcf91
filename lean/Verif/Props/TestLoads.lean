import Verif.Props.Accuracy
import Verif.Props.ExactStacks
import Verif.Props.Optimize
import Verif.Props.BucklingOutcome

/-!
# C102: two-sided bounds on the buckling loads of pinned and clamped plates; the buckling tests

Lower bounds: for pinned plates those of C99 and C100; for clamped plates the strips of C89 together with the twisting stiffness.
Upper bounds: the Rayleigh quotient of a quartic polynomial (pinned), of C89 (clamped).  Both sides are close enough to show that the
references of `tests/test_plate_buckling.py` and `tests/test_plate_buckling_LP.py` hold in exact arithmetic, for every eigensolver that
keeps the contract of `eigsh`.
-/

namespace Composipy
open Polynomial Spec Matrix Real

variable {a b : ℝ}

/-! ## The first reported value -/

/-- If the solver returns the pairs in Cayley order and no positive multiplier is below 1, the first reported value is the critical
multiplier. -/
theorem head_critical {S : EigSolver} {D : Except PyErr M3} {c : Constraints} {p : PlateNum} {numEig : ℤ}
    {st : PlateState (p.m * p.n)} {vals : List PyFloat} {vecs : List (Fin (p.m * p.n) → ℝ)}
    (h : (bucklingAnalysis S D c p numEig st).1 = .ok (vals, vecs))
    {K KG : SqMat (p.m * p.n)} (hK : calcKKGD shipped D c p = .ok (K, KG)) (hS : Honest S KG K)
    (hsort : ∀ k out, S _ KG K k = .ok out → CayleySorted out)
    {lam0 : ℝ} (h0 : PosMult K KG lam0) (hmin : ∀ lam, PosMult K KG lam → lam0 ≤ lam) (h1 : 1 ≤ lam0) :
    vals[0]? = some (.fin lam0) := by
  obtain ⟨hmem, -⟩ := C54_critical_reported_partial S D c p numEig st vals vecs h K KG hK hS lam0 h0 hmin h1
  obtain ⟨s, K', KG', out, hs, hK', hk, hout, rfl, rfl, hst⟩ := buckling_inv h
  rw [hK] at hK'
  obtain ⟨rfl, rfl⟩ := Prod.mk.inj (Except.ok.inj hK')
  have hc := hS _ _ hout
  have hso := hsort _ _ hout
  have hne := h0.1.ne'
  obtain ⟨-, q', hq', e'⟩ := reported_iff.mp hmem
  cases out with
  | nil => cases hq'
  | cons q rest =>
    have hq1 : q.1 = -1 / lam0 := by
      rcases List.mem_cons.mp hq' with rfl | hr
      · exact e'
      · have hb := (List.pairwise_cons.mp hso).1 q' hr
        rw [e'] at hb
        obtain ⟨hqv, hqp⟩ := hc.pair q List.mem_cons_self
        obtain ⟨k1, k2⟩ := cayley_key hne
        have hb' : |q.1 + 1| * |lam0 + 1| ≤ |lam0 - 1| * |q.1 - 1| := by
          rw [← k1, ← k2]
          have := mul_le_mul_of_nonneg_right hb (abs_nonneg lam0)
          nlinarith [this]
        rw [abs_of_pos (by linarith : 0 < lam0 + 1), abs_of_nonneg (by linarith : 0 ≤ lam0 - 1)] at hb'
        by_cases hq0 : q.1 = 0
        · rw [hq0] at hb'; norm_num at hb'; linarith
        · set mu := -1 / q.1 with hmu
          have hmu0 : mu ≠ 0 := div_ne_zero (by norm_num) hq0
          have hq1 : q.1 = -1 / mu := by rw [hmu]; field_simp
          obtain ⟨m1, m2⟩ := cayley_key hmu0
          have hb2 : |mu - 1| * (lam0 + 1) ≤ (lam0 - 1) * |mu + 1| := by
            rw [← m1, ← m2, ← hq1]
            have := mul_le_mul_of_nonneg_right hb' (abs_nonneg mu)
            nlinarith [this]
          have hbk : Buckles K KG mu q.2 := (buckles_pencil hmu0).mpr ⟨hqv, by rw [← hq1]; exact hqp⟩
          rcases lt_or_gt_of_ne hmu0 with hneg | hposmu
          · have e1 : |mu - 1| = 1 - mu := by rw [abs_of_neg (by linarith)]; ring
            have e2 : |mu + 1| ≤ 1 - mu := abs_le.mpr ⟨by linarith, by linarith⟩
            rw [e1] at hb2
            have := mul_le_mul_of_nonneg_left e2 (by linarith : 0 ≤ lam0 - 1)
            nlinarith
          · have hge := hmin mu ⟨hposmu, q.2, hbk⟩
            rw [abs_of_nonneg (by linarith : 0 ≤ mu - 1), abs_of_pos (by linarith : 0 < mu + 1)] at hb2
            have : mu = lam0 := le_antisymm (by nlinarith) hge
            rw [hq1, this]
    have hq0 : q.1 ≠ 0 := by rw [hq1]; exact div_ne_zero (by norm_num) hne
    simp only [List.map_cons, List.getElem?_cons_zero, npDiv, if_neg hq0]
    rw [hq1]
    congr 2
    field_simp

/-! ## Clamped plates: strips and twist -/

/-- The energy of a clamped uncoupled plate: strips in both directions and twist. -/
theorem energy_clamped_twist (ha : 0 < a) (hb : 0 < b) {D : M3} (hD : NoTwist D) (hH : 0 ≤ D 0 1 + 2 * D 2 2) (w : List (ℕ × ℕ)) {N : ℕ}
    (hN : w.length = N) (h4 : ∀ q ∈ w, 4 ≤ q.1 ∧ 4 ≤ q.2) (c : Fin N → ℝ) :
    π ^ 2 * (4 * D 0 0 / a ^ 2 + (D 0 1 + 2 * D 2 2) / b ^ 2) * slopeX a b (ritz a b w c)
      + π ^ 2 * (4 * D 1 1 / b ^ 2 + (D 0 1 + 2 * D 2 2) / a ^ 2) * slopeY a b (ritz a b w c) ≤ bendEnergy D a b (ritz a b w c) := by
  have hr : ∀ r : Fin N, EndZero (w.getD r (0, 0)).1 ∧ EndZero (w.getD r (0, 0)).2 := fun r => by
    have hlt : (r : ℕ) < w.length := by rw [hN]; exact r.2
    rw [List.getD_eq_getElem _ _ hlt]
    obtain ⟨g1, g2⟩ := h4 _ (List.getElem_mem hlt)
    exact ⟨⟨by omega, by omega⟩, ⟨by omega, by omega⟩⟩
  obtain ⟨d0, d1, -⟩ := hD.diag
  have hs10 : D 1 0 = D 0 1 := hD.symm.apply 0 1
  have hs20 : D 2 0 = 0 := by rw [← hD.d16]; exact hD.symm.apply 0 2
  have hs21 : D 2 1 = 0 := by rw [← hD.d26]; exact hD.symm.apply 1 2
  set P : Fin N → ℝ[X] := fun r => phys a (shape (w.getD r (0, 0)).1) with hP
  set Q : Fin N → ℝ[X] := fun r => phys b (shape (w.getD r (0, 0)).2) with hQ
  have zP : ∀ r, (P r).eval 0 = 0 ∧ (P r).eval a = 0 := fun r => phys_endZero ha.ne' (hr r).1
  have zQ : ∀ r, (Q r).eval 0 = 0 ∧ (Q r).eval b = 0 := fun r => phys_endZero hb.ne' (hr r).2
  obtain ⟨t, ht1, ht2⟩ := twist_exchange c P Q zP zQ
  obtain ⟨u, hu⟩ := DI.sq (a := a) (b := b) c (fun r => derivative (derivative (P r))) Q
  obtain ⟨v, hv⟩ := DI.sq (a := a) (b := b) c P (fun r => derivative (derivative (Q r)))
  have hE : bendEnergy D a b (ritz a b w c) = D 0 0 * u + (2 * D 0 1 * t + (D 1 1 * v + 4 * D 2 2 * t)) := by
    unfold bendEnergy
    rw [← ((hu.smul (D 0 0)).add ((ht1.smul (2 * D 0 1)).add ((hv.smul (D 1 1)).add (ht2.smul (4 * D 2 2))))).val]
    refine intervalIntegral.integral_congr fun x _ => intervalIntegral.integral_congr fun y _ => ?_
    simp only [bendDensity, ritz_sep, dX_sep, dY_sep]
    generalize sep c (fun r => derivative (derivative (P r))) Q x y = X
    generalize sep c P (fun r => derivative (derivative (Q r))) x y = Y
    generalize sep c (fun r => derivative (P r)) (fun r => derivative (Q r)) x y = Z
    simp [dotProduct, Matrix.mulVec, Fin.sum_univ_three, hD.d16, hD.d26, hs10, hs20, hs21]
    ring
  have p1 : (π / b) ^ 2 * slopeX a b (ritz a b w c) ≤ t := by
    rw [← ht2.val]
    have := poincare_sep ha hb c (fun r => derivative (P r)) Q zQ
    simp only [slopeX, ritz_sep, dX_sep]
    exact this
  have p2 : (π / a) ^ 2 * slopeY a b (ritz a b w c) ≤ t := by
    have := poincare_sep hb ha c (fun r => derivative (Q r)) P zP
    have sw : ∀ P Q : Fin N → ℝ[X], ∫ x in (0 : ℝ)..b, ∫ y in (0 : ℝ)..a, sep c Q P x y ^ 2
        = ∫ x in (0 : ℝ)..a, ∫ y in (0 : ℝ)..b, sep c P Q x y ^ 2 := fun P Q => by
      have e1 : Continuous (Function.uncurry fun x y => sep c Q P x y ^ 2) := (sep_continuous c Q P).pow 2
      rw [int_swap e1]
      refine intervalIntegral.integral_congr fun x _ => intervalIntegral.integral_congr fun y _ => ?_
      simp only [sep]
      congr 1
      exact Finset.sum_congr rfl fun r _ => by ring
    rw [sw, sw] at this
    rw [← ht2.val]
    simp only [slopeY, ritz_sep, dY_sep]
    exact this
  obtain ⟨s1, s2⟩ := wirtinger_plate ha hb w hN h4 c
  have s1' : (2 * π / a) ^ 2 * slopeX a b (ritz a b w c) ≤ u := by
    rw [← hu.val]
    simp only [ritz_sep, dX_sep] at s1
    simp only [slopeX, ritz_sep, dX_sep]
    exact s1
  have s2' : (2 * π / b) ^ 2 * slopeY a b (ritz a b w c) ≤ v := by
    rw [← hv.val]
    simp only [ritz_sep, dY_sep] at s2
    simp only [slopeY, ritz_sep, dY_sep]
    exact s2
  have m1 := mul_le_mul_of_nonneg_left s1' d0
  have m2 := mul_le_mul_of_nonneg_left s2' d1
  have m3 := mul_le_mul_of_nonneg_left p1 hH
  have m4 := mul_le_mul_of_nonneg_left p2 hH
  rw [hE]
  calc _ = D 0 0 * ((2 * π / a) ^ 2 * slopeX a b (ritz a b w c)) + D 1 1 * ((2 * π / b) ^ 2 * slopeY a b (ritz a b w c))
        + (D 0 1 + 2 * D 2 2) * ((π / b) ^ 2 * slopeX a b (ritz a b w c))
        + (D 0 1 + 2 * D 2 2) * ((π / a) ^ 2 * slopeY a b (ritz a b w c)) := by ring
    _ ≤ D 0 0 * u + D 1 1 * v + (D 0 1 + 2 * D 2 2) * t + (D 0 1 + 2 * D 2 2) * t := by linarith
    _ = _ := by ring

/-- **C102** lower bound for clamped plates (up to 26 terms, tables as shipped): strips in both directions together with the twisting
stiffness. -/
theorem C102_clamped (D D0 : M3) (hD : D.PosDef) (h0 : NoTwist D0) (hdom : (D - D0).PosSemidef) (hH : 0 ≤ D0 0 1 + 2 * D0 2 2)
    (p : PlateNum) (ha : 0 < p.a) (hb : 0 < p.b) (hm : 1 ≤ p.m) (hn : 1 ≤ p.n) (hm' : p.m ≤ 26) (hn' : p.n ≤ 26) (hxy : p.Nxy = 0)
    (K KG : SqMat (p.m * p.n)) (hK : calcKKGD shipped (.ok D) (.str wCLAMPED) p = .ok (K, KG)) (lam : ℝ) (hl : PosMult K KG lam) :
    π ^ 2 * (4 * D0 0 0 / p.a ^ 2 + (D0 0 1 + 2 * D0 2 2) / p.b ^ 2) ≤ lam * -p.Nxx ∨
    π ^ 2 * (4 * D0 1 1 / p.b ^ 2 + (D0 0 1 + 2 * D0 2 2) / p.a ^ 2) ≤ lam * -p.Nyy := by
  obtain ⟨w, ⟨h4, hlen, -⟩, hf⟩ := clamped_forms p.m p.n hm' hn'
  have e1 := hf D p.a p.b p.Nxx p.Nyy p.Nxy ha.ne' hb.ne'
  rw [show calcKKGD shipped (.ok D) (.str wCLAMPED) ⟨p.a, p.b, p.Nxx, p.Nyy, p.Nxy, p.m, p.n⟩ = .ok (K, KG) from hK] at e1
  have hpd := clamped_posDef hD ha hb hm hn hm' hn' hK
  obtain ⟨rfl, rfl⟩ := Prod.mk.inj (Except.ok.inj e1)
  obtain ⟨hpos, v, hv⟩ := hl
  have hsym : D.IsSymm := hD.isHermitian
  have k0 := hpd.dotProduct_mulVec_pos hv.1
  simp only [star_trivial] at k0
  have hb0 := buckles_energy hv
  rw [hxy, gMat_work ha.ne' hb.ne', loadWork_split] at hb0
  have kd := kMat_nonneg hdom ha hb w v
  have e : v ⬝ᵥ (kMat exactV p.a p.b (D - D0) w (p.m * p.n)).mulVec v
      = bendEnergy D p.a p.b (ritz p.a p.b w v) - bendEnergy D0 p.a p.b (ritz p.a p.b w v) := by
    rw [← kMat_energy ha.ne' hb.ne' _ hsym, ← kMat_energy ha.ne' hb.ne' _ h0.symm, ← dotProduct_sub, ← Matrix.sub_mulVec]
    congr 2
    ext r s
    simp only [kMat, of_apply, Matrix.sub_apply, k33v]
    ring
  rw [e] at kd
  have hge := energy_clamped_twist ha hb h0 hH w hlen h4 v
  rw [kMat_energy ha.ne' hb.ne' _ hsym] at k0 hb0
  obtain ⟨sx, sy⟩ := slopes_nonneg ha hb (ritz p.a p.b w v)
  set X := slopeX p.a p.b (ritz p.a p.b w v)
  set Y := slopeY p.a p.b (ritz p.a p.b w v)
  by_contra hno
  push Not at hno
  obtain ⟨n1, n2⟩ := hno
  have i1 := mul_le_mul_of_nonneg_right n1.le sx
  have i2 := mul_le_mul_of_nonneg_right n2.le sy
  have t1 : (π ^ 2 * (4 * D0 0 0 / p.a ^ 2 + (D0 0 1 + 2 * D0 2 2) / p.b ^ 2) - lam * -p.Nxx) * X = 0 :=
    le_antisymm (by nlinarith) (mul_nonneg (by linarith) sx)
  have t2 : (π ^ 2 * (4 * D0 1 1 / p.b ^ 2 + (D0 0 1 + 2 * D0 2 2) / p.a ^ 2) - lam * -p.Nyy) * Y = 0 :=
    le_antisymm (by nlinarith) (mul_nonneg (by linarith) sy)
  have zX : X = 0 := by
    rcases mul_eq_zero.mp t1 with h | h
    · linarith
    · exact h
  have zY : Y = 0 := by
    rcases mul_eq_zero.mp t2 with h | h
    · linarith
    · exact h
  rw [zX, zY] at hb0
  simp at hb0
  linarith

/-! ## Pinned plates: the quartic -/

/-- The quartic `t - 2 t^3 + t^4`, `t = x / a`: the deflection of a simply supported beam under a uniform load. -/
noncomputable def quart (a : ℝ) : ℝ[X] := C (1 / a) * X - C (2 / a ^ 3) * X ^ 3 + C (1 / a ^ 4) * X ^ 4

theorem int_poly (f : ℝ → ℝ) (G : ℝ[X]) (h : ∀ x, (derivative G).eval x = f x) (a : ℝ) :
    ∫ x in (0 : ℝ)..a, f x = G.eval a - G.eval 0 := by
  rw [← intervalIntegral.integral_eq_sub_of_hasDerivAt (f := fun x => G.eval x) (f' := f) (fun x _ => by
    rw [← h x]; exact G.hasDerivAt x)]
  have : f = fun x => (derivative G).eval x := funext fun x => (h x).symm
  rw [this]
  exact (derivative G).continuous.intervalIntegrable _ _

theorem quart_derivs : (∀ x, (quart a).eval x = x / a - 2 * x ^ 3 / a ^ 3 + x ^ 4 / a ^ 4) ∧
    (∀ x, (derivative (quart a)).eval x = 1 / a - 6 * x ^ 2 / a ^ 3 + 4 * x ^ 3 / a ^ 4) ∧
    ∀ x, (derivative (derivative (quart a))).eval x = -(12 * x / a ^ 3) + 12 * x ^ 2 / a ^ 4 := by
  refine ⟨fun x => ?_, fun x => ?_, fun x => ?_⟩
  · simp [quart]; ring
  · simp [quart]; ring
  · simp [quart]; ring

theorem quart_ends (ha : a ≠ 0) : (quart a).eval 0 = 0 ∧ (quart a).eval a = 0 ∧ (quart a).natDegree ≤ 4 := by
  obtain ⟨h0, -, -⟩ := quart_derivs (a := a)
  refine ⟨by rw [h0]; simp, by rw [h0]; field_simp; ring, ?_⟩
  unfold quart
  compute_degree

theorem quart_ints (ha : a ≠ 0) :
    (∫ x in (0 : ℝ)..a, (quart a).eval x * (quart a).eval x) = 31 / 630 * a ∧
    (∫ x in (0 : ℝ)..a, (derivative (quart a)).eval x * (derivative (quart a)).eval x) = 17 / 35 / a ∧
    (∫ x in (0 : ℝ)..a, (derivative (derivative (quart a))).eval x * (derivative (derivative (quart a))).eval x) = 24 / 5 / a ^ 3 := by
  obtain ⟨h0, h1, h2⟩ := quart_derivs (a := a)
  refine ⟨?_, ?_, ?_⟩
  · rw [int_poly _ (C (1 / (3 * a ^ 2)) * X ^ 3 - C (4 / (5 * a ^ 4)) * X ^ 5 + C (1 / (3 * a ^ 5)) * X ^ 6 + C (4 / (7 * a ^ 6)) * X ^ 7
      - C (1 / (2 * a ^ 7)) * X ^ 8 + C (1 / (9 * a ^ 8)) * X ^ 9) (fun x => by
        rw [h0]
        simp
        field_simp
        ring)]
    simp
    field_simp
    ring
  · rw [int_poly _ (C (1 / a ^ 2) * X - C (4 / a ^ 4) * X ^ 3 + C (2 / a ^ 5) * X ^ 4 + C (36 / (5 * a ^ 6)) * X ^ 5
      - C (8 / a ^ 7) * X ^ 6 + C (16 / (7 * a ^ 8)) * X ^ 7) (fun x => by
        rw [h1]
        simp
        field_simp
        ring)]
    simp
    field_simp
    ring
  · rw [int_poly _ (C (48 / a ^ 6) * X ^ 3 - C (72 / a ^ 7) * X ^ 4 + C (144 / (5 * a ^ 8)) * X ^ 5) (fun x => by
        rw [h2]
        simp
        field_simp
        ring)]
    simp
    field_simp
    ring

/-- The Rayleigh quotient of the quartic in both directions, `nx` and `ny` the compressions. -/
noncomputable def Spec.rayleighQuart (D : M3) (a b nx ny : ℝ) : ℝ :=
  (168 / 17 * (D 0 0 / a ^ 4 + D 1 1 / b ^ 4) + 612 / 31 * (D 0 1 + 2 * D 2 2) / (a ^ 2 * b ^ 2)) / (nx / a ^ 2 + ny / b ^ 2)

/-- **C102** the quotient is within 1.4 thousandths of the Navier multiplier of one half wave each way. -/
theorem C102_quotient (D : M3) (hD : D.PosDef) (hH : 0 ≤ D 0 1 + 2 * D 2 2) (a b nx ny : ℝ) (ha : 0 < a) (hb : 0 < b)
    (hload : 0 < -nx / a ^ 2 + -ny / b ^ 2) :
    rayleighQuart D a b (-nx) (-ny) ≤ 1.0014 * navier D a b nx ny 1 1 := by
  have d0 : 0 < D 0 0 := hD.diag_pos
  have d1 : 0 < D 1 1 := hD.diag_pos
  have hpi : (3.1415 : ℝ) < π := Real.pi_gt_d4
  have e : navier D a b nx ny 1 1 = π ^ 2 * ((D 0 0 / a ^ 4 + D 1 1 / b ^ 4) + 2 * (D 0 1 + 2 * D 2 2) / (a ^ 2 * b ^ 2))
      / (-nx / a ^ 2 + -ny / b ^ 2) := by
    unfold navier navierStiff wave
    have h1 : -(nx * ((1 : ℕ) * π / a) ^ 2 + ny * ((1 : ℕ) * π / b) ^ 2) = π ^ 2 * (-nx / a ^ 2 + -ny / b ^ 2) := by
      push_cast; field_simp; ring
    rw [h1, div_eq_div_iff (by positivity) hload.ne']
    push_cast
    field_simp
    ring
  rw [e, rayleighQuart, ← mul_div_assoc]
  refine (div_le_div_iff_of_pos_right hload).mpr ?_
  have p1 : 0 ≤ D 0 0 / a ^ 4 + D 1 1 / b ^ 4 := by positivity
  have p2 : 0 ≤ (D 0 1 + 2 * D 2 2) / (a ^ 2 * b ^ 2) := by positivity
  have q : 168 / 17 ≤ 1.0014 * π ^ 2 := by nlinarith
  have m1 := mul_le_mul_of_nonneg_right q p1
  have m2 := mul_le_mul_of_nonneg_right q p2
  rw [mul_div_assoc, mul_div_assoc]
  nlinarith

/-- **C102** upper bound for pinned plates with three terms or more each way, exact integrals: whatever the coupling of bending and
twisting and the shear load, a positive multiplier is not above the quotient of the quartic. -/
theorem C102_pinned_exact (D : M3) (hD : D.PosDef) (p : PlateNum) (ha : 0 < p.a) (hb : 0 < p.b) (hm : 3 ≤ p.m) (hn : 3 ≤ p.n)
    (hload : 0 < -p.Nxx / p.a ^ 2 + -p.Nyy / p.b ^ 2) (K KG : SqMat (p.m * p.n))
    (hK : calcKKGD exactReaders (.ok D) (.str wPINNED) p = .ok (K, KG)) :
    ∃ lam ≤ rayleighQuart D p.a p.b (-p.Nxx) (-p.Nyy), PosMult K KG lam := by
  have hsym : D.IsSymm := hD.isHermitian
  obtain ⟨s, hs⟩ := (C40_accepted_iff (.str wPINNED) p.m p.n).mpr ⟨_, rfl⟩
  obtain ⟨K', KG', hK', hpos⟩ := C87_named D hD p ha hb wPINNED (.inl rfl)
  obtain ⟨rfl, rfl⟩ := Prod.mk.inj (Except.ok.inj (hK.symm.trans hK'))
  obtain ⟨K', KG', hK'', hen⟩ := C49_energy D hsym (.str wPINNED) p s hs ha.ne' hb.ne'
  obtain ⟨rfl, rfl⟩ := Prod.mk.inj (Except.ok.inj (hK.symm.trans hK''))
  have hsK := exact_symm_ok ha.ne' hb.ne' hK hs
  have hpd := posDef_of_pos hsK.1 hpos
  obtain ⟨za, za', da⟩ := quart_ends ha.ne'
  obtain ⟨zb, zb', db⟩ := quart_ends hb.ne'
  obtain ⟨v, hr⟩ := prod_ritz ha.ne' hb.ne' hs (quart p.a) (quart p.b) (by omega) (by omega) (by omega) (by omega) za za' zb zb'
  obtain ⟨eE, eW⟩ := prod_energy D hsym p.Nxx p.Nyy p.Nxy (quart p.a) (quart p.b) za za' zb zb'
  obtain ⟨i0, i1, i2⟩ := quart_ints ha.ne'
  obtain ⟨j0, j1, j2⟩ := quart_ints hb.ne'
  rw [i0, i1, i2, j0, j1, j2] at eE
  rw [i0, i1, j0, j1] at eW
  have hkE : v ⬝ᵥ K.mulVec v = _ := ((hen v).1.trans (congrArg _ hr)).trans eE
  have hkW : v ⬝ᵥ KG.mulVec v = _ := ((hen v).2.trans (congrArg _ hr)).trans eW
  set L := -p.Nxx / p.a ^ 2 + -p.Nyy / p.b ^ 2 with hL
  have hW : -(v ⬝ᵥ KG.mulVec v) = 17 / 35 * (31 / 630) * (p.a * p.b) * L := by
    rw [hkW, hL]
    field_simp
    ring
  have hE : v ⬝ᵥ K.mulVec v = 17 / 35 * (31 / 630) * (p.a * p.b)
      * (168 / 17 * (D 0 0 / p.a ^ 4 + D 1 1 / p.b ^ 4) + 612 / 31 * (D 0 1 + 2 * D 2 2) / (p.a ^ 2 * p.b ^ 2)) := by
    rw [hkE]
    field_simp
    ring
  have hWp : 0 < -(v ⬝ᵥ KG.mulVec v) := by rw [hW]; positivity
  have hv : v ≠ 0 := fun h => by
    subst h
    simp at hWp
  obtain ⟨mu, h1, h2⟩ := posMult_le hpd hsK.2 hv (lam := v ⬝ᵥ K.mulVec v / -(v ⬝ᵥ KG.mulVec v)) (div_pos (hpos v hv) hWp) (by
    rw [div_neg, neg_mul, div_mul_cancel₀ _ (by linarith : v ⬝ᵥ KG.mulVec v < 0).ne]
    linarith)
  refine ⟨mu, h1.trans (le_of_eq ?_), h2⟩
  rw [hE, hW, mul_div_mul_left _ _ (by positivity)]
  rfl

/-- **C102** two-sided bounds for pinned plates in compression, tables as shipped: there is a smallest positive multiplier; it meets the
Navier bound for every uncoupled stiffness below `D`, and it is not above the quotient of the quartic, both up to the accuracy of the
tables. -/
theorem C102_pinned (D D0 : M3) (mu M : ℝ) (hD : Between D mu M) (h0 : NoTwist D0) (hdom : (D - D0).PosSemidef) (p : PlateNum)
    (ha : 0 < p.a) (hb : 0 < p.b) (hm : 3 ≤ p.m) (hn : 3 ≤ p.n) (hx : p.Nxx ≤ 0) (hy : p.Nyy ≤ 0) (hxy : p.Nxy = 0)
    (hload : 0 < -p.Nxx / p.a ^ 2 + -p.Nyy / p.b ^ 2) (hcond : bendErr p mu M < 1) (K KG : SqMat (p.m * p.n))
    (h : calcKKGD shipped (.ok D) (.str wPINNED) p = .ok (K, KG)) :
    ∃ lam0, PosMult K KG lam0 ∧ (∀ lam, PosMult K KG lam → lam0 ≤ lam) ∧
      NavierBound D0 p ((1 + tableAcc p.m p.n) / (1 - bendErr p mu M) * lam0) ∧
      (1 - tableAcc p.m p.n) * lam0 ≤ (1 + bendErr p mu M) * rayleighQuart D p.a p.b (-p.Nxx) (-p.Nyy) := by
  obtain ⟨e, he, hh⟩ : ∃ e, chooseEdges (.str wPINNED) = .ok e ∧ EdgesHeld e := ⟨_, rfl, by decide, by decide, by decide, by decide⟩
  obtain ⟨s, hs⟩ := (C40_accepted_iff (.str wPINNED) p.m p.n).mpr ⟨_, he⟩
  obtain ⟨Ke, KGe, hKe, -⟩ := C49_energy D hD.symm (.str wPINNED) p s hs ha.ne' hb.ne'
  obtain ⟨nu, hle, hnu⟩ := C102_pinned_exact D hD.posDef p ha hb hm hn hload Ke KGe hKe
  obtain ⟨l, hl, hle'⟩ := (C100_multipliers D mu M hD (.str wPINNED) p ha hb (by omega) (by omega) e he hh hx hy hxy hcond K KG h Ke KGe
    hKe).2 nu hnu
  have hpd := C100_posDef D mu M hD (.str wPINNED) p ha hb (by omega) (by omega) e he hh hcond K KG h
  obtain ⟨lam0, hl0, hmin⟩ := exists_min_posMult hpd (C48_symmetric _ _ p (by omega) (by omega) K KG h).2 ⟨l, hl⟩
  refine ⟨lam0, hl0, hmin, (C100_bounds D D0 mu M hD h0 hdom (.str wPINNED) p ha hb (by omega) (by omega) e he hh hx hy hxy hcond K KG h
    lam0 hl0).1, ?_⟩
  have hacc : tableAcc p.m p.n < 1 := by unfold tableAcc; split_ifs <;> norm_num
  have herr : 0 ≤ bendErr p mu M := by
    have := hD.M_nonneg
    have := hD.pos
    have := tableAcc_pos p.m p.n
    unfold bendErr; positivity
  calc (1 - tableAcc p.m p.n) * lam0 ≤ (1 - tableAcc p.m p.n) * l := mul_le_mul_of_nonneg_left (hmin l hl) (by linarith)
    _ ≤ (1 + bendErr p mu M) * nu := hle'
    _ ≤ _ := mul_le_mul_of_nonneg_left hle (by linarith)

/-! ## What `buckling_analysis` reports first -/

/-- **C102** the first value reported for a pinned plate in compression, for a solver that keeps the contract of `eigsh` and returns the
pairs in Cayley order. -/
theorem C102_pinned_reported (S : EigSolver) (D D0 : M3) (mu M : ℝ) (hD : Between D mu M) (h0 : NoTwist D0) (hdom : (D - D0).PosSemidef)
    (p : PlateNum) (ha : 0 < p.a) (hb : 0 < p.b) (hm : 3 ≤ p.m) (hn : 3 ≤ p.n) (hx : p.Nxx ≤ 0) (hy : p.Nyy ≤ 0) (hxy : p.Nxy = 0)
    (hload : 0 < -p.Nxx / p.a ^ 2 + -p.Nyy / p.b ^ 2) (hcond : bendErr p mu M < 1) (K KG : SqMat (p.m * p.n))
    (h : calcKKGD shipped (.ok D) (.str wPINNED) p = .ok (K, KG)) (hS : Honest S KG K)
    (hsort : ∀ k out, S _ KG K k = .ok out → CayleySorted out) (L : ℝ) (hL : ∀ l, NavierBound D0 p l → L ≤ l)
    (hone : 1 + tableAcc p.m p.n ≤ (1 - bendErr p mu M) * L) (numEig : ℤ) (st : PlateState (p.m * p.n)) (vals : List PyFloat)
    (vecs : List (Fin (p.m * p.n) → ℝ)) (hrun : (bucklingAnalysis S (.ok D) (.str wPINNED) p numEig st).1 = .ok (vals, vecs)) :
    ∃ lam, vals[0]? = some (.fin lam) ∧ (1 - bendErr p mu M) * L ≤ (1 + tableAcc p.m p.n) * lam ∧
      (1 - tableAcc p.m p.n) * lam ≤ (1 + bendErr p mu M) * rayleighQuart D p.a p.b (-p.Nxx) (-p.Nyy) := by
  obtain ⟨lam0, hl0, hmin, hnav, hup⟩ := C102_pinned D D0 mu M hD h0 hdom p ha hb hm hn hx hy hxy hload hcond K KG h
  have hlow : (1 - bendErr p mu M) * L ≤ (1 + tableAcc p.m p.n) * lam0 := by
    have := hL _ hnav
    rw [div_mul_eq_mul_div, le_div_iff₀ (by linarith)] at this
    linarith
  have hacc := tableAcc_pos p.m p.n
  exact ⟨lam0, head_critical hrun h hS hsort hl0 hmin (by nlinarith [hone.trans hlow]), hlow, hup⟩

/-- What `C102_clamped` says about a multiplier. -/
def Spec.StripBound (D0 : M3) (p : PlateNum) (lam : ℝ) : Prop :=
  π ^ 2 * (4 * D0 0 0 / p.a ^ 2 + (D0 0 1 + 2 * D0 2 2) / p.b ^ 2) ≤ lam * -p.Nxx ∨
  π ^ 2 * (4 * D0 1 1 / p.b ^ 2 + (D0 0 1 + 2 * D0 2 2) / p.a ^ 2) ≤ lam * -p.Nyy

/-- **C102** the first value reported for a clamped plate in compression. -/
theorem C102_clamped_reported (S : EigSolver) (D D0 : M3) (hD : D.PosDef) (h0 : NoTwist D0) (hdom : (D - D0).PosSemidef)
    (hH : 0 ≤ D0 0 1 + 2 * D0 2 2) (p : PlateNum) (ha : 0 < p.a) (hb : 0 < p.b) (hm : 1 ≤ p.m) (hn : 1 ≤ p.n) (hm' : p.m ≤ 26)
    (hn' : p.n ≤ 26) (hxy : p.Nxy = 0) (hload : 0 < -p.Nxx / p.a ^ 2 + -p.Nyy / p.b ^ 2) (K KG : SqMat (p.m * p.n))
    (h : calcKKGD shipped (.ok D) (.str wCLAMPED) p = .ok (K, KG)) (hS : Honest S KG K)
    (hsort : ∀ k out, S _ KG K k = .ok out → CayleySorted out) (hone : ∀ l, 0 < l → StripBound D0 p l → 1 ≤ l)
    (numEig : ℤ) (st : PlateState (p.m * p.n)) (vals : List PyFloat)
    (vecs : List (Fin (p.m * p.n) → ℝ)) (hrun : (bucklingAnalysis S (.ok D) (.str wCLAMPED) p numEig st).1 = .ok (vals, vecs)) :
    ∃ lam, vals[0]? = some (.fin lam) ∧ StripBound D0 p lam ∧ lam ≤ rayleigh D p.a p.b (-p.Nxx) (-p.Nyy) := by
  obtain ⟨l, hle, hl⟩ := C89_rayleigh D hD p ha hb hm hn hm' hn' hload K KG h
  have hpd := clamped_posDef hD ha hb hm hn hm' hn' h
  obtain ⟨lam0, hl0, hmin⟩ := exists_min_posMult hpd (C48_symmetric _ _ p hm hn K KG h).2 ⟨l, hl⟩
  have hb' := C102_clamped D D0 hD h0 hdom hH p ha hb hm hn hm' hn' hxy K KG h lam0 hl0
  exact ⟨lam0, head_critical hrun h hS hsort hl0 hmin (hone lam0 hl0.1 hb'), hb', (hmin l hl).trans hle⟩

/-! ## Square plates -/

theorem psd_of_dominant {A : M3} (hs : A.IsSymm) (h0 : |A 0 1| + |A 0 2| ≤ A 0 0) (h1 : |A 0 1| + |A 1 2| ≤ A 1 1)
    (h2 : |A 0 2| + |A 1 2| ≤ A 2 2) : A.PosSemidef := by
  refine Matrix.PosSemidef.of_dotProduct_mulVec_nonneg hs fun x => ?_
  have e10 : A 1 0 = A 0 1 := hs.apply 0 1
  have e20 : A 2 0 = A 0 2 := hs.apply 0 2
  have e21 : A 2 1 = A 1 2 := hs.apply 1 2
  have k : ∀ t y z : ℝ, 0 ≤ |t| * y ^ 2 + |t| * z ^ 2 + 2 * t * (y * z) := fun t y z => by
    rcases abs_cases t with ⟨e, h⟩ | ⟨e, h⟩ <;> rw [e]
    · nlinarith [mul_nonneg h (sq_nonneg (y + z))]
    · nlinarith [mul_nonneg (neg_nonneg.mpr h.le) (sq_nonneg (y - z))]
  have k1 := k (A 0 1) (x 0) (x 1)
  have k2 := k (A 0 2) (x 0) (x 2)
  have k3 := k (A 1 2) (x 1) (x 2)
  have m0 := mul_le_mul_of_nonneg_right h0 (sq_nonneg (x 0))
  have m1 := mul_le_mul_of_nonneg_right h1 (sq_nonneg (x 1))
  have m2 := mul_le_mul_of_nonneg_right h2 (sq_nonneg (x 2))
  simp only [dotProduct, Matrix.mulVec, Fin.sum_univ_three, star_trivial, e10, e20, e21]
  nlinarith

/-- A stiffness with equal bending in both directions and no coupling. -/
def Spec.evenD (d c g : ℝ) : M3 := !![d, c, 0; c, d, 0; 0, 0, g]

theorem evenD_noTwist {d c g : ℝ} (hc : 0 ≤ c) (hcd : c ≤ d) (hg : 0 ≤ g) : NoTwist (evenD d c g) := by
  refine ⟨psd_of_dominant ?_ ?_ ?_ ?_, rfl, rfl⟩
  · ext i j; fin_cases i <;> fin_cases j <;> rfl
  · show |c| + |(0 : ℝ)| ≤ d
    rw [abs_of_nonneg hc]; simpa using hcd
  · show |c| + |(0 : ℝ)| ≤ d
    rw [abs_of_nonneg hc]; simpa using hcd
  · show |(0 : ℝ)| + |(0 : ℝ)| ≤ g
    simpa using hg

theorem dominates_even {D : M3} (hs : D.IsSymm) {d c g : ℝ} (h0 : d + |D 0 1 - c| + |D 0 2| ≤ D 0 0) (h1 : d + |D 0 1 - c| + |D 1 2| ≤ D 1 1)
    (h2 : g + |D 0 2| + |D 1 2| ≤ D 2 2) : (D - evenD d c g).PosSemidef := by
  have he : (evenD d c g).IsSymm := by ext i j; fin_cases i <;> fin_cases j <;> rfl
  refine psd_of_dominant (hs.sub he) ?_ ?_ ?_
  · show |D 0 1 - c| + |D 0 2 - 0| ≤ D 0 0 - d
    rw [sub_zero]; linarith
  · show |D 0 1 - c| + |D 1 2 - 0| ≤ D 1 1 - d
    rw [sub_zero]; linarith
  · show |D 0 2 - 0| + |D 1 2 - 0| ≤ D 2 2 - g
    rw [sub_zero, sub_zero]; linarith

theorem smul_one_even (mu : ℝ) : mu • (1 : M3) = evenD mu 0 mu := by
  ext i j
  fin_cases i <;> fin_cases j <;> simp [evenD]

/-- Square plate compressed both ways alike: one half wave each way gives the least Navier multiplier. -/
theorem square_two {d c g a : ℝ} (hd : 0 ≤ d) (hH : 0 ≤ c + 2 * g) (ha : 0 < a) (m n : ℕ) (l : ℝ)
    (h : NavierBound (evenD d c g) ⟨a, a, -1, -1, 0, m, n⟩ l) : π ^ 2 / a ^ 2 * (d + (c + 2 * g)) ≤ l := by
  obtain ⟨i, j, hi, hj, h⟩ := h
  have hi' : (1 : ℝ) ≤ (i : ℝ) ^ 2 := one_le_pow₀ (by exact_mod_cast hi)
  have hj' : (1 : ℝ) ≤ (j : ℝ) ^ 2 := one_le_pow₀ (by exact_mod_cast hj)
  have hk : 0 < π ^ 2 / a ^ 2 := by positivity
  set k := π ^ 2 / a ^ 2
  set P := (i : ℝ) ^ 2
  set Q := (j : ℝ) ^ 2
  have w1 : wave a i = k * P := by simp only [wave, k, P]; ring
  have w2 : wave a j = k * Q := by simp only [wave, k, Q]; ring
  simp only [w1, w2, navierStiff] at h
  change d * (k * P) ^ 2 + 2 * (c + 2 * g) * (k * P * (k * Q)) + d * (k * Q) ^ 2 ≤ l * -(-1 * (k * P) + -1 * (k * Q)) at h
  set H := c + 2 * g
  have hz : k * (d * (P * (P - 1)) + d * (Q * (Q - 1)) + H * (P * (Q - 1) + Q * (P - 1))) + k * (d + H) * (P + Q) ≤ l * (P + Q) := by
    refine le_of_mul_le_mul_left ?_ hk
    nlinarith
  have hnn : 0 ≤ d * (P * (P - 1)) + d * (Q * (Q - 1)) + H * (P * (Q - 1) + Q * (P - 1)) := by
    have a1 := mul_nonneg (by linarith : 0 ≤ P) (by linarith : 0 ≤ P - 1)
    have a2 := mul_nonneg (by linarith : 0 ≤ Q) (by linarith : 0 ≤ Q - 1)
    have a3 := mul_nonneg (by linarith : 0 ≤ P) (by linarith : 0 ≤ Q - 1)
    have a4 := mul_nonneg (by linarith : 0 ≤ Q) (by linarith : 0 ≤ P - 1)
    positivity
  refine le_of_mul_le_mul_right ?_ (by linarith : 0 < P + Q)
  nlinarith [mul_nonneg hk.le hnn]

/-- Square plate compressed one way: one half wave each way gives the least Navier multiplier. -/
theorem square_one {d c g a : ℝ} (hd : 0 ≤ d) (hH : 0 ≤ c + 2 * g) (ha : 0 < a) (m n : ℕ) (l : ℝ)
    (h : NavierBound (evenD d c g) ⟨a, a, -1, 0, 0, m, n⟩ l) : π ^ 2 / a ^ 2 * (2 * (d + (c + 2 * g))) ≤ l := by
  obtain ⟨i, j, hi, hj, h⟩ := h
  have hi' : (1 : ℝ) ≤ (i : ℝ) ^ 2 := one_le_pow₀ (by exact_mod_cast hi)
  have hj' : (1 : ℝ) ≤ (j : ℝ) ^ 2 := one_le_pow₀ (by exact_mod_cast hj)
  have hk : 0 < π ^ 2 / a ^ 2 := by positivity
  set k := π ^ 2 / a ^ 2
  set P := (i : ℝ) ^ 2
  set Q := (j : ℝ) ^ 2
  have w1 : wave a i = k * P := by simp only [wave, k, P]; ring
  have w2 : wave a j = k * Q := by simp only [wave, k, Q]; ring
  simp only [w1, w2, navierStiff] at h
  change d * (k * P) ^ 2 + 2 * (c + 2 * g) * (k * P * (k * Q)) + d * (k * Q) ^ 2 ≤ l * -(-1 * (k * P) + 0 * (k * Q)) at h
  set H := c + 2 * g
  have hz : k * (d * (P - 1) ^ 2 + d * ((Q - 1) * (Q + 1)) + 2 * H * (P * (Q - 1))) + k * (2 * (d + H)) * P ≤ l * P := by
    refine le_of_mul_le_mul_left ?_ hk
    nlinarith
  have hnn : 0 ≤ d * (P - 1) ^ 2 + d * ((Q - 1) * (Q + 1)) + 2 * H * (P * (Q - 1)) := by
    have a2 := mul_nonneg (by linarith : 0 ≤ Q - 1) (by linarith : 0 ≤ Q + 1)
    have a3 := mul_nonneg (by linarith : 0 ≤ P) (by linarith : 0 ≤ Q - 1)
    positivity
  refine le_of_mul_le_mul_right ?_ (by linarith : 0 < P)
  nlinarith [mul_nonneg hk.le hnn]

/-! ## The references of the buckling tests -/

/-- `math.isclose(x, r, rel_tol, abs_tol)` -/
def Spec.IsClose (rel abs x r : ℝ) : Prop := |x - r| ≤ max (rel * max |x| |r|) abs

theorem isClose_of {x r : ℝ} (hr : 0 < r) (h1 : 0.9 * r ≤ x) (h2 : x ≤ 1.1 * r) : IsClose 0.1 1e-4 x r := by
  refine le_max_of_le_left ?_
  have : |r| ≤ max |x| |r| := le_max_right _ _
  rw [abs_of_pos hr] at this ⊢
  refine (abs_le.mpr ⟨?_, ?_⟩ : |x - r| ≤ 0.1 * r).trans (by linarith) <;> linarith

theorem pi_sq_bounds : 9.869 ≤ π ^ 2 ∧ π ^ 2 ≤ 9.87 := by
  have h1 := Real.pi_gt_d4
  have h2 := Real.pi_lt_d4
  constructor <;> nlinarith

/-- The laminate of `tests/test_plate_buckling.py`. -/
def testBuckling : List ExactPly :=
  [1, -1, 0, 2, 1, -1, 0, 2, 1, -1, -1, 1, 2, 0, -1, 1, 2, 0, -1, 1].map fun k => (k, mat 60800 58250 (7/100) 4550 (21/100))

/-- Bounds on the entries of a stiffness. -/
structure Spec.Box (D : M3) (d d' c e g g' : ℝ) : Prop where
  symm : D.IsSymm
  d0 : d ≤ D 0 0
  d0' : D 0 0 ≤ d'
  d1 : d ≤ D 1 1
  d1' : D 1 1 ≤ d'
  c : |D 0 1 - c| ≤ 1
  e0 : |D 0 2| ≤ e
  e1 : |D 1 2| ≤ e
  g : g ≤ D 2 2
  g' : D 2 2 ≤ g'

theorem Spec.Box.even {D : M3} {d d' c e g g' x y : ℝ} (h : Box D d d' c e g g') (hx : x + 1 + e ≤ d) (hy : y + 2 * e ≤ g) :
    (D - evenD x c y).PosSemidef :=
  dominates_even h.symm (by linarith [h.d0, h.c, h.e0]) (by linarith [h.d1, h.c, h.e1]) (by linarith [h.g, h.e0, h.e1])

theorem Spec.Box.between {D : M3} {d d' c e g g' : ℝ} (h : Box D d d' c e g g') {mu M : ℝ} (hmu : 0 < mu) (hc : 0 ≤ c) (h0 : mu + (c + 1) + e ≤ d)
    (h1 : mu + 2 * e ≤ g) (hM : d' ≤ M) (hc' : c + 1 ≤ M) (he : e ≤ M) (hg' : g' ≤ M) : Between D mu M := by
  have hc1 : |D 0 1| ≤ c + 1 := by
    obtain ⟨a1, a2⟩ := abs_le.mp h.c
    exact abs_le.mpr ⟨by linarith, by linarith⟩
  have e0 : 0 ≤ e := (abs_nonneg _).trans h.e0
  refine ⟨h.symm, ?_, hmu, fun i j => ?_⟩
  · rw [smul_one_even]
    exact dominates_even h.symm (by rw [sub_zero]; linarith [h.d0, h.e0]) (by rw [sub_zero]; linarith [h.d1, h.e1])
      (by linarith [h.g, h.e0, h.e1])
  · have s10 : D 1 0 = D 0 1 := h.symm.apply 0 1
    have s20 : D 2 0 = D 0 2 := h.symm.apply 0 2
    have s21 : D 2 1 = D 1 2 := h.symm.apply 1 2
    have a0 : |D 0 0| ≤ M := abs_le.mpr ⟨by linarith [h.d0], h.d0'.trans hM⟩
    have a1 : |D 1 1| ≤ M := abs_le.mpr ⟨by linarith [h.d1], h.d1'.trans hM⟩
    have a2 : |D 2 2| ≤ M := abs_le.mpr ⟨by linarith [h.g], h.g'.trans hg'⟩
    have b0 := h.e0.trans he
    have b1 := h.e1.trans he
    have b2 := hc1.trans hc'
    fin_cases i <;> fin_cases j
    · exact a0
    · exact b2
    · exact b0
    · exact (congrArg abs s10).le.trans b2
    · exact a1
    · exact b1
    · exact (congrArg abs s20).le.trans b0
    · exact (congrArg abs s21).le.trans b1
    · exact a2

theorem exactSum_symm (f : ℚ → ℚ) (z : ℚ) (P : List ExactPly) : (exactSum f exactQ z P).IsSymm := by
  induction P generalizing z with
  | nil => exact Matrix.isSymm_zero
  | cons p P ih =>
    have hq : (exactQ p).IsSymm := by ext i j; fin_cases i <;> fin_cases j <;> rfl
    exact (hq.smul _).add (ih _)

theorem exactD_symm (P : List ExactPly) : ((exactD P).map ((↑) : ℚ → ℝ)).IsSymm := (exactSum_symm _ _ P).map _

/-- The same bounds on rational entries. -/
def Spec.QBox (D : Matrix (Fin 3) (Fin 3) ℚ) (d d' c e g g' : ℚ) : Prop :=
  d ≤ D 0 0 ∧ D 0 0 ≤ d' ∧ d ≤ D 1 1 ∧ D 1 1 ≤ d' ∧ |D 0 1 - c| ≤ 1 ∧ |D 0 2| ≤ e ∧ |D 1 2| ≤ e ∧ g ≤ D 2 2 ∧ D 2 2 ≤ g'

instance (D : Matrix (Fin 3) (Fin 3) ℚ) (d d' c e g g' : ℚ) : Decidable (QBox D d d' c e g g') := by
  unfold QBox; infer_instance

theorem box_of (P : List ExactPly) {d d' c e g g' : ℚ} (h : QBox (exactD P) d d' c e g g') :
    Box ((exactD P).map ((↑) : ℚ → ℝ)) d d' c e g g' := by
  obtain ⟨h1, h2, h3, h4, h5, h6, h7, h8, h9⟩ := h
  refine ⟨exactD_symm _, ?_, ?_, ?_, ?_, ?_, ?_, ?_, ?_, ?_⟩ <;> simp only [Matrix.map_apply]
  · exact_mod_cast h1
  · exact_mod_cast h2
  · exact_mod_cast h3
  · exact_mod_cast h4
  · exact_mod_cast h5
  · exact_mod_cast h6
  · exact_mod_cast h7
  · exact_mod_cast h8
  · exact_mod_cast h9

theorem testBuckling_box : Box ((exactD testBuckling).map ((↑) : ℚ → ℝ)) 275500 276500 118528 357 121300 121400 := by
  have := box_of testBuckling (d := 275500) (d' := 276500) (c := 118528) (e := 357) (g := 121300) (g' := 121400) (by decide +kernel)
  norm_num at this
  exact this

/-- `tests/test_plate_buckling.py`, the laminate: built, with a readable `D`. -/
theorem testBuckling_built : ∃ l, Lam.init (.angles [45, -45, 0, 90, 45, -45, 0, 90, 45, -45, -45, 45, 90, 0, -45, 45, 90, 0, -45, 45])
    (.single (Spec.realMat (mat 60800 58250 (7/100) 4550 (21/100)))) = .ok l ∧ l.D = .ok ((exactD testBuckling).map (↑)) := by
  obtain ⟨l, hl, hs, hlay⟩ := (C101_built [1, -1, 0, 2, 1, -1, 0, 2, 1, -1, -1, 1, 2, 0, -1, 1, 2, 0, -1, 1]
    (mat 60800 58250 (7/100) 4550 (21/100)) []).1
  refine ⟨l, ?_, ((C101_stiffness l hs testBuckling hlay).1 (by decide +kernel)).2.2⟩
  rw [← hl]; norm_num

theorem runs_ten (D : M3) (p : PlateNum) (ha : p.a ≠ 0) (hb : p.b ≠ 0) (hm : p.m = 10) (hn : p.n = 10) (w : Str)
    (hw : w = wPINNED ∨ w = wCLAMPED) : ∃ K KG, calcKKGD shipped (.ok D) (.str w) p = .ok (K, KG) := by
  obtain ⟨s, hs⟩ := (C40_accepted_iff (.str w) p.m p.n).mpr (by rcases hw with rfl | rfl <;> exact ⟨_, rfl⟩)
  obtain ⟨⟨K, KG⟩, h⟩ := (C51_computed_iff D (.str w) p s hs ha hb).1 fun q hq => by
    have := widx_range hs q hq
    omega
  exact ⟨K, KG, h⟩

/-- **C102** `tests/test_plate_buckling.py`, `test_pinned_plate`: for every solver that keeps the contract of `eigsh` and returns the
pairs in Cayley order, the first value is close to the reference in the sense of the test. -/
theorem C102_test_pinned (S : EigSolver) :
    let p : PlateNum := ⟨360, 360, -1, -1, 0, 10, 10⟩
    ∃ l K KG, Lam.init (.angles [45, -45, 0, 90, 45, -45, 0, 90, 45, -45, -45, 45, 90, 0, -45, 45, 90, 0, -45, 45])
      (.single (Spec.realMat (mat 60800 58250 (7/100) 4550 (21/100)))) = .ok l ∧
    calcKKGD shipped l.D (.str wPINNED) p = .ok (K, KG) ∧ K.PosDef ∧ KG.IsSymm ∧
    (Honest S KG K → (∀ k out, S _ KG K k = .ok out → CayleySorted out) → ∀ numEig st vals vecs,
      (bucklingAnalysis S l.D (.str wPINNED) p numEig st).1 = .ok (vals, vecs) →
      ∃ lam, vals[0]? = some (.fin lam) ∧ IsClose 0.1 1e-4 lam 48.52457849) := by
  intro p
  obtain ⟨l, hl, hD⟩ := testBuckling_built
  have hbox := testBuckling_box
  set D : M3 := (exactD testBuckling).map (↑)
  obtain ⟨K, KG, hK⟩ := runs_ten D p (by norm_num [p]) (by norm_num [p]) rfl rfl wPINNED (.inl rfl)
  have hbt : Between D 100000 300000 := hbox.between (by norm_num) (by norm_num) (by norm_num) (by norm_num) (by norm_num) (by norm_num)
    (by norm_num) (by norm_num)
  have hacc : tableAcc p.m p.n = 3e-9 := by simp [tableAcc, p]
  have herr : bendErr p 100000 300000 = 2.7e-8 := by rw [bendErr, hacc]; norm_num
  have hpd := C100_posDef D _ _ hbt (.str wPINNED) p (by norm_num [p]) (by norm_num [p]) (by norm_num [p]) (by norm_num [p]) _ rfl
    ⟨by decide, by decide, by decide, by decide⟩ (by rw [herr]; norm_num) K KG hK
  refine ⟨l, K, KG, hl, by rw [hD]; exact hK, hpd, (C48_symmetric _ _ p (by norm_num [p]) (by norm_num [p]) K KG hK).2, ?_⟩
  rw [hD]
  intro hS hsort numEig st vals vecs hrun
  obtain ⟨q1, q2⟩ := pi_sq_bounds
  obtain ⟨lam, h1, h2, h3⟩ := C102_pinned_reported S D (evenD 270000 118528 120000) _ _ hbt
    (evenD_noTwist (by norm_num) (by norm_num) (by norm_num)) (hbox.even (by norm_num) (by norm_num)) p (by norm_num [p])
    (by norm_num [p]) (by norm_num [p]) (by norm_num [p]) (by norm_num [p]) (by norm_num [p]) rfl (by norm_num [p])
    (by rw [herr]; norm_num) K KG hK hS hsort 47 (fun t ht => by
      have := square_two (by norm_num) (by norm_num) (by norm_num) _ _ t ht
      norm_num at this
      linarith) (by rw [herr, hacc]; norm_num) numEig st vals vecs hrun
  refine ⟨lam, h1, isClose_of (by norm_num) ?_ ?_⟩
  · rw [herr, hacc] at h2
    norm_num at h2 ⊢
    linarith
  · rw [herr, hacc] at h3
    have hq : rayleighQuart D p.a p.b (-p.Nxx) (-p.Nyy) ≤ 50 := by
      have u1 := hbox.d0'
      have u2 := hbox.d1'
      have u3 := hbox.g'
      have u4 := (abs_le.mp hbox.c).2
      simp only [rayleighQuart, p]
      norm_num
      rw [div_le_iff₀ (by norm_num)]
      linarith
    norm_num at h3 hq ⊢
    linarith

/-- **C102** `tests/test_plate_buckling.py`, `test_clamped_plate`. -/
theorem C102_test_clamped (S : EigSolver) :
    let p : PlateNum := ⟨360, 360, -1, -1, 0, 10, 10⟩
    ∃ l K KG, Lam.init (.angles [45, -45, 0, 90, 45, -45, 0, 90, 45, -45, -45, 45, 90, 0, -45, 45, 90, 0, -45, 45])
      (.single (Spec.realMat (mat 60800 58250 (7/100) 4550 (21/100)))) = .ok l ∧
    calcKKGD shipped l.D (.str wCLAMPED) p = .ok (K, KG) ∧ K.PosDef ∧ KG.IsSymm ∧
    (Honest S KG K → (∀ k out, S _ KG K k = .ok out → CayleySorted out) → ∀ numEig st vals vecs,
      (bucklingAnalysis S l.D (.str wCLAMPED) p numEig st).1 = .ok (vals, vecs) →
      ∃ lam, vals[0]? = some (.fin lam) ∧ IsClose 0.1 1e-4 lam 119.76079572) := by
  intro p
  obtain ⟨l, hl, hD⟩ := testBuckling_built
  have hbox := testBuckling_box
  set D : M3 := (exactD testBuckling).map (↑)
  obtain ⟨K, KG, hK⟩ := runs_ten D p (by norm_num [p]) (by norm_num [p]) rfl rfl wCLAMPED (.inr rfl)
  have hbt : Between D 100000 300000 := hbox.between (by norm_num) (by norm_num) (by norm_num) (by norm_num) (by norm_num) (by norm_num)
    (by norm_num) (by norm_num)
  have hpd := clamped_posDef hbt.posDef (by norm_num [p]) (by norm_num [p]) (by norm_num [p]) (by norm_num [p]) (by norm_num [p])
    (by norm_num [p]) hK
  refine ⟨l, K, KG, hl, by rw [hD]; exact hK, hpd, (C48_symmetric _ _ p (by norm_num [p]) (by norm_num [p]) K KG hK).2, ?_⟩
  rw [hD]
  intro hS hsort numEig st vals vecs hrun
  obtain ⟨q1, q2⟩ := pi_sq_bounds
  have hlow : ∀ t, StripBound (evenD 270000 118528 120000) p t → 109 ≤ t := fun t ht => by
    rcases ht with h | h
    · change π ^ 2 * (4 * 270000 / 360 ^ 2 + (118528 + 2 * 120000) / 360 ^ 2) ≤ t * -(-1) at h
      linarith
    · change π ^ 2 * (4 * 270000 / 360 ^ 2 + (118528 + 2 * 120000) / 360 ^ 2) ≤ t * -(-1) at h
      linarith
  obtain ⟨lam, h1, h2, h3⟩ := C102_clamped_reported S D (evenD 270000 118528 120000) hbt.posDef
    (evenD_noTwist (by norm_num) (by norm_num) (by norm_num)) (hbox.even (by norm_num) (by norm_num))
    (by show (0 : ℝ) ≤ 118528 + 2 * 120000; norm_num) p (by norm_num [p])
    (by norm_num [p]) (by norm_num [p]) (by norm_num [p]) (by norm_num [p]) (by norm_num [p]) rfl (by norm_num [p])
    K KG hK hS hsort (fun t _ ht => by linarith [hlow t ht]) numEig st vals vecs hrun
  refine ⟨lam, h1, isClose_of (by norm_num) ?_ ?_⟩
  · have := hlow lam h2
    norm_num
    linarith
  · have hq : rayleigh D p.a p.b (-p.Nxx) (-p.Nyy) ≤ 125 := by
      have u1 := hbox.d0'
      have u2 := hbox.d1'
      have u3 := hbox.g'
      have u4 := (abs_le.mp hbox.c).2
      simp only [rayleigh, p]
      norm_num
      rw [div_le_iff₀ (by norm_num)]
      linarith
    norm_num
    linarith

/-! `tests/test_plate_buckling_LP.py` -/

/-- What the two tests share: a stiffness near that of plies at 45 and -45 degrees. -/
theorem testLP_close (S : EigSolver) (D : M3) (hbox : Box D 1878 1879 1119.91 34 1322 1323) :
    let p : PlateNum := ⟨200, 200, -1, 0, 0, 10, 10⟩
    ∃ K KG, calcKKGD shipped (.ok D) (.str wPINNED) p = .ok (K, KG) ∧ K.PosDef ∧ KG.IsSymm ∧
    (Honest S KG K → (∀ k out, S _ KG K k = .ok out → CayleySorted out) → ∀ numEig st vals vecs,
      (bucklingAnalysis S (.ok D) (.str wPINNED) p numEig st).1 = .ok (vals, vecs) →
      ∃ lam, vals[0]? = some (.fin lam) ∧ IsClose 0.1 1e-4 lam 2.784) := by
  intro p
  obtain ⟨K, KG, hK⟩ := runs_ten D p (by norm_num [p]) (by norm_num [p]) rfl rfl wPINNED (.inl rfl)
  have hbt : Between D 500 2000 := hbox.between (by norm_num) (by norm_num) (by norm_num) (by norm_num) (by norm_num) (by norm_num)
    (by norm_num) (by norm_num)
  have hacc : tableAcc p.m p.n = 3e-9 := by simp [tableAcc, p]
  have herr : bendErr p 500 2000 = 3.6e-8 := by rw [bendErr, hacc]; norm_num
  have hpd := C100_posDef D _ _ hbt (.str wPINNED) p (by norm_num [p]) (by norm_num [p]) (by norm_num [p]) (by norm_num [p]) _ rfl
    ⟨by decide, by decide, by decide, by decide⟩ (by rw [herr]; norm_num) K KG hK
  refine ⟨K, KG, hK, hpd, (C48_symmetric _ _ p (by norm_num [p]) (by norm_num [p]) K KG hK).2, ?_⟩
  intro hS hsort numEig st vals vecs hrun
  obtain ⟨q1, q2⟩ := pi_sq_bounds
  obtain ⟨lam, h1, h2, h3⟩ := C102_pinned_reported S D (evenD 1800 1119.91 1250) _ _ hbt
    (evenD_noTwist (by norm_num) (by norm_num) (by norm_num)) (hbox.even (by norm_num) (by norm_num)) p (by norm_num [p])
    (by norm_num [p]) (by norm_num [p]) (by norm_num [p]) (by norm_num [p]) (by norm_num [p]) rfl (by norm_num [p])
    (by rw [herr]; norm_num) K KG hK hS hsort 2.6 (fun t ht => by
      have := square_one (by norm_num) (by norm_num) (by norm_num) _ _ t ht
      norm_num at this ⊢
      linarith) (by rw [herr, hacc]; norm_num) numEig st vals vecs hrun
  refine ⟨lam, h1, isClose_of (by norm_num) ?_ ?_⟩
  · rw [herr, hacc] at h2
    norm_num at h2 ⊢
    linarith
  · rw [herr, hacc] at h3
    have hq : rayleighQuart D p.a p.b (-p.Nxx) (-p.Nyy) ≤ 2.8 := by
      have u1 := hbox.d0'
      have u2 := hbox.d1'
      have u3 := hbox.g'
      have u4 := (abs_le.mp hbox.c).2
      simp only [rayleighQuart, p]
      norm_num at u4 ⊢
      rw [div_le_iff₀ (by norm_num)]
      linarith
    norm_num at h3 hq ⊢
    linarith

/-- The laminate of `test_equivalent_plate`. -/
def testLPstack : List ExactPly :=
  ((List.replicate 25 [1, -1]).flatten ++ (List.replicate 25 [1, -1]).flatten.reverse).map fun k => (k, mat 60000 7000 (3/10) 4550 (1/100))

theorem testLPstack_box : Box ((exactD testLPstack).map ((↑) : ℚ → ℝ)) 1878 1879 1119.91 34 1322 1323 := by
  have := box_of testLPstack (d := 1878) (d' := 1879) (c := 111991 / 100) (e := 34) (g := 1322) (g' := 1323) (by decide +kernel)
  norm_num at this ⊢
  exact this

/-- **C102** `tests/test_plate_buckling_LP.py`, `test_equivalent_plate`. -/
theorem C102_test_equivalent (S : EigSolver) :
    let p : PlateNum := ⟨200, 200, -1, 0, 0, 10, 10⟩
    let half : List ℝ := (List.replicate 25 [45, -45]).flatten
    ∃ l K KG, Lam.init (.angles (half ++ half.reverse)) (.single (Spec.realMat (mat 60000 7000 (3/10) 4550 (1/100)))) = .ok l ∧
    calcKKGD shipped l.D (.str wPINNED) p = .ok (K, KG) ∧ K.PosDef ∧ KG.IsSymm ∧
    (Honest S KG K → (∀ k out, S _ KG K k = .ok out → CayleySorted out) → ∀ numEig st vals vecs,
      (bucklingAnalysis S l.D (.str wPINNED) p numEig st).1 = .ok (vals, vecs) →
      ∃ lam, vals[0]? = some (.fin lam) ∧ IsClose 0.1 1e-4 lam 2.784) := by
  intro p half
  obtain ⟨l, hl, hs, hlay⟩ := (C101_built ((List.replicate 25 [1, -1]).flatten ++ (List.replicate 25 [1, -1]).flatten.reverse)
    (mat 60000 7000 (3/10) 4550 (1/100)) []).1
  have hp : ∀ p ∈ testLPstack, poisson p.2 ≠ 0 := fun p hp => by
    obtain ⟨k, -, rfl⟩ := List.mem_map.mp hp
    norm_num [poisson, mat]
  have hD := ((C101_stiffness l hs testLPstack (by rw [testLPstack]; exact hlay)).1 hp).2.2
  obtain ⟨K, KG, h⟩ := testLP_close S _ testLPstack_box
  rw [← hD] at h
  refine ⟨l, K, KG, ?_, h⟩
  rw [← hl]
  have e : (List.replicate 25 [(1 : ℤ), -1]).flatten.map (fun k : ℤ => 45 * (k : ℝ)) = half := by
    rw [List.map_flatten, List.map_replicate]
    simp [half]
  rw [List.map_append, List.map_reverse, e]

/-- **C102** `tests/test_plate_buckling_LP.py`, `test_LP_plate`: the laminate given by lamination parameters. -/
theorem C102_test_LP (S : EigSolver) :
    let p : PlateNum := ⟨200, 200, -1, 0, 0, 10, 10⟩
    ∃ l K KG, Lam.init (.dict ⟨none, none, some (.vec [0, 0, -1, 0]), some (.num 1)⟩)
      (.single (Spec.realMat (mat 60000 7000 (3/10) 4550 (1/100)))) = .ok l ∧
    calcKKGD shipped l.D (.str wPINNED) p = .ok (K, KG) ∧ K.PosDef ∧ KG.IsSymm ∧
    (Honest S KG K → (∀ k out, S _ KG K k = .ok out → CayleySorted out) → ∀ numEig st vals vecs,
      (bucklingAnalysis S l.D (.str wPINNED) p numEig st).1 = .ok (vals, vecs) →
      ∃ lam, vals[0]? = some (.fin lam) ∧ IsClose 0.1 1e-4 lam 2.784) := by
  intro p
  have hQ := realMat_Q0 (mat 60000 7000 (3/10) 4550 (1/100)) (by norm_num [poisson, mat])
  generalize hQd : (!![_, _, _; _, _, _; _, _, _] : M3) = Q at hQ
  set U := invariantsOf Q with hUdef
  have hU : (Spec.realMat (mat 60000 7000 (3/10) 4550 (1/100))).invariants = .ok U := by
    show (do let Q ← (Spec.realMat (mat 60000 7000 (3/10) 4550 (1/100))).Q0; return invariantsOf Q) = Except.ok U
    rw [hQ]
    rfl
  obtain ⟨l, hl⟩ : ∃ l, Lam.init (.dict ⟨none, none, some (.vec [0, 0, -1, 0]), some (.num 1)⟩)
      (.single (Spec.realMat (mat 60000 7000 (3/10) 4550 (1/100)))) = .ok l := ⟨_, rfl⟩
  have hD := (C26_lp_matrices _ _ l hl U hU 1 rfl).2.2.2 ![0, 0, -1, 0] rfl
  have hbox : Box (lpStiffness (1 ^ 3 / 12) U ![0, 0, -1, 0]) 1878 1879 1119.91 34 1322 1323 := by
    refine ⟨?_, ?_, ?_, ?_, ?_, ?_, ?_, ?_, ?_, ?_⟩
    · ext i j
      fin_cases i <;> fin_cases j <;> rfl
    all_goals
      simp [lpStiffness, invariantQ, hUdef, ← hQd, invariantsOf, poisson, mat]
      try norm_num [abs_le]
  obtain ⟨K, KG, h⟩ := testLP_close S _ hbox
  rw [← hD] at h
  exact ⟨l, K, KG, hl, h⟩

/-- Non-vacuity of C102: there is a solver that meets the hypotheses of the four tests and returns a result for five eigenvalues. -/
example : ∃ S : EigSolver, let p : PlateNum := ⟨360, 360, -1, -1, 0, 10, 10⟩
    ∃ l K KG, calcKKGD shipped (Lam.D l) (.str wPINNED) p = .ok (K, KG) ∧ Honest S KG K ∧
      (∀ k out, S _ KG K k = .ok out → CayleySorted out) ∧
      ∃ r, (bucklingAnalysis S l.D (.str wPINNED) p 5 (PlateState.fresh _)).1 = .ok r := by
  obtain ⟨S, hS⟩ := exists_honest
  obtain ⟨l, K, KG, hl, hK, hpd, hsym, -⟩ := C102_test_pinned S
  obtain ⟨h1, h2, h3⟩ := hS _ KG K hsym hpd
  refine ⟨S, l, K, KG, hK, h1, h2, ?_⟩
  obtain ⟨D, hD⟩ : ∃ D, l.D = .ok D := by
    cases h : l.D with
    | ok D => exact ⟨D, rfl⟩
    | error e => rw [h] at hK; cases hK
  obtain ⟨K', KG', hK', -, hr⟩ := (((C93_outcome S l.D (.str wPINNED) ⟨360, 360, -1, -1, 0, 10, 10⟩ (by norm_num) (by norm_num) 5
    (PlateState.fresh _)).2 D hD).2 _ rfl).2.2 (by norm_num) (by norm_num) (by decide) (by decide)
  obtain ⟨rfl, rfl⟩ := Prod.mk.inj (Except.ok.inj (hK.symm.trans hK'))
  obtain ⟨out, ho⟩ := h3 5 (by norm_num)
  have := hr (by norm_num) (by norm_num)
  change _ = (S _ KG K 5).map _ at this
  rw [ho] at this
  exact ⟨_, this⟩

end Composipy
