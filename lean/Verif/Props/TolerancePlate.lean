import Verif.Props.Sensitivity

/-!
# C127: how the multipliers depend on the sides and the loads of the plate
-/

namespace Composipy
open Spec Matrix Real

namespace Spec

/-- Change of the factors `b / a^3`, `1 / (a b)`, `1 / a^2` when the sides change by the fraction `e`. -/
noncomputable def sideErr (e : ℝ) : ℝ := (1 + e) / (1 - e) ^ 3 - 1

/-- Change of the loads times `b / a` when loads and sides change by the fraction `e`. -/
noncomputable def edgeErr (e : ℝ) : ℝ := (1 + e) ^ 2 / (1 - e) - 1

/-- Bound of the work of loads up to `n`, in units of the bending energy. -/
noncomputable def workSize (p : PlateNum) (mu M n : ℝ) : ℝ := n * (1 + tableAcc p.m p.n) * (p.a ^ 2 + p.b ^ 2) / (3 * π ^ 2 * (mu * (1 - bendErr p mu M)))

/-- The plate with other sides and loads. -/
def _root_.Composipy.PlateNum.with (p : PlateNum) (a b x y t : ℝ) : PlateNum := ⟨a, b, x, y, t, p.m, p.n⟩

end Spec

theorem RelTol.ratio {e x x' : ℝ} (he1 : e < 1) (hx : 0 < x) (h : RelTol e x x') : 0 < x' ∧ (1 - e) * x ≤ x' ∧ x' ≤ (1 + e) * x := by
  rw [RelTol, abs_of_pos hx] at h
  have := abs_le.mp h
  refine ⟨?_, by linarith, by linarith⟩
  nlinarith

/-- Products of ratios of the sides. -/
theorem ratio_near {e x x' y y' : ℝ} (he : 0 ≤ e) (he1 : e < 1) (hx : 0 < x) (hy : 0 < y) (hx' : RelTol e x x') (hy' : RelTol e y y') :
    |y' / y * (x / x') ^ 3 - 1| ≤ sideErr e ∧ |x / x' * (y / y') - 1| ≤ sideErr e ∧ |(x / x') ^ 2 - 1| ≤ sideErr e ∧ |y' / y * (x / x')| ≤ (1 + e) / (1 - e) := by
  obtain ⟨x0, x1, x2⟩ := RelTol.ratio he1 hx hx'
  obtain ⟨y0, y1, y2⟩ := RelTol.ratio he1 hy hy'
  have h1 : 0 < 1 - e := by linarith
  have h1' : 0 < 1 + e := by linarith
  set r := x / x' with hr
  set s := y / y' with hs
  have key : ∀ z z' : ℝ, 0 < z → 0 < z' → (1 - e) * z ≤ z' → z' ≤ (1 + e) * z → 1 / (1 + e) ≤ z / z' ∧ z / z' ≤ 1 / (1 - e) := fun z z' hz hz' a b => by
    constructor
    · rw [div_le_div_iff₀ h1' hz']; linarith
    · rw [div_le_div_iff₀ hz' h1]; linarith
  obtain ⟨r1, r2⟩ := key x x' hx x0 x1 x2
  obtain ⟨s1, s2⟩ := key y y' hy y0 y1 y2
  have t1 : 1 - e ≤ y' / y := by rw [le_div_iff₀ hy]; exact y1
  have t2 : y' / y ≤ 1 + e := by rw [div_le_iff₀ hy]; exact y2
  have u0 : 0 < 1 / (1 + e) := by positivity
  have v0 : 0 < 1 / (1 - e) := by positivity
  have r0 : 0 < r := u0.trans_le r1
  have s0 : 0 < s := u0.trans_le s1
  have v1 : 1 ≤ 1 / (1 - e) := by rw [le_div_iff₀ h1]; linarith
  have uv : 1 / (1 + e) * (1 + e) = 1 := by field_simp
  have vv : 1 / (1 - e) * (1 - e) = 1 := by field_simp
  have hS : sideErr e = (1 + e) * (1 / (1 - e)) ^ 3 - 1 := by rw [sideErr, _root_.one_div_pow, mul_one_div]
  set u := 1 / (1 + e)
  set v := 1 / (1 - e)
  have hsm : ∀ q lo : ℝ, 0 < lo → lo ≤ q → q ≤ (1 + e) * v ^ 3 → 1 ≤ lo * ((1 + e) * v ^ 3) → |q - 1| ≤ sideErr e := fun q lo h0 ha hb hc => by
    rw [hS]
    set W := (1 + e) * v ^ 3
    have hW : 1 ≤ W := by
      have : 1 ≤ v ^ 3 := one_le_pow₀ v1
      nlinarith
    refine abs_le.mpr ⟨?_, by linarith⟩
    have : 1 ≤ q * W := hc.trans (mul_le_mul_of_nonneg_right ha (by linarith))
    nlinarith [sq_nonneg (W - 1), sq_nonneg (q - 1)]
  have euv : 1 ≤ v * u ∧ 1 ≤ (1 + e) * v := by
    have hvu : v * u * ((1 - e) * (1 + e)) = 1 := by
      calc v * u * ((1 - e) * (1 + e)) = (v * (1 - e)) * (u * (1 + e)) := by ring
        _ = 1 := by rw [vv, uv, one_mul]
    constructor
    · have : 0 < v * u := mul_pos v0 u0
      nlinarith [mul_nonneg (mul_nonneg this.le he) he]
    · nlinarith
  have v23 : v ^ 2 ≤ (1 + e) * v ^ 3 := by
    have := mul_le_mul_of_nonneg_left euv.2 (sq_nonneg v)
    calc v ^ 2 = v ^ 2 * 1 := by ring
      _ ≤ v ^ 2 * ((1 + e) * v) := this
      _ = _ := by ring
  have p1 : ∀ n, 1 ≤ v ^ n := fun n => one_le_pow₀ v1
  have p2 : ∀ n, 1 ≤ (v * u) ^ n := fun n => one_le_pow₀ euv.1
  refine ⟨hsm _ ((1 - e) * u ^ 3) (by positivity) ?_ ?_ ?_, hsm _ (u ^ 2) (by positivity) ?_ ?_ ?_, hsm _ (u ^ 2) (by positivity) ?_ ?_ ?_, ?_⟩
  · exact mul_le_mul t1 (pow_le_pow_left₀ u0.le r1 3) (by positivity) (by linarith)
  · exact mul_le_mul t2 (pow_le_pow_left₀ r0.le r2 3) (by positivity) (by linarith)
  · have e1 : (1 - e) * u ^ 3 * ((1 + e) * v ^ 3) = (v * (1 - e)) * (u * (1 + e)) * (v * u) ^ 2 := by ring
    rw [e1, vv, uv, one_mul, one_mul]
    exact p2 2
  · rw [pow_two]; exact mul_le_mul r1 s1 u0.le r0.le
  · refine le_trans ?_ v23
    rw [pow_two]; exact mul_le_mul r2 s2 s0.le v0.le
  · have e1 : u ^ 2 * ((1 + e) * v ^ 3) = (u * (1 + e)) * (v * u) * v ^ 2 := by ring
    rw [e1, uv, one_mul]
    exact one_le_mul_of_one_le_of_one_le euv.1 (p1 2)
  · exact pow_le_pow_left₀ u0.le r1 2
  · exact (pow_le_pow_left₀ r0.le r2 2).trans v23
  · have e1 : u ^ 2 * ((1 + e) * v ^ 3) = (u * (1 + e)) * (v * u) * v ^ 2 := by ring
    rw [e1, uv, one_mul]
    exact one_le_mul_of_one_le_of_one_le euv.1 (p1 2)
  · rw [abs_of_pos (by positivity), show (1 + e) / (1 - e) = (1 + e) * v from (mul_one_div _ _).symm]
    exact mul_le_mul t2 r2 r0.le (by linarith)

/-- The stiffness that has on the sides `a`, `b` the matrix of `D` on the sides `a'`, `b'`. -/
noncomputable def sideStiff (a b a' b' : ℝ) (D : M3) : M3 :=
  !![b' / b * (a / a') ^ 3 * D 0 0, D 0 1, D 0 2;
     a / a' * (b / b') * D 1 0, a' / a * (b / b') ^ 3 * D 1 1, D 1 2;
     (a / a') ^ 2 * D 2 0, (b / b') ^ 2 * D 2 1, a / a' * (b / b') * D 2 2]

theorem kMat_sides (V : RTables) {a b a' b' : ℝ} (ha : a ≠ 0) (hb : b ≠ 0) (ha' : a' ≠ 0) (hb' : b' ≠ 0) (D : M3) (w : List (ℕ × ℕ)) (N : ℕ) :
    kMat V a' b' D w N = kMat V a b (sideStiff a b a' b' D) w N := by
  ext r c
  simp only [kMat, of_apply, k33v, sideStiff, cons_val', cons_val_zero, cons_val_one, cons_val, cons_val_fin_one]
  field_simp

theorem gMat_sides (V : RTables) {a b a' b' : ℝ} (ha : a ≠ 0) (hb : b ≠ 0) (ha' : a' ≠ 0) (hb' : b' ≠ 0) (x y t : ℝ) (w : List (ℕ × ℕ)) (N : ℕ) :
    gMat V a' b' x y t w N = gMat V a b (x * (b' / b * (a / a'))) (y * (a' / a * (b / b'))) t w N := by
  ext r c
  simp only [gMat, of_apply, g33v]
  field_simp

theorem sideStiff_near {e a b a' b' : ℝ} (he : 0 ≤ e) (he1 : e < 1) (ha : 0 < a) (hb : 0 < b) (ha' : RelTol e a a') (hb' : RelTol e b b') (D : M3) (i j : Fin 3) :
    |sideStiff a b a' b' D i j - D i j| ≤ sideErr e * |D i j| := by
  obtain ⟨x1, x2, x3, -⟩ := ratio_near he he1 ha hb ha' hb'
  obtain ⟨y1, y2, y3, -⟩ := ratio_near he he1 hb ha hb' ha'
  have hS : 0 ≤ sideErr e := (abs_nonneg _).trans x1
  have key : ∀ q d : ℝ, |q - 1| ≤ sideErr e → |q * d - d| ≤ sideErr e * |d| := fun q d h => by
    rw [show q * d - d = (q - 1) * d by ring, abs_mul]
    exact mul_le_mul_of_nonneg_right h (abs_nonneg _)
  have z : ∀ d : ℝ, |d - d| ≤ sideErr e * |d| := fun d => by rw [sub_self, abs_zero]; positivity
  fin_cases i <;> fin_cases j
  · exact key _ _ x1
  · exact z _
  · exact z _
  · exact key _ _ x2
  · exact key _ _ y1
  · exact z _
  · exact key _ _ x3
  · exact key _ _ y3
  · exact key _ _ x2

theorem edge_near {e a b a' b' x x' : ℝ} (he : 0 ≤ e) (he1 : e < 1) (ha : 0 < a) (hb : 0 < b) (ha' : RelTol e a a') (hb' : RelTol e b b') (hx : RelTol e x x') :
    |x' * (b' / b * (a / a')) - x| ≤ edgeErr e * |x| ∧ |x' - x| ≤ edgeErr e * |x| ∧ 0 ≤ edgeErr e := by
  obtain ⟨a0, a1, a2⟩ := RelTol.ratio he1 ha ha'
  obtain ⟨b0, b1, b2⟩ := RelTol.ratio he1 hb hb'
  have h1 : 0 < 1 - e := by linarith
  have q2 : b' / b * (a / a') ≤ (1 + e) / (1 - e) := (le_abs_self _).trans (ratio_near he he1 ha hb ha' hb').2.2.2
  have q1 : (1 - e) / (1 + e) ≤ b' / b * (a / a') := by
    rw [div_mul_div_comm, div_le_div_iff₀ (by linarith) (by positivity)]
    have := mul_le_mul b1 a2 a0.le b0.le
    nlinarith [mul_pos ha hb, mul_le_mul_of_nonneg_right b1 ha.le, mul_le_mul_of_nonneg_left a2 hb.le]
  have hE : edgeErr e = (1 + e) * ((1 + e) / (1 - e)) - 1 := by unfold edgeErr; ring
  have hee : 1 + e ≤ (1 + e) / (1 - e) := by rw [le_div_iff₀ h1]; nlinarith
  have hge : e ≤ edgeErr e := by rw [hE]; nlinarith
  rw [RelTol] at hx
  set q := b' / b * (a / a')
  refine ⟨?_, hx.trans (mul_le_mul_of_nonneg_right hge (abs_nonneg _)), he.trans hge⟩
  have e1 : x' * q - x = (x' - x) * q + x * (q - 1) := by ring
  rw [e1]
  have q0 : 0 < q := lt_of_lt_of_le (by positivity) q1
  have hq : |q - 1| ≤ (1 + e) / (1 - e) - 1 := by
    refine abs_le.mpr ⟨?_, by linarith⟩
    have : 2 ≤ (1 - e) / (1 + e) + (1 + e) / (1 - e) := by
      rw [div_add_div _ _ (by linarith) h1.ne', le_div_iff₀ (by nlinarith)]
      nlinarith
    linarith
  calc |(x' - x) * q + x * (q - 1)| ≤ |x' - x| * q + |x| * |q - 1| := by
        refine (abs_add_le _ _).trans ?_
        rw [abs_mul _ q, abs_mul x, abs_of_pos q0]
    _ ≤ e * |x| * ((1 + e) / (1 - e)) + |x| * ((1 + e) / (1 - e) - 1) :=
        add_le_add (mul_le_mul hx q2 q0.le (by positivity)) (mul_le_mul_of_nonneg_left hq (abs_nonneg _))
    _ = edgeErr e * |x| := by rw [hE]; ring

/-- **C127** the work of any loads up to `n` on a plate with held edges is at most `workSize` times the bending energy, for the matrices as computed. -/
theorem C127_work (D : M3) (mu M n : ℝ) (hD : Between D mu M) (cs : Constraints) (p : PlateNum) (ha : 0 < p.a) (hb : 0 < p.b) (hm : 1 ≤ p.m) (hn : 1 ≤ p.n) (e : Edges)
    (he : chooseEdges cs = .ok e) (hh : EdgesHeld e) (hcond : bendErr p mu M < 1) (hx : |p.Nxx| ≤ n) (hy : |p.Nyy| ≤ n) (ht : |p.Nxy| ≤ n)
    (K KG : SqMat (p.m * p.n)) (h : calcKKGD shipped (.ok D) cs p = .ok (K, KG)) (c : Fin (p.m * p.n) → ℝ) :
    |c ⬝ᵥ KG.mulVec c| ≤ workSize p mu M n * (c ⬝ᵥ K.mulVec c) := by
  obtain ⟨s, hs⟩ := (C40_accepted_iff cs p.m p.n).mpr ⟨_, he⟩
  have hrel := (abs_le.mp (C100_relative D mu M hD cs p ha hb hm hn e he hh K KG h s hs c)).1
  have hw := C100_work_any D mu M hD cs p ha hb hm hn e he hh K KG h s hs c
  have hpos := hD.pos
  have hid : NoTwist (mu • (1 : M3)) := ⟨(Matrix.PosDef.one.smul hpos).posSemidef, by simp, by simp⟩
  obtain ⟨d1, d2⟩ := energy_dominates ha hb hD.symm hid hD.low s.w (C40_sizes cs _ _ s hs).2.2.len (held_endZero hs he hh) c
  have el : longStiff (mu • (1 : M3)) = 3 * mu := by
    have : √(mu * mu) = mu := Real.sqrt_mul_self hpos.le
    simp [longStiff, this]
    ring
  rw [el] at d1 d2
  obtain ⟨wX, wY⟩ := work_unit ha.ne' hb.ne' s.w c
  have hn0 : 0 ≤ n := (abs_nonneg _).trans hx
  have hxx := abs_le.mp hx
  have hyy := abs_le.mp hy
  have htt := abs_le.mp ht
  -- the work is below that of a tension of `2 n` in all directions
  have tens : ∀ x y t : ℝ, |x| ≤ n → |y| ≤ n → |t| ≤ n → Tensile (2 * n - x) (2 * n - y) (-t) := fun x y t h1 h2 h3 c s => by
    have a1 := abs_le.mp h1
    have a2 := abs_le.mp h2
    have a3 := abs_le.mp h3
    have b1 : n * c ^ 2 ≤ (2 * n - x) * c ^ 2 := mul_le_mul_of_nonneg_right (by linarith) (sq_nonneg c)
    have b2 : n * s ^ 2 ≤ (2 * n - y) * s ^ 2 := mul_le_mul_of_nonneg_right (by linarith) (sq_nonneg s)
    have b3 : 0 ≤ (n + t) * (c - s) ^ 2 := mul_nonneg (by linarith) (sq_nonneg _)
    have b4 : 0 ≤ (n - t) * (c + s) ^ 2 := mul_nonneg (by linarith) (sq_nonneg _)
    nlinarith
  have work : ∀ x y t : ℝ, |x| ≤ n → |y| ≤ n → |t| ≤ n → loadWork x y t p.a p.b (ritz p.a p.b s.w c) ≤
      2 * n * (slopeX p.a p.b (ritz p.a p.b s.w c) + slopeY p.a p.b (ritz p.a p.b s.w c)) := fun x y t h1 h2 h3 => by
    have k0 := gMat_nonneg (tens x y t h1 h2 h3) ha hb s.w c
    rw [← gMat_work ha.ne' hb.ne' x y t s.w _ c]
    rw [gMat_pair] at k0 ⊢
    rw [wX, wY]
    linarith
  have hneg : loadWork (-p.Nxx) (-p.Nyy) (-p.Nxy) p.a p.b (ritz p.a p.b s.w c) = -loadWork p.Nxx p.Nyy p.Nxy p.a p.b (ritz p.a p.b s.w c) := by
    rw [← gMat_work ha.ne' hb.ne' _ _ _ s.w _ c, ← gMat_work ha.ne' hb.ne' _ _ _ s.w _ c, gMat_pair, gMat_pair]
    ring
  have w1 := work _ _ _ hx hy ht
  have w2 := work (-p.Nxx) (-p.Nyy) (-p.Nxy) (by rwa [abs_neg]) (by rwa [abs_neg]) (by rwa [abs_neg])
  rw [hneg] at w2
  set E := bendEnergy D p.a p.b (ritz p.a p.b s.w c)
  set X := slopeX p.a p.b (ritz p.a p.b s.w c)
  set Y := slopeY p.a p.b (ritz p.a p.b s.w c)
  set W := loadWork p.Nxx p.Nyy p.Nxy p.a p.b (ritz p.a p.b s.w c)
  have hpi : 0 < π ^ 2 := by positivity
  have d1' : X ≤ p.b ^ 2 / (6 * π ^ 2 * mu) * E := by
    rw [div_mul_eq_mul_div, le_div_iff₀ (by positivity)]
    have := mul_le_mul_of_nonneg_left d1 (show 0 ≤ p.b ^ 2 by positivity)
    have e : p.b ^ 2 * (2 * π ^ 2 / p.b ^ 2 * (3 * mu) * X) = X * (6 * π ^ 2 * mu) := by field_simp; ring
    rwa [e] at this
  have d2' : Y ≤ p.a ^ 2 / (6 * π ^ 2 * mu) * E := by
    rw [div_mul_eq_mul_div, le_div_iff₀ (by positivity)]
    have := mul_le_mul_of_nonneg_left d2 (show 0 ≤ p.a ^ 2 by positivity)
    have e : p.a ^ 2 * (2 * π ^ 2 / p.a ^ 2 * (3 * mu) * Y) = Y * (6 * π ^ 2 * mu) := by field_simp; ring
    rwa [e] at this
  have hXY : 2 * n * (X + Y) ≤ n * (p.a ^ 2 + p.b ^ 2) / (3 * π ^ 2 * mu) * E := by
    refine (mul_le_mul_of_nonneg_left (add_le_add d1' d2') (by positivity)).trans (le_of_eq ?_)
    field_simp
    ring
  have hWabs : |W| ≤ n * (p.a ^ 2 + p.b ^ 2) / (3 * π ^ 2 * mu) * E := abs_le.mpr ⟨by linarith, by linarith⟩
  have hE0 : 0 ≤ E := by
    obtain ⟨cX, cY, cZ⟩ := curv_nonneg ha hb (ritz p.a p.b s.w c)
    exact (mul_nonneg hpos.le (by linarith)).trans (energy_ge_curv ha hb hD s.w c)
  have hacc := tableAcc_pos p.m p.n
  have hle : loadErr p mu ≤ tableAcc p.m p.n * n * (p.a ^ 2 + p.b ^ 2) / (3 * π ^ 2 * mu) := by
    unfold loadErr
    have hmx : max |p.Nxx| (max |p.Nyy| |p.Nxy|) ≤ n := max_le hx (max_le hy ht)
    gcongr
  have hfull : |c ⬝ᵥ KG.mulVec c| ≤ n * (1 + tableAcc p.m p.n) * (p.a ^ 2 + p.b ^ 2) / (3 * π ^ 2 * mu) * E := by
    have t1 := abs_add_le (c ⬝ᵥ KG.mulVec c - W) W
    rw [sub_add_cancel] at t1
    have t2 := mul_le_mul_of_nonneg_right hle hE0
    refine t1.trans ((add_le_add (hw.trans t2) hWabs).trans (le_of_eq ?_))
    ring
  refine hfull.trans ?_
  have hden : 0 < 1 - bendErr p mu M := by linarith
  have hEK : E ≤ (c ⬝ᵥ K.mulVec c) / (1 - bendErr p mu M) := by rw [le_div_iff₀ hden]; linarith
  refine (mul_le_mul_of_nonneg_left hEK (by positivity)).trans (le_of_eq ?_)
  unfold workSize
  field_simp

/-- The matrices of a plate with other stiffness, sides and loads. -/
theorem plate_near (D D' : M3) (mu M d e n eta delta : ℝ) (hD : Between D mu M) (hd : ∀ i j, |D' i j - D i j| ≤ d) (he : 0 ≤ e) (he1 : e < 1) (cs : Constraints) (p : PlateNum) (ha : 0 < p.a)
    (hb : 0 < p.b) (hm : 1 ≤ p.m) (hn : 1 ≤ p.n) (ed : Edges) (hed : chooseEdges cs = .ok ed) (hh : EdgesHeld ed) (hcond : bendErr p mu M < 1) {a' b' x' y' t' : ℝ}
    (ha' : RelTol e p.a a') (hb' : RelTol e p.b b') (hx' : RelTol e p.Nxx x') (hy' : RelTol e p.Nyy y') (ht' : RelTol e p.Nxy t')
    (hx : |p.Nxx| ≤ n) (hy : |p.Nyy| ≤ n) (ht : |p.Nxy| ≤ n) (heta : stiffErr p mu M (sideErr e * (M + d) + d) ≤ eta) (heta1 : eta < 1)
    (hdel : workSize p mu M (edgeErr e * n) ≤ delta) (K KG : SqMat (p.m * p.n)) (h : calcKKGD shipped (.ok D) cs p = .ok (K, KG)) :
    ∃ K' KG' : SqMat (p.m * p.n), calcKKGD shipped (.ok D') cs (p.with a' b' x' y' t') = .ok (K', KG') ∧ K.PosDef ∧ KG.IsSymm ∧ K'.PosDef ∧ KG'.IsSymm ∧
      (∀ c, |c ⬝ᵥ K'.mulVec c - c ⬝ᵥ K.mulVec c| ≤ eta * (c ⬝ᵥ K.mulVec c)) ∧ (∀ c, |c ⬝ᵥ KG'.mulVec c - c ⬝ᵥ KG.mulVec c| ≤ delta * (c ⬝ᵥ K.mulVec c)) := by
  obtain ⟨a0, -, -⟩ := RelTol.ratio he1 ha ha'
  obtain ⟨b0, -, -⟩ := RelTol.ratio he1 hb hb'
  obtain ⟨M', s, hM', hs, -, -, hlt, rfl, rfl⟩ := calcKKGD_inv hm hn h
  obtain rfl := Except.ok.inj hM'
  set DD := sideStiff p.a p.b a' b' D' with hDD
  have hdd : ∀ i j, |DD i j - D i j| ≤ sideErr e * (M + d) + d := fun i j => by
    have h1 := sideStiff_near he he1 ha hb ha' hb' D' i j
    have h2 := abs_add_le (DD i j - D' i j) (D' i j - D i j)
    rw [sub_add_sub_cancel] at h2
    have h3 := abs_add_le (D' i j - D i j) (D i j)
    rw [sub_add_cancel] at h3
    have h4 := hD.up i j
    have h5 := hd i j
    have hS : 0 ≤ sideErr e := (abs_nonneg _).trans (ratio_near he he1 ha hb ha' hb').1
    have h6 : sideErr e * |D' i j| ≤ sideErr e * (M + d) := mul_le_mul_of_nonneg_left (by linarith) hS
    linarith
  have h' : calcKKGD shipped (.ok D') cs (p.with a' b' x' y' t') = .ok (kMat shippedV a' b' D' s.w (p.m * p.n), gMat shippedV a' b' x' y' t' s.w (p.m * p.n)) :=
    calcKKGD_ok shipped_ok D' cs (p.with a' b' x' y' t') s hs a0.ne' b0.ne' hlt
  obtain ⟨sK', sG'⟩ := C48_symmetric _ _ (p.with a' b' x' y' t') hm hn _ _ h'
  obtain ⟨sK, sG⟩ := C48_symmetric _ _ p hm hn _ _ h
  have hpd := C100_posDef D mu M hD cs p ha hb hm hn ed hed hh hcond _ _ h
  obtain ⟨K1, hK1, hE1⟩ := C121_stiffness D DD mu M _ hD hdd cs p ha hb hm hn ed hed hh hcond _ _ h
  obtain rfl : kMat shippedV p.a p.b DD s.w (p.m * p.n) = K1 := by
    have := calcKKGD_ok shipped_ok DD cs p s hs ha.ne' hb.ne' hlt
    rw [hK1] at this
    exact (Prod.mk.inj (Except.ok.inj this)).1.symm
  have hKeq : kMat shippedV a' b' D' s.w (p.m * p.n) = kMat shippedV p.a p.b DD s.w (p.m * p.n) := kMat_sides _ ha.ne' hb.ne' a0.ne' b0.ne' _ _ _
  have hGeq := gMat_sides shippedV ha.ne' hb.ne' a0.ne' b0.ne' x' y' t' s.w (p.m * p.n)
  -- the change of the work is the work of the change of the loads
  have hK0 : ∀ c : Fin (p.m * p.n) → ℝ, 0 ≤ c ⬝ᵥ (kMat shippedV p.a p.b D s.w (p.m * p.n)).mulVec c := fun c => by
    have := hpd.posSemidef.dotProduct_mulVec_nonneg c
    rwa [star_trivial] at this
  have e1 := edge_near he he1 ha hb ha' hb' hx'
  have e2 := edge_near he he1 hb ha hb' ha' hy'
  have e3 := edge_near he he1 ha hb ha' hb' ht'
  have small : ∀ {x z : ℝ}, |x| ≤ n → |z| ≤ edgeErr e * |x| → |z| ≤ edgeErr e * n := fun hx hz => hz.trans (mul_le_mul_of_nonneg_left hx e1.2.2)
  have hEG : ∀ c, |c ⬝ᵥ (gMat shippedV a' b' x' y' t' s.w (p.m * p.n)).mulVec c - c ⬝ᵥ (gMat shippedV p.a p.b p.Nxx p.Nyy p.Nxy s.w (p.m * p.n)).mulVec c| ≤
      delta * (c ⬝ᵥ (kMat shippedV p.a p.b D s.w (p.m * p.n)).mulVec c) := fun c => by
    have hq := C127_work D mu M (edgeErr e * n) hD cs
      (p.with p.a p.b (x' * (b' / p.b * (p.a / a')) - p.Nxx) (y' * (a' / p.a * (p.b / b')) - p.Nyy) (t' - p.Nxy)) ha hb hm hn ed hed hh hcond
      (small hx e1.1) (small hy e2.1) (small ht e3.2.1) _ _ (calcKKGD_ok shipped_ok D cs (p.with p.a p.b _ _ _) s hs ha.ne' hb.ne' hlt) c
    have e4 : c ⬝ᵥ (gMat shippedV a' b' x' y' t' s.w (p.m * p.n)).mulVec c - c ⬝ᵥ (gMat shippedV p.a p.b p.Nxx p.Nyy p.Nxy s.w (p.m * p.n)).mulVec c =
        c ⬝ᵥ (gMat shippedV p.a p.b (x' * (b' / p.b * (p.a / a')) - p.Nxx) (y' * (a' / p.a * (p.b / b')) - p.Nyy) (t' - p.Nxy) s.w (p.m * p.n)).mulVec c := by
      rw [hGeq, gMat_pair, gMat_pair, gMat_pair]
      ring
    rw [e4]
    exact hq.trans (mul_le_mul_of_nonneg_right hdel (hK0 c))
  have hEK : ∀ c, |c ⬝ᵥ (kMat shippedV a' b' D' s.w (p.m * p.n)).mulVec c - c ⬝ᵥ (kMat shippedV p.a p.b D s.w (p.m * p.n)).mulVec c| ≤
      eta * (c ⬝ᵥ (kMat shippedV p.a p.b D s.w (p.m * p.n)).mulVec c) := fun c => by
    rw [hKeq]
    exact (hE1 c).trans (mul_le_mul_of_nonneg_right heta (hK0 c))
  have hpd' : (kMat shippedV a' b' D' s.w (p.m * p.n)).PosDef := posDef_of_pos sK' fun c hc => by
    have h1 := hpd.dotProduct_mulVec_pos hc
    rw [star_trivial] at h1
    have := (abs_le.mp (hEK c)).1
    nlinarith
  exact ⟨_, _, h', hpd, sG, hpd', sG', hEK, hEG⟩

/-- **C127** tolerances of the plate: stiffness up to `d`, sides and loads up to the fraction `e`.  The matrices of the changed plate exist, its bending matrix stays positive definite, and the
multipliers, counted with multiplicity, change by fractions of the order of `eta` (stiffness and sides) and `delta lam` (loads), for any loads. -/
theorem C127_plate (D D' : M3) (mu M d e n eta delta : ℝ) (hD : Between D mu M) (hd : ∀ i j, |D' i j - D i j| ≤ d) (he : 0 ≤ e) (he1 : e < 1) (cs : Constraints) (p : PlateNum) (ha : 0 < p.a)
    (hb : 0 < p.b) (hm : 1 ≤ p.m) (hn : 1 ≤ p.n) (ed : Edges) (hed : chooseEdges cs = .ok ed) (hh : EdgesHeld ed) (hcond : bendErr p mu M < 1) {a' b' x' y' t' : ℝ}
    (ha' : RelTol e p.a a') (hb' : RelTol e p.b b') (hx' : RelTol e p.Nxx x') (hy' : RelTol e p.Nyy y') (ht' : RelTol e p.Nxy t')
    (hx : |p.Nxx| ≤ n) (hy : |p.Nyy| ≤ n) (ht : |p.Nxy| ≤ n) (heta : stiffErr p mu M (sideErr e * (M + d) + d) ≤ eta) (heta0 : 0 ≤ eta) (heta1 : eta < 1)
    (hdel : workSize p mu M (edgeErr e * n) ≤ delta) (K KG : SqMat (p.m * p.n)) (h : calcKKGD shipped (.ok D) cs p = .ok (K, KG)) :
    ∃ K' KG' : SqMat (p.m * p.n), calcKKGD shipped (.ok D') cs (p.with a' b' x' y' t') = .ok (K', KG') ∧ K.PosDef ∧ K'.PosDef ∧ KG'.IsSymm ∧ ∀ k, 1 ≤ k →
      (∀ lam, IsKth K KG k lam → delta * lam < 1 → ∃ lam', IsKth K' KG' k lam' ∧ lam' * (1 - delta * lam) ≤ (1 + eta) * lam) ∧
      ∀ lam', IsKth K' KG' k lam' → eta + delta * lam' < 1 → ∃ lam, IsKth K KG k lam ∧ lam * (1 - eta - delta * lam') ≤ lam' := by
  obtain ⟨K', KG', h', hpd, sG, hpd', sG', hEK, hEG⟩ :=
    plate_near D D' mu M d e n eta delta hD hd he he1 cs p ha hb hm hn ed hed hh hcond ha' hb' hx' hy' ht' hx hy ht heta heta1 hdel K KG h
  refine ⟨K', KG', h', hpd, hpd', sG', fun k hk => ⟨fun lam hl hlt' => ?_, fun lam' hl hlt' => ?_⟩⟩
  · exact perturb_up hpd sG hpd' sG' (fun c => by linarith [(abs_le.mp (hEK c)).2]) heta0 (fun c => (abs_le.mp (hEG c)).2) hk hl hlt'
  · exact perturb_down hpd sG hpd' sG' (fun c => by linarith [(abs_le.mp (hEK c)).1]) (fun c => by linarith [(abs_le.mp (hEG c)).1]) hk hl hlt'

/-- A pencil with a bending energy of at most `s` times the other and a work of at least `g` times the other. -/
theorem pencil_scale {N : ℕ} {K G K' G' : SqMat N} (hK : K.PosDef) (hG : G.IsSymm) (hK' : K'.PosDef) (hG' : G'.IsSymm) {s g : ℝ} (hs : 0 < s) (hg : 0 < g)
    (h1 : ∀ c, c ⬝ᵥ K'.mulVec c ≤ s * (c ⬝ᵥ K.mulVec c)) (h2 : ∀ c, c ⬝ᵥ G'.mulVec c ≤ g * (c ⬝ᵥ G.mulVec c)) {k : ℕ} (hk : 1 ≤ k) {lam : ℝ} (hl : IsKth K G k lam) :
    ∃ lam', IsKth K' G' k lam' ∧ lam' ≤ s / g * lam := by
  obtain ⟨l, hle, hpl, -⟩ := numModes_jump hK hG (hk.trans hl.1)
  have hlam : 0 < lam := hpl.1.trans_le hle
  have hcount := numModes_ge hK' hG' (c := s / g * lam) (by positivity) (modes K G lam) fun v hv => by
    have h0 := mul_le_mul_of_nonneg_left (modes_energy hK hG lam hv) hs.le
    have a1 := h1 v
    have a2 := mul_le_mul_of_nonneg_left (h2 v) (show 0 ≤ s / g * lam by positivity)
    have e : s / g * lam * (g * (v ⬝ᵥ G.mulVec v)) = s * (lam * (v ⬝ᵥ G.mulVec v)) := by field_simp
    linarith
  obtain ⟨nu, k1, -, k2⟩ := exists_kth hK' hG' hk (hl.1.trans hcount)
  exact ⟨nu, k1, k2⟩

/-- **C127** plates under compression without shear: every multiplier is known up to a fraction, whatever its size; loads that are zero stay zero, tolerances being fractions. -/
theorem C127_compression (D D' : M3) (mu M d e eta : ℝ) (hD : Between D mu M) (hd : ∀ i j, |D' i j - D i j| ≤ d) (he : 0 ≤ e) (he1 : e < 1) (hg : edgeErr e < 1) (cs : Constraints) (p : PlateNum)
    (ha : 0 < p.a) (hb : 0 < p.b) (hm : 1 ≤ p.m) (hn : 1 ≤ p.n) (ed : Edges) (hed : chooseEdges cs = .ok ed) (hh : EdgesHeld ed) (hcond : bendErr p mu M < 1) {a' b' x' y' : ℝ}
    (ha' : RelTol e p.a a') (hb' : RelTol e p.b b') (hx' : RelTol e p.Nxx x') (hy' : RelTol e p.Nyy y') (hx : p.Nxx ≤ 0) (hy : p.Nyy ≤ 0) (ht : p.Nxy = 0)
    (heta : stiffErr p mu M (sideErr e * (M + d) + d) ≤ eta) (heta0 : 0 ≤ eta) (heta1 : eta < 1)
    (K KG : SqMat (p.m * p.n)) (h : calcKKGD shipped (.ok D) cs p = .ok (K, KG)) :
    ∃ K' KG' : SqMat (p.m * p.n), calcKKGD shipped (.ok D') cs (p.with a' b' x' y' 0) = .ok (K', KG') ∧ K.PosDef ∧ K'.PosDef ∧ KG'.IsSymm ∧ ∀ k, 1 ≤ k →
      ((∃ lam, IsKth K KG k lam) ↔ ∃ lam', IsKth K' KG' k lam') ∧
      ∀ lam lam', IsKth K KG k lam → IsKth K' KG' k lam' → (1 - eta) / (1 + edgeErr e) * lam ≤ lam' ∧ lam' ≤ (1 + eta) / (1 - edgeErr e) * lam := by
  obtain ⟨K', KG', h', hpd, sG, hpd', sG', hEK, -⟩ :=
    plate_near D D' mu M d e (max |p.Nxx| (max |p.Nyy| |p.Nxy|)) eta _ hD hd he he1 cs p ha hb hm hn ed hed hh hcond ha' hb' hx' hy' (t' := 0) (by rw [ht]; simp [RelTol])
      (le_max_left _ _) ((le_max_left _ _).trans (le_max_right _ _)) ((le_max_right _ _).trans (le_max_right _ _)) heta heta1 le_rfl K KG h
  obtain ⟨a0, -, -⟩ := RelTol.ratio he1 ha ha'
  obtain ⟨b0, -, -⟩ := RelTol.ratio he1 hb hb'
  obtain ⟨e1, -, g0⟩ := edge_near he he1 ha hb ha' hb' hx'
  obtain ⟨e2, -, -⟩ := edge_near he he1 hb ha hb' ha' hy'
  obtain ⟨M', s, hM', hs, -, -, hlt, rfl, rfl⟩ := calcKKGD_inv hm hn h
  obtain rfl := Except.ok.inj hM'
  obtain ⟨M1, s1, hM1, hs1, -, -, -, rfl, rfl⟩ := calcKKGD_inv (p := p.with a' b' x' y' 0) hm hn h'
  obtain rfl := Except.ok.inj hM1
  obtain rfl : s = s1 := Except.ok.inj (hs.symm.trans hs1)
  have hacc : tableAcc p.m p.n ≤ 1 := by
    unfold tableAcc
    split_ifs <;> norm_num
  -- the shipped tables give nonnegative slopes
  have slope : ∀ x y : ℝ, x ≤ 0 → y ≤ 0 → ∀ c : Fin (p.m * p.n) → ℝ, c ⬝ᵥ (gMat shippedV p.a p.b x y 0 s.w (p.m * p.n)).mulVec c ≤ 0 := fun x y hx hy c => by
    have hq := C100_work D hD.symm cs (p.with p.a p.b x y 0) ha hb hm hn ed hed hh hx hy rfl _ _ (calcKKGD_ok shipped_ok D cs (p.with p.a p.b x y 0) s hs ha.ne' hb.ne' hlt) s hs c
    obtain ⟨sx, sy⟩ := slopes_nonneg ha hb (ritz p.a p.b s.w c)
    have hw : loadWork x y 0 p.a p.b (ritz p.a p.b s.w c) ≤ 0 := by
      rw [loadWork_split]
      nlinarith
    have := (abs_le.mp hq).2
    have h3 : tableAcc p.m p.n * -loadWork x y 0 p.a p.b (ritz p.a p.b s.w c) ≤ 1 * -loadWork x y 0 p.a p.b (ritz p.a p.b s.w c) := mul_le_mul_of_nonneg_right hacc (by linarith)
    change c ⬝ᵥ (gMat shippedV p.a p.b x y 0 s.w (p.m * p.n)).mulVec c - loadWork x y 0 p.a p.b (ritz p.a p.b s.w c) ≤ tableAcc p.m p.n * -loadWork x y 0 p.a p.b (ritz p.a p.b s.w c) at this
    linarith
  rw [abs_of_nonpos hx] at e1
  rw [abs_of_nonpos hy] at e2
  have E1 := abs_le.mp e1
  have E2 := abs_le.mp e2
  have hGeq := gMat_sides shippedV ha.ne' hb.ne' a0.ne' b0.ne' x' y' 0 s.w (p.m * p.n)
  have up : ∀ c : Fin (p.m * p.n) → ℝ, c ⬝ᵥ (gMat shippedV a' b' x' y' 0 s.w (p.m * p.n)).mulVec c ≤
      (1 - edgeErr e) * (c ⬝ᵥ (gMat shippedV p.a p.b p.Nxx p.Nyy p.Nxy s.w (p.m * p.n)).mulVec c) := fun c => by
    have := slope (x' * (b' / p.b * (p.a / a')) - (1 - edgeErr e) * p.Nxx) (y' * (a' / p.a * (p.b / b')) - (1 - edgeErr e) * p.Nyy) (by linarith) (by linarith) c
    rw [hGeq, ht]
    rw [gMat_pair] at this ⊢
    rw [gMat_pair]
    linarith
  have dn : ∀ c : Fin (p.m * p.n) → ℝ, (1 + edgeErr e) * (c ⬝ᵥ (gMat shippedV p.a p.b p.Nxx p.Nyy p.Nxy s.w (p.m * p.n)).mulVec c) ≤
      c ⬝ᵥ (gMat shippedV a' b' x' y' 0 s.w (p.m * p.n)).mulVec c := fun c => by
    have := slope ((1 + edgeErr e) * p.Nxx - x' * (b' / p.b * (p.a / a'))) ((1 + edgeErr e) * p.Nyy - y' * (a' / p.a * (p.b / b'))) (by linarith) (by linarith) c
    rw [hGeq, ht]
    rw [gMat_pair] at this ⊢
    rw [gMat_pair]
    linarith
  have h1 : 0 < 1 - eta := by linarith
  replace hEK : ∀ c : Fin (p.m * p.n) → ℝ, |c ⬝ᵥ (kMat shippedV a' b' D' s.w (p.m * p.n)).mulVec c - c ⬝ᵥ (kMat shippedV p.a p.b D s.w (p.m * p.n)).mulVec c| ≤
      eta * (c ⬝ᵥ (kMat shippedV p.a p.b D s.w (p.m * p.n)).mulVec c) := hEK
  have high : ∀ c : Fin (p.m * p.n) → ℝ, c ⬝ᵥ (kMat shippedV a' b' D' s.w (p.m * p.n)).mulVec c ≤ (1 + eta) * (c ⬝ᵥ (kMat shippedV p.a p.b D s.w (p.m * p.n)).mulVec c) :=
    fun c => by linarith [(abs_le.mp (hEK c)).2]
  have low : ∀ c : Fin (p.m * p.n) → ℝ, c ⬝ᵥ (kMat shippedV p.a p.b D s.w (p.m * p.n)).mulVec c ≤
      1 / (1 - eta) * (c ⬝ᵥ (kMat shippedV a' b' D' s.w (p.m * p.n)).mulVec c) := fun c => by
    rw [one_div_mul_eq_div, le_div_iff₀ h1]
    linarith [(abs_le.mp (hEK c)).1]
  replace dn : ∀ c : Fin (p.m * p.n) → ℝ, c ⬝ᵥ (gMat shippedV p.a p.b p.Nxx p.Nyy p.Nxy s.w (p.m * p.n)).mulVec c ≤
      1 / (1 + edgeErr e) * (c ⬝ᵥ (gMat shippedV a' b' x' y' 0 s.w (p.m * p.n)).mulVec c) := fun c => by
    rw [one_div_mul_eq_div, le_div_iff₀ (by linarith)]
    linarith [dn c]
  refine ⟨_, _, h', hpd, hpd', sG', fun k hk => ?_⟩
  have pu : ∀ lam, IsKth _ _ k lam → ∃ lam', IsKth (kMat shippedV a' b' D' s.w (p.m * p.n)) (gMat shippedV a' b' x' y' 0 s.w (p.m * p.n)) k lam' ∧
      lam' ≤ (1 + eta) / (1 - edgeErr e) * lam := fun lam hl =>
    pencil_scale hpd sG hpd' sG' (by linarith) (by linarith) high up hk hl
  have pd : ∀ lam', IsKth (kMat shippedV a' b' D' s.w (p.m * p.n)) (gMat shippedV a' b' x' y' 0 s.w (p.m * p.n)) k lam' →
      ∃ lam, IsKth (kMat shippedV p.a p.b D s.w (p.m * p.n)) (gMat shippedV p.a p.b p.Nxx p.Nyy p.Nxy s.w (p.m * p.n)) k lam ∧
      (1 - eta) / (1 + edgeErr e) * lam ≤ lam' := fun lam' hl => by
    obtain ⟨lam, j1, j2⟩ := pencil_scale (s := 1 / (1 - eta)) (g := 1 / (1 + edgeErr e)) hpd' sG' hpd sG (by positivity) (by positivity)
      low dn hk hl
    refine ⟨lam, j1, ?_⟩
    have e3 : 1 / (1 - eta) / (1 / (1 + edgeErr e)) * lam' = (1 + edgeErr e) * lam' / (1 - eta) := by field_simp
    rw [e3, le_div_iff₀ h1] at j2
    rw [div_mul_eq_mul_div, div_le_iff₀ (by linarith)]
    linarith
  refine ⟨⟨fun ⟨lam, hl⟩ => (pu lam hl).imp fun _ h => h.1, fun ⟨lam', hl⟩ => (pd lam' hl).imp fun _ h => h.1⟩, fun lam lam' hl hl' => ⟨?_, ?_⟩⟩
  · obtain ⟨x, hx, hx'⟩ := pd lam' hl'
    rwa [le_antisymm (hl.2 hx.1) (hx.2 hl.1)]
  · obtain ⟨x, hx, hx'⟩ := pu lam hl
    rwa [le_antisymm (hl'.2 hx.1) (hx.2 hl'.1)]

/-- Non-vacuity for C127: a clamped plate of unit stiffness, sides 2 by 3, under compression, and the plate with all data off by a thousandth: the critical multipliers differ by less
than two percent. -/
example : ∃ p : PlateNum, p = ⟨2, 3, -1, 0, 0, 10, 10⟩ ∧ ∃ K KG K' KG' : SqMat (p.m * p.n), calcKKGD shipped (.ok (1 : M3)) (.str wCLAMPED) p = .ok (K, KG) ∧
    calcKKGD shipped (.ok (1 : M3)) (.str wCLAMPED) (p.with 2.002 2.997 (-1.001) 0 0) = .ok (K', KG') ∧
    ∃ lam lam', IsKth K KG 1 lam ∧ IsKth K' KG' 1 lam' ∧ 0.98 * lam ≤ lam' ∧ lam' ≤ 1.02 * lam := by
  set p : PlateNum := ⟨2, 3, -1, 0, 0, 10, 10⟩ with hp
  refine ⟨p, rfl, ?_⟩
  have hB : Between (1 : M3) 1 1 := ⟨Matrix.isSymm_one, by rw [one_smul, sub_self]; exact Matrix.PosSemidef.zero, one_pos, fun i j => by
    rw [Matrix.one_apply]
    split_ifs <;> norm_num⟩
  obtain ⟨s, hs⟩ := (C40_accepted_iff (.str wCLAMPED) 10 10).mpr ⟨_, rfl⟩
  obtain ⟨⟨K, KG⟩, hK⟩ := (C51_computed_iff 1 (.str wCLAMPED) p s hs (by norm_num [p]) (by norm_num [p])).1 fun q hq => by
    have := widx_range hs q hq
    omega
  have hacc : tableAcc p.m p.n = 3e-9 := by norm_num [tableAcc, p]
  have hbe : bendErr p 1 1 = 9e-9 := by rw [bendErr, hacc]; norm_num
  have hst : stiffErr p 1 1 (sideErr (1/1000) * (1 + 0) + 0) ≤ 1/80 := by
    rw [stiffErr, hacc, hbe, sideErr]
    norm_num
  obtain ⟨K', KG', h1, h2, h3, h4, h5⟩ := C127_compression 1 1 1 1 0 (1/1000) (1/80) hB (fun i j => by simp) (by norm_num) (by norm_num) (by norm_num [edgeErr]) (.str wCLAMPED) p
    (by norm_num [p]) (by norm_num [p]) (by decide) (by decide) _ rfl ⟨by decide, by decide, by decide, by decide⟩ (by rw [hbe]; norm_num)
    (a' := 2.002) (b' := 2.997) (x' := -1.001) (y' := 0) (by norm_num [RelTol, p]) (by norm_num [RelTol, p, abs_of_neg]) (by norm_num [RelTol, p, abs_of_neg]) (by norm_num [RelTol, p])
    (by norm_num [p]) (by norm_num [p]) rfl hst (by norm_num) (by norm_num) K KG hK
  obtain ⟨lam, hl⟩ := exists_min_posMult h2 (C48_symmetric _ _ p (by decide) (by decide) K KG hK).2
    (C83_compression 1 Matrix.PosDef.one p (by norm_num [p]) (by norm_num [p]) (by decide) (by decide) (by decide) (by decide) (by norm_num [p]) K KG hK)
  have hk := (kth_one h2 (C48_symmetric _ _ p (by decide) (by decide) K KG hK).2 lam).mpr hl
  obtain ⟨lam', hl'⟩ := (h5 1 le_rfl).1.mp ⟨lam, hk⟩
  obtain ⟨b1, b2⟩ := (h5 1 le_rfl).2 lam lam' hk hl'
  have h0 : 0 < lam := hl.1.1
  refine ⟨K, KG, K', KG', hK, h1, lam, lam', hk, hl', le_trans (mul_le_mul_of_nonneg_right ?_ h0.le) b1, b2.trans (mul_le_mul_of_nonneg_right ?_ h0.le)⟩ <;> norm_num [edgeErr]

/-- Non-vacuity for C127: the same plate with shear. -/
example : ∃ p : PlateNum, p = ⟨2, 3, -1, 0, 1, 10, 10⟩ ∧ ∃ K KG K' KG' : SqMat (p.m * p.n), calcKKGD shipped (.ok (1 : M3)) (.str wCLAMPED) p = .ok (K, KG) ∧
    calcKKGD shipped (.ok (1 : M3)) (.str wCLAMPED) (p.with 2.002 2.997 (-1.001) 0 0.999) = .ok (K', KG') ∧
    ∃ lam, IsKth K KG 1 lam ∧ (lam < 600 → ∃ lam', IsKth K' KG' 1 lam' ∧ lam' * (1 - 1/600 * lam) ≤ 1.02 * lam) := by
  set p : PlateNum := ⟨2, 3, -1, 0, 1, 10, 10⟩ with hp
  refine ⟨p, rfl, ?_⟩
  have hB : Between (1 : M3) 1 1 := ⟨Matrix.isSymm_one, by rw [one_smul, sub_self]; exact Matrix.PosSemidef.zero, one_pos, fun i j => by
    rw [Matrix.one_apply]
    split_ifs <;> norm_num⟩
  obtain ⟨s, hs⟩ := (C40_accepted_iff (.str wCLAMPED) 10 10).mpr ⟨_, rfl⟩
  obtain ⟨⟨K, KG⟩, hK⟩ := (C51_computed_iff 1 (.str wCLAMPED) p s hs (by norm_num [p]) (by norm_num [p])).1 fun q hq => by
    have := widx_range hs q hq
    omega
  have hacc : tableAcc p.m p.n = 3e-9 := by norm_num [tableAcc, p]
  have hbe : bendErr p 1 1 = 9e-9 := by rw [bendErr, hacc]; norm_num
  have hst : stiffErr p 1 1 (sideErr (1/1000) * (1 + 0) + 0) ≤ 1/80 := by
    rw [stiffErr, hacc, hbe, sideErr]
    norm_num
  have hwk : workSize p 1 1 (edgeErr (1/1000) * 1) ≤ 1/600 := by
    have h9 : (9 : ℝ) < π ^ 2 := by nlinarith [Real.pi_gt_three]
    rw [workSize, hacc, hbe, edgeErr, div_le_iff₀ (by positivity)]
    norm_num [p]
    linarith
  obtain ⟨K', KG', h1, h2, h3, h4, h5⟩ := C127_plate 1 1 1 1 0 (1/1000) 1 (1/80) (1/600) hB (fun i j => by simp) (by norm_num) (by norm_num) (.str wCLAMPED) p
    (by norm_num [p]) (by norm_num [p]) (by decide) (by decide) _ rfl ⟨by decide, by decide, by decide, by decide⟩ (by rw [hbe]; norm_num)
    (a' := 2.002) (b' := 2.997) (x' := -1.001) (y' := 0) (t' := 0.999) (by norm_num [RelTol, p]) (by norm_num [RelTol, p, abs_of_neg]) (by norm_num [RelTol, p, abs_of_neg])
    (by norm_num [RelTol, p]) (by norm_num [RelTol, p, abs_of_neg]) (by norm_num [p]) (by norm_num [p]) (by norm_num [p]) hst (by norm_num) (by norm_num) hwk K KG hK
  obtain ⟨lam, hl⟩ := exists_min_posMult h2 (C48_symmetric _ _ p (by decide) (by decide) K KG hK).2
    (C83_compression 1 Matrix.PosDef.one p (by norm_num [p]) (by norm_num [p]) (by decide) (by decide) (by decide) (by decide) (by norm_num [p]) K KG hK)
  have hk := (kth_one h2 (C48_symmetric _ _ p (by decide) (by decide) K KG hK).2 lam).mpr hl
  have h0 : 0 < lam := hl.1.1
  refine ⟨K, KG, K', KG', hK, h1, lam, hk, fun hlt => ?_⟩
  obtain ⟨lam', i1, i2⟩ := (h5 1 le_rfl).1 lam hk (by linarith)
  exact ⟨lam', i1, i2.trans (mul_le_mul_of_nonneg_right (by norm_num) h0.le)⟩

end Composipy
