import Verif.Model.RoundedPlate
import Verif.Props.RoundedPly
import Verif.Props.Ordered

/-!
# The bending and geometric matrices in floating-point arithmetic (C112)
-/

namespace Composipy
open Spec Matrix Module

/-! ## Closed form -/

/-- Sizes of the table entries. -/
noncomputable def Spec.RTables.sizes (V : RTables) : RTables :=
  { ff := fun i k => |V.ff i k|, fxi_f := fun i k => |V.fxi_f i k|, f_fxi := fun i k => |V.f_fxi i k|, fxi_fxi := fun i k => |V.fxi_fxi i k|,
    fxixi_f := fun i k => |V.fxixi_f i k|, f_fxixi := fun i k => |V.f_fxixi i k|, fxixi_fxi := fun i k => |V.fxixi_fxi i k|,
    fxi_fxixi := fun i k => |V.fxi_fxixi i k|, fxixi_fxixi := fun i k => |V.fxixi_fxixi i k| }

namespace FloatArith
variable (F : FloatArith)

/-- Rounded product of two rounded readings. -/
def prod (x y : ℝ) : ℝ := F.fl (F.fl x * F.fl y)

/-- Computed entry of the bending matrix. -/
noncomputable def k33v (V : RTables) (a b : ℝ) (D : M3) (r c : ℕ × ℕ) : ℝ :=
  F.fl (F.fl (F.fl (F.fl (F.fl (
    F.fl (F.fl (F.fl (4 * F.fl (b / F.pw a 3)) * D 0 0) * F.prod (V.fxixi_fxixi r.1 c.1) (V.ff r.2 c.2))
    + F.fl (F.fl (F.fl (4 / F.fl (a * b)) * D 1 0) * F.fl (F.prod (V.fxixi_f r.1 c.1) (V.f_fxixi r.2 c.2) + F.prod (V.f_fxixi r.1 c.1) (V.fxixi_f r.2 c.2))))
    + F.fl (F.fl (F.fl (4 * F.fl (a / F.pw b 3)) * D 1 1) * F.prod (V.ff r.1 c.1) (V.fxixi_fxixi r.2 c.2)))
    + F.fl (F.fl (F.fl (8 / F.pw a 2) * D 2 0) * F.fl (F.prod (V.fxixi_fxi r.1 c.1) (V.f_fxi r.2 c.2) + F.prod (V.fxi_fxixi r.1 c.1) (V.fxi_f r.2 c.2))))
    + F.fl (F.fl (F.fl (8 / F.pw b 2) * D 2 1) * F.fl (F.prod (V.fxi_f r.1 c.1) (V.fxi_fxixi r.2 c.2) + F.prod (V.f_fxi r.1 c.1) (V.fxixi_fxi r.2 c.2))))
    + F.fl (F.fl (F.fl (16 / F.fl (a * b)) * D 2 2) * F.prod (V.fxi_fxi r.1 c.1) (V.fxi_fxi r.2 c.2)))

/-- Computed entry of the geometric matrix. -/
noncomputable def g33v (V : RTables) (a b Nxx Nyy Nxy : ℝ) (r c : ℕ × ℕ) : ℝ :=
  F.fl (F.fl (
    F.fl (F.fl (Nxx * F.fl (b / a)) * F.prod (V.fxi_fxi r.1 c.1) (V.ff r.2 c.2))
    + F.fl (F.fl (Nyy * F.fl (a / b)) * F.prod (V.ff r.1 c.1) (V.fxi_fxi r.2 c.2)))
    + F.fl (Nxy * F.fl (F.prod (V.f_fxi r.1 c.1) (V.fxi_f r.2 c.2) + F.prod (V.fxi_f r.1 c.1) (V.f_fxi r.2 c.2))))

/-- The computed bending matrix over a list of shapes. -/
noncomputable def kMat (V : RTables) (a b : ℝ) (D : M3) (w : List (ℕ × ℕ)) (N : ℕ) : SqMat N :=
  Matrix.of fun r c => F.k33v V a b D (w.getD r (0, 0)) (w.getD c (0, 0))

/-- The computed geometric matrix over a list of shapes. -/
noncomputable def gMat (V : RTables) (a b Nxx Nyy Nxy : ℝ) (w : List (ℕ × ℕ)) (N : ℕ) : SqMat N :=
  Matrix.of fun r c => F.g33v V a b Nxx Nyy Nxy (w.getD r (0, 0)) (w.getD c (0, 0))

variable {F}

theorem fl_ne (hu : F.u < 1) {x : ℝ} (hx : x ≠ 0) : F.fl x ≠ 0 := fun h => by
  have := F.near x
  rw [h, zero_sub, abs_neg] at this
  nlinarith [abs_pos.mpr hx]

theorem pw_ne (hu : F.u < 1) {x : ℝ} (hx : x ≠ 0) (n : ℕ) : F.pw x n ≠ 0 := fun h => by
  have := F.nearPw x n
  rw [h, zero_sub, abs_neg] at this
  nlinarith [abs_pos.mpr (pow_ne_zero n hx)]

theorem calcK33_ok {T : Readers} {V : RTables} {p : ℕ → Prop} (h : T.OkOn V p) (hu : F.u < 1) {a b : ℝ} (ha : a ≠ 0) (hb : b ≠ 0)
    {i j k l : ℕ} (hi : p i) (hj : p j) (hk : p k) (hl : p l) (D : M3) :
    F.calcK33 (F.reading T) a b i j k l (D 0 0) (D 1 0) (D 1 1) (D 2 0) (D 2 1) (D 2 2) = .ok (F.k33v V a b D (i, j) (k, l)) := by
  simp [calcK33, rmul, reading, Except.map, div, pyDiv, k33v, prod, h.ff _ _ hi hk, h.ff _ _ hj hl, h.fxi_f _ _ hi hk, h.fxi_f _ _ hj hl,
    h.f_fxi _ _ hi hk, h.f_fxi _ _ hj hl, h.fxi_fxi _ _ hi hk, h.fxi_fxi _ _ hj hl, h.fxixi_f _ _ hi hk,
    h.fxixi_f _ _ hj hl, h.f_fxixi _ _ hi hk, h.f_fxixi _ _ hj hl, h.fxixi_fxi _ _ hi hk, h.fxixi_fxi _ _ hj hl,
    h.fxi_fxixi _ _ hi hk, h.fxi_fxixi _ _ hj hl, h.fxixi_fxixi _ _ hi hk, h.fxixi_fxixi _ _ hj hl, pw_ne hu ha, pw_ne hu hb,
    fl_ne hu (mul_ne_zero ha hb)]

theorem calcKG33_ok {T : Readers} {V : RTables} {p : ℕ → Prop} (h : T.OkOn V p) {a b : ℝ} (ha : a ≠ 0) (hb : b ≠ 0)
    {i j k l : ℕ} (hi : p i) (hj : p j) (hk : p k) (hl : p l) (Nxx Nyy Nxy : ℝ) :
    F.calcKG33 (F.reading T) a b i j k l Nxx Nyy Nxy = .ok (F.g33v V a b Nxx Nyy Nxy (i, j) (k, l)) := by
  simp [calcKG33, rmul, reading, Except.map, div, pyDiv, g33v, prod, h.ff _ _ hi hk, h.ff _ _ hj hl, h.fxi_f _ _ hi hk, h.fxi_f _ _ hj hl,
    h.f_fxi _ _ hi hk, h.f_fxi _ _ hj hl, h.fxi_fxi _ _ hi hk, h.fxi_fxi _ _ hj hl, ha, hb]

theorem calcKKGD_ok {T : Readers} {V : RTables} {P : ℕ → Prop} (h : T.OkOn V P) (hu : F.u < 1) (D : M3)
    (c : Constraints) (p : PlateNum) (s : ShapeIdx) (hs : computeIdx c p.m p.n = .ok s) (ha : p.a ≠ 0) (hb : p.b ≠ 0)
    (hp : ∀ q ∈ s.w, P q.1 ∧ P q.2) :
    F.calcKKGD T (.ok D) c p = .ok (F.kMat V p.a p.b D s.w _, F.gMat V p.a p.b p.Nxx p.Nyy p.Nxy s.w _) := by
  unfold calcKKGD
  rw [constraintQuads_eq, hs]
  simp only [ok_bind, pure_eq_ok]
  have hlen : p.m ^ 2 * p.n ^ 2 = (s.w.flatMap fun p => s.w.map fun q => (p.1, p.2, q.1, q.2)).length := by
    rw [flatMap_map_length, (C40_sizes c _ _ s hs).2.2.len]; ring
  rw [hlen, mapM_range_idx]
  rw [mapM_ok _ _ (fun q => (F.k33v V p.a p.b D (q.1, q.2.1) (q.2.2.1, q.2.2.2),
    F.g33v V p.a p.b p.Nxx p.Nyy p.Nxy (q.1, q.2.1) (q.2.2.1, q.2.2.2)))]
  · have hN := (C40_sizes c _ _ s hs).2.2.len
    simp only [ok_bind, List.map_map, List.map_flatMap]
    have e1 := reshape_flatMap s.w _ hN (F.k33v V p.a p.b D)
    have e2 := reshape_flatMap s.w _ hN (F.g33v V p.a p.b p.Nxx p.Nyy p.Nxy)
    simp only [Function.comp_def] at *
    rw [e1, e2]
    rfl
  · intro q hq
    obtain ⟨x, hx, hq⟩ := List.mem_flatMap.mp hq
    obtain ⟨y, hy, rfl⟩ := List.mem_map.mp hq
    obtain ⟨x1, x2⟩ := hp x hx
    obtain ⟨y1, y2⟩ := hp y hy
    dsimp only
    rw [calcK33_ok h hu ha hb x1 x2 y1 y2, calcKG33_ok h ha hb x1 x2 y1 y2]
    rfl

/-! ## Errors with quotients -/

/-- Growth of the error in one operation, divisions by computed numbers included. -/
noncomputable def gr (F : FloatArith) : ℝ := 1 / (1 - F.u)

theorem gr_q (hu : F.u < 1) : F.q ≤ F.gr := by
  rw [gr, le_div_iff₀ (by linarith), q]
  nlinarith [sq_nonneg F.u]

theorem gr_ge (hu : F.u < 1) : 1 ≤ F.gr := F.q_ge.trans (gr_q hu)

theorem gpow_ge (hu : F.u < 1) (n : ℕ) : 1 ≤ F.gr ^ n := one_le_pow₀ (gr_ge hu)

theorem ggpow_ge (hu : F.u < 1) {g : ℝ} (hg : 1 ≤ g) (n : ℕ) : 1 ≤ g * F.gr ^ n := one_le_mul_of_one_le_of_one_le hg (gpow_ge hu n)

theorem rnd (hu : F.u < 1) {g : ℝ} (hg : 1 ≤ g) {n : ℕ} {y x X : ℝ} (h : Within (g * F.gr ^ n) y x X) : Within (g * F.gr ^ (n + 1)) (F.fl y) x X := by
  have h1 := fl_within (F := F) h
  have h0 := ggpow_ge hu hg n
  refine h1.mono (one_le_mul_of_one_le_of_one_le h0 F.q_ge) ?_ le_rfl
  rw [pow_succ, ← mul_assoc]
  exact mul_le_mul_of_nonneg_left (gr_q hu) (by linarith)

theorem rup (hu : F.u < 1) {g : ℝ} (hg : 1 ≤ g) {n k : ℕ} (hnk : n ≤ k) {y x X : ℝ} (h : Within (g * F.gr ^ n) y x X) : Within (g * F.gr ^ k) y x X :=
  h.mono (ggpow_ge hu hg n) (mul_le_mul_of_nonneg_left (pow_le_pow_right₀ (gr_ge hu) hnk) (by linarith)) le_rfl

theorem rnd1 (hu : F.u < 1) {n : ℕ} {y x X : ℝ} (h : Within (F.gr ^ n) y x X) : Within (F.gr ^ (n + 1)) (F.fl y) x X := by
  have := rnd hu le_rfl (g := 1) (n := n) (by simpa using h)
  simpa using this

theorem rmul_w (hu : F.u < 1) {g : ℝ} (hg : 1 ≤ g) {n k : ℕ} {y x X y' x' X' : ℝ} (h : Within (F.gr ^ k) y x X) (h' : Within (g * F.gr ^ n) y' x' X') :
    Within (g * F.gr ^ (k + n + 1)) (F.fl (y * y')) (x * x') (X * X') := by
  have := h.mul (gpow_ge hu k) h'
  exact rnd hu hg (by convert this using 1; rw [pow_add]; ring)

theorem rmul_w' (hu : F.u < 1) {g : ℝ} (hg : 1 ≤ g) {n k : ℕ} {y x X y' x' X' : ℝ} (h : Within (g * F.gr ^ k) y x X) (h' : Within (F.gr ^ n) y' x' X') :
    Within (g * F.gr ^ (k + n + 1)) (F.fl (y * y')) (x * x') (X * X') := by
  have := rmul_w hu hg h' h
  rw [mul_comm y' y, mul_comm x' x, mul_comm X' X] at this
  convert this using 3
  omega

theorem radd_w (hu : F.u < 1) {g : ℝ} (hg : 1 ≤ g) {n k m : ℕ} (hn : n ≤ m) (hk : k ≤ m) {y x X y' x' X' : ℝ} (h : Within (g * F.gr ^ n) y x X)
    (h' : Within (g * F.gr ^ k) y' x' X') : Within (g * F.gr ^ (m + 1)) (F.fl (y + y')) (x + x') (X + X') :=
  rnd hu hg ((rup hu hg hn h).add (rup hu hg hk h'))

/-- A quotient by a rounded number. -/
theorem rdiv_w (hu : F.u < 1) {y d d' : ℝ} (hy : 0 ≤ y) (hd : 0 < d) (hdd : |d' - d| ≤ F.u * d) : Within (F.gr ^ 2) (F.fl (y / d')) (y / d) (y / d) := by
  have h := (Within.exact y).div le_rfl hd F.u_nonneg hu hdd
  rw [abs_of_nonneg hy] at h
  have : Within (F.gr ^ 1) (y / d') (y / d) (y / d) := by simpa [gr] using h
  exact rnd1 hu this

theorem prod_w (hu : F.u < 1) (x y : ℝ) : Within (F.gr ^ 3) (F.prod x y) (x * y) (|x| * |y|) := by
  have h : ∀ z : ℝ, Within (F.gr ^ 1) (F.fl z) z |z| := fun z => rnd1 hu (n := 0) (by simpa using Within.exact z)
  have := (h x).mul (gpow_ge hu 1) (h y)
  rw [← pow_add] at this
  exact rnd1 hu this

theorem prod2_w (hu : F.u < 1) (x y z t : ℝ) :
    Within (F.gr ^ 4) (F.fl (F.prod x y + F.prod z t)) (x * y + z * t) (|x| * |y| + |z| * |t|) :=
  rnd1 hu ((prod_w hu x y).add (prod_w hu z t))

theorem pwPos (x : ℝ) (hx : 0 < x) (n : ℕ) : |F.pw x n - x ^ n| ≤ F.u * x ^ n := by
  have := F.nearPw x n
  rwa [abs_of_pos (show 0 < x ^ n by positivity)] at this

theorem flPos (x : ℝ) (hx : 0 < x) : |F.fl x - x| ≤ F.u * x := by
  have := F.near x
  rwa [abs_of_pos hx] at this

theorem four_w (hu : F.u < 1) {k : ℕ} {y x : ℝ} (h : Within (F.gr ^ k) y x x) : Within (F.gr ^ (k + 1)) (F.fl (4 * y)) (4 * x) (4 * x) := by
  have h4 : Within (F.gr ^ 0) 4 4 4 := by have := Within.exact (4 : ℝ); rw [abs_of_pos (by norm_num : (0 : ℝ) < 4)] at this; simpa using this
  have := h4.mul (gpow_ge hu 0) h
  rw [pow_zero, one_mul] at this
  exact rnd1 hu this

end FloatArith

open FloatArith in
/-- **C112** entries of the bending matrix computed from a computed `D`. -/
theorem C112_bending (F : FloatArith) (hu : F.u < 1) (V : RTables) (a b : ℝ) (ha : 0 < a) (hb : 0 < b) (D' D X : M3) (g : ℝ) (hg : 1 ≤ g)
    (hD : ∀ i j, Within g (D' i j) (D i j) (X i j)) (r c : ℕ × ℕ) :
    Within (g * (1 / (1 - F.u)) ^ 13) (F.k33v V a b D' r c) (k33v V a b D r c) (k33v (RTables.sizes V) a b X r c) := by
  have hD0 : ∀ i j, Within (g * F.gr ^ 0) (D' i j) (D i j) (X i j) := fun i j => by simpa using hD i j
  have c1 := four_w hu (rdiv_w (F := F) hu hb.le (show 0 < a ^ 3 by positivity) (pwPos a ha 3))
  have c2 := rdiv_w (F := F) hu (show (0 : ℝ) ≤ 4 by norm_num) (mul_pos ha hb) (flPos _ (mul_pos ha hb))
  have c3 := four_w hu (rdiv_w (F := F) hu ha.le (show 0 < b ^ 3 by positivity) (pwPos b hb 3))
  have c4 := rdiv_w (F := F) hu (show (0 : ℝ) ≤ 8 by norm_num) (show 0 < a ^ 2 by positivity) (pwPos a ha 2)
  have c5 := rdiv_w (F := F) hu (show (0 : ℝ) ≤ 8 by norm_num) (show 0 < b ^ 2 by positivity) (pwPos b hb 2)
  have c6 := rdiv_w (F := F) hu (show (0 : ℝ) ≤ 16 by norm_num) (mul_pos ha hb) (flPos _ (mul_pos ha hb))
  have t1 := rmul_w' hu hg (rmul_w hu hg c1 (hD0 0 0)) (prod_w hu (V.fxixi_fxixi r.1 c.1) (V.ff r.2 c.2))
  have t2 := rmul_w' hu hg (rmul_w hu hg c2 (hD0 1 0)) (prod2_w hu (V.fxixi_f r.1 c.1) (V.f_fxixi r.2 c.2) (V.f_fxixi r.1 c.1) (V.fxixi_f r.2 c.2))
  have t3 := rmul_w' hu hg (rmul_w hu hg c3 (hD0 1 1)) (prod_w hu (V.ff r.1 c.1) (V.fxixi_fxixi r.2 c.2))
  have t4 := rmul_w' hu hg (rmul_w hu hg c4 (hD0 2 0)) (prod2_w hu (V.fxixi_fxi r.1 c.1) (V.f_fxi r.2 c.2) (V.fxi_fxixi r.1 c.1) (V.fxi_f r.2 c.2))
  have t5 := rmul_w' hu hg (rmul_w hu hg c5 (hD0 2 1)) (prod2_w hu (V.fxi_f r.1 c.1) (V.fxi_fxixi r.2 c.2) (V.f_fxi r.1 c.1) (V.fxixi_fxi r.2 c.2))
  have t6 := rmul_w' hu hg (rmul_w hu hg c6 (hD0 2 2)) (prod_w hu (V.fxi_fxi r.1 c.1) (V.fxi_fxi r.2 c.2))
  have s1 := radd_w hu hg (m := 8) (by norm_num) (by norm_num) t1 t2
  have s2 := radd_w hu hg (m := 9) (by norm_num) (by norm_num) s1 t3
  have s3 := radd_w hu hg (m := 10) (by norm_num) (by norm_num) s2 t4
  have s4 := radd_w hu hg (m := 11) (by norm_num) (by norm_num) s3 t5
  have s5 := radd_w hu hg (m := 12) (by norm_num) (by norm_num) s4 t6
  exact s5

open FloatArith in
/-- **C112** entries of the geometric matrix. -/
theorem C112_geometric (F : FloatArith) (hu : F.u < 1) (V : RTables) (a b : ℝ) (ha : 0 < a) (hb : 0 < b) (Nxx Nyy Nxy : ℝ) (r c : ℕ × ℕ) :
    Within ((1 / (1 - F.u)) ^ 8) (F.g33v V a b Nxx Nyy Nxy r c) (g33v V a b Nxx Nyy Nxy r c) (g33v (RTables.sizes V) a b |Nxx| |Nyy| |Nxy| r c) := by
  have hN : ∀ x : ℝ, Within (1 * F.gr ^ 0) x x |x| := fun x => by simpa using Within.exact x
  have hdiv : ∀ x y : ℝ, 0 < x → 0 < y → Within (F.gr ^ 1) (F.fl (x / y)) (x / y) (x / y) := fun x y hx hy => by
    have := rnd1 (F := F) hu (n := 0) (by simpa using Within.exact (x / y))
    rwa [abs_of_pos (div_pos hx hy)] at this
  have t1 := rmul_w' hu le_rfl (rmul_w' hu le_rfl (hN Nxx) (hdiv b a hb ha)) (prod_w hu (V.fxi_fxi r.1 c.1) (V.ff r.2 c.2))
  have t2 := rmul_w' hu le_rfl (rmul_w' hu le_rfl (hN Nyy) (hdiv a b ha hb)) (prod_w hu (V.ff r.1 c.1) (V.fxi_fxi r.2 c.2))
  have t3 := rmul_w' hu le_rfl (hN Nxy) (prod2_w hu (V.f_fxi r.1 c.1) (V.fxi_f r.2 c.2) (V.fxi_f r.1 c.1) (V.f_fxi r.2 c.2))
  have s1 := radd_w hu le_rfl (m := 6) (by norm_num) (by norm_num) t1 t2
  have s2 := radd_w hu le_rfl (m := 7) (by norm_num) (by norm_num) s1 t3
  rw [one_mul] at s2
  exact s2

/-! ## Symmetry -/

/-- **C112** whenever `calc_K_KG_D` returns in exact arithmetic it returns in floating point, also with a computed `D`.  Both computed matrices are
exactly symmetric, and every entry has a small error. -/
theorem C112_matrices (F : FloatArith) (hu : F.u < 1) (D' D X : M3) (g : ℝ) (hg : 1 ≤ g) (hD : ∀ i j, Within g (D' i j) (D i j) (X i j))
    (cs : Constraints) (p : PlateNum) (ha : 0 < p.a) (hb : 0 < p.b) (hm : 1 ≤ p.m) (hn : 1 ≤ p.n) (K KG : SqMat (p.m * p.n))
    (h : calcKKGD shipped (.ok D) cs p = .ok (K, KG)) (s : ShapeIdx) (hs : computeIdx cs p.m p.n = .ok s) :
    ∃ K' KG' : SqMat (p.m * p.n), F.calcKKGD shipped (.ok D') cs p = .ok (K', KG') ∧ K'.IsSymm ∧ KG'.IsSymm ∧ ∀ r c,
      |K' r c - K r c| ≤ (g * (1 / (1 - F.u)) ^ 13 - 1) * kMat (RTables.sizes shippedV) p.a p.b X s.w (p.m * p.n) r c ∧
      |KG' r c - KG r c| ≤ ((1 / (1 - F.u)) ^ 8 - 1) * gMat (RTables.sizes shippedV) p.a p.b |p.Nxx| |p.Nyy| |p.Nxy| s.w (p.m * p.n) r c := by
  obtain ⟨M, s', hM, hs', -, -, hlt, rfl, rfl⟩ := calcKKGD_inv hm hn h
  obtain rfl := Except.ok.inj hM
  obtain rfl := Except.ok.inj (hs.symm.trans hs')
  have S := shippedV_sym
  refine ⟨_, _, FloatArith.calcKKGD_ok shipped_ok hu D' cs p s hs ha.ne' hb.ne' hlt, ?_, ?_, fun r c => ⟨?_, ?_⟩⟩
  · refine Matrix.IsSymm.ext fun r c => ?_
    simp only [FloatArith.kMat, Matrix.of_apply, FloatArith.k33v, FloatArith.prod]
    set x := s.w.getD r (0, 0)
    set y := s.w.getD c (0, 0)
    rw [(S y.1 x.1).1, (S y.2 x.2).1, (S y.1 x.1).2.1, (S y.2 x.2).2.1, (S y.1 x.1).2.2.1, (S y.2 x.2).2.2.1,
      (S y.1 x.1).2.2.2.1, (S y.2 x.2).2.2.2.1, (S y.1 x.1).2.2.2.2.1, (S y.2 x.2).2.2.2.2.1,
      (S y.1 x.1).2.2.2.2.2, (S y.2 x.2).2.2.2.2.2,
      (S x.1 y.1).2.2.2.1, (S x.2 y.2).2.2.2.1, (S x.1 y.1).2.2.2.2.1, (S x.2 y.2).2.2.2.2.1,
      (S x.1 y.1).2.2.2.2.2, (S x.2 y.2).2.2.2.2.2]
    rw [add_comm (F.fl (F.fl (shippedV.fxixi_f y.1 x.1) * _)), add_comm (F.fl (F.fl (shippedV.fxixi_fxi y.1 x.1) * _)),
      add_comm (F.fl (F.fl (shippedV.fxi_f y.1 x.1) * _))]
  · refine Matrix.IsSymm.ext fun r c => ?_
    simp only [FloatArith.gMat, Matrix.of_apply, FloatArith.g33v, FloatArith.prod]
    set x := s.w.getD r (0, 0)
    set y := s.w.getD c (0, 0)
    rw [(S y.1 x.1).1, (S y.2 x.2).1, (S y.1 x.1).2.1, (S y.2 x.2).2.1,
      (S y.1 x.1).2.2.2.1, (S y.2 x.2).2.2.2.1, (S x.1 y.1).2.2.2.1, (S x.2 y.2).2.2.2.1]
    rw [add_comm (F.fl (F.fl (shippedV.fxi_f x.1 y.1) * _))]
  · exact (C112_bending F hu shippedV p.a p.b ha hb D' D X g hg hD _ _).2
  · exact (C112_geometric F hu shippedV p.a p.b ha hb p.Nxx p.Nyy p.Nxy _ _).2

/-! ## Multipliers -/

/-- The form of a matrix with small entries. -/
theorem smallForm_le {N : ℕ} {E S : SqMat N} {e m : ℝ} (he : 0 ≤ e) (hE : ∀ r c, |E r c| ≤ e * S r c) (hS : S.IsSymm) (hm : ∀ r, ∑ c, S r c ≤ m)
    (x : Fin N → ℝ) : |x ⬝ᵥ E.mulVec x| ≤ e * m * (x ⬝ᵥ x) := by
  have h1 : |x ⬝ᵥ E.mulVec x| ≤ ∑ r, ∑ c, e * S r c * ((x r ^ 2 + x c ^ 2) / 2) := by
    simp only [dotProduct, mulVec, Finset.mul_sum]
    refine (Finset.abs_sum_le_sum_abs _ _).trans (Finset.sum_le_sum fun r _ => (Finset.abs_sum_le_sum_abs _ _).trans (Finset.sum_le_sum fun c _ => ?_))
    have h2 : |x r * x c| ≤ (x r ^ 2 + x c ^ 2) / 2 := by
      rw [abs_le]; constructor <;> nlinarith [sq_nonneg (x r - x c), sq_nonneg (x r + x c)]
    rw [show x r * (E r c * x c) = E r c * (x r * x c) by ring, abs_mul]
    exact mul_le_mul (hE r c) h2 (abs_nonneg _) ((abs_nonneg _).trans (hE r c))
  refine h1.trans ?_
  have h3 : ∑ r, ∑ c, e * S r c * ((x r ^ 2 + x c ^ 2) / 2) = ∑ r, e * (∑ c, S r c) * x r ^ 2 := by
    have e1 : ∀ r c, e * S r c * ((x r ^ 2 + x c ^ 2) / 2) = e / 2 * (S r c * x r ^ 2) + e / 2 * (S r c * x c ^ 2) := fun r c => by ring
    simp only [e1, Finset.sum_add_distrib]
    have e2 : ∑ r, ∑ c, e / 2 * (S r c * x c ^ 2) = ∑ r, ∑ c, e / 2 * (S r c * x r ^ 2) := by
      rw [Finset.sum_comm]
      exact Finset.sum_congr rfl fun r _ => Finset.sum_congr rfl fun c _ => by rw [hS.apply]
    rw [e2, ← Finset.sum_add_distrib]
    refine Finset.sum_congr rfl fun r _ => ?_
    rw [← Finset.mul_sum, ← Finset.sum_mul]; ring
  rw [h3, dotProduct, Finset.mul_sum]
  refine Finset.sum_le_sum fun r _ => ?_
  have := mul_le_mul_of_nonneg_left (hm r) he
  nlinarith [sq_nonneg (x r)]

/-- Perturbed pencils: upper bound of the perturbed multiplier. -/
theorem perturb_up {N : ℕ} {K G K' G' : SqMat N} (hK : K.PosDef) (hG : G.IsSymm) (hK' : K'.PosDef) (hG' : G'.IsSymm) {eta delta : ℝ}
    (h1 : ∀ c, c ⬝ᵥ K'.mulVec c ≤ (1 + eta) * (c ⬝ᵥ K.mulVec c)) (he : 0 ≤ eta)
    (h2 : ∀ c, c ⬝ᵥ G'.mulVec c - c ⬝ᵥ G.mulVec c ≤ delta * (c ⬝ᵥ K.mulVec c))
    {k : ℕ} (hk : 1 ≤ k) {lam : ℝ} (hl : IsKth K G k lam) (hd : delta * lam < 1) :
    ∃ lam', IsKth K' G' k lam' ∧ lam' * (1 - delta * lam) ≤ (1 + eta) * lam := by
  obtain ⟨l, hle, hpl, -⟩ := numModes_jump hK hG (hk.trans hl.1)
  have hlam : 0 < lam := hpl.1.trans_le hle
  have hd' : 0 < 1 - delta * lam := by linarith
  have hcount := numModes_ge hK' hG' (c := (1 + eta) * lam / (1 - delta * lam)) (by positivity) (modes K G lam) fun v hv => by
    have h0 := modes_energy hK hG lam hv
    have a1 := h1 v
    have a2 := h2 v
    have hc : 0 < (1 + eta) * lam / (1 - delta * lam) := by positivity
    have e1 : (1 + eta) * lam / (1 - delta * lam) * (v ⬝ᵥ G'.mulVec v) ≤
        (1 + eta) * lam / (1 - delta * lam) * (v ⬝ᵥ G.mulVec v + delta * (v ⬝ᵥ K.mulVec v)) :=
      mul_le_mul_of_nonneg_left (by linarith) hc.le
    have e2 : lam * (v ⬝ᵥ G.mulVec v + delta * (v ⬝ᵥ K.mulVec v)) ≤ -((1 - delta * lam) * (v ⬝ᵥ K.mulVec v)) := by linarith
    have e3 : (1 + eta) * lam / (1 - delta * lam) * (v ⬝ᵥ G.mulVec v + delta * (v ⬝ᵥ K.mulVec v)) ≤ -((1 + eta) * (v ⬝ᵥ K.mulVec v)) := by
      rw [div_mul_eq_mul_div, div_le_iff₀ hd']
      have := mul_le_mul_of_nonneg_left e2 (show 0 ≤ 1 + eta by linarith)
      linarith
    linarith
  obtain ⟨nu, k1, -, k2⟩ := exists_kth hK' hG' hk (hl.1.trans hcount)
  exact ⟨nu, k1, by rwa [le_div_iff₀ hd'] at k2⟩

/-- Perturbed pencils: lower bound of the perturbed multiplier. -/
theorem perturb_down {N : ℕ} {K G K' G' : SqMat N} (hK : K.PosDef) (hG : G.IsSymm) (hK' : K'.PosDef) (hG' : G'.IsSymm) {eta delta : ℝ}
    (h1 : ∀ c, (1 - eta) * (c ⬝ᵥ K.mulVec c) ≤ c ⬝ᵥ K'.mulVec c)
    (h2 : ∀ c, c ⬝ᵥ G.mulVec c - c ⬝ᵥ G'.mulVec c ≤ delta * (c ⬝ᵥ K.mulVec c))
    {k : ℕ} (hk : 1 ≤ k) {lam' : ℝ} (hl : IsKth K' G' k lam') (hd : eta + delta * lam' < 1) :
    ∃ lam, IsKth K G k lam ∧ lam * (1 - eta - delta * lam') ≤ lam' := by
  obtain ⟨l, hle, hpl, -⟩ := numModes_jump hK' hG' (hk.trans hl.1)
  have hlam : 0 < lam' := hpl.1.trans_le hle
  have hd' : 0 < 1 - eta - delta * lam' := by linarith
  have hcount := numModes_ge hK hG (c := lam' / (1 - eta - delta * lam')) (by positivity) (modes K' G' lam') fun v hv => by
    have h0 := modes_energy hK' hG' lam' hv
    have a1 := h1 v
    have a2 := mul_le_mul_of_nonneg_left (h2 v) hlam.le
    have e2 : lam' * (v ⬝ᵥ G.mulVec v) ≤ -((1 - eta - delta * lam') * (v ⬝ᵥ K.mulVec v)) := by linarith
    have e3 : lam' / (1 - eta - delta * lam') * (v ⬝ᵥ G.mulVec v) ≤ -(v ⬝ᵥ K.mulVec v) := by
      rw [div_mul_eq_mul_div, div_le_iff₀ hd']
      linarith
    linarith
  obtain ⟨nu, k1, -, k2⟩ := exists_kth hK hG hk (hl.1.trans hcount)
  exact ⟨nu, k1, by rwa [le_div_iff₀ hd'] at k2⟩

theorem sizes_symm (a b : ℝ) (X : M3) (w : List (ℕ × ℕ)) (N : ℕ) : (kMat (RTables.sizes shippedV) a b X w N).IsSymm := by
  have S := shippedV_sym
  refine Matrix.IsSymm.ext fun r c => ?_
  simp only [kMat, Matrix.of_apply, k33v, RTables.sizes]
  set x := w.getD r (0, 0)
  set y := w.getD c (0, 0)
  rw [(S y.1 x.1).1, (S y.2 x.2).1, (S y.1 x.1).2.1, (S y.2 x.2).2.1, (S y.1 x.1).2.2.1, (S y.2 x.2).2.2.1,
      (S y.1 x.1).2.2.2.1, (S y.2 x.2).2.2.2.1, (S y.1 x.1).2.2.2.2.1, (S y.2 x.2).2.2.2.2.1,
      (S y.1 x.1).2.2.2.2.2, (S y.2 x.2).2.2.2.2.2,
      (S x.1 y.1).2.2.2.1, (S x.2 y.2).2.2.2.1, (S x.1 y.1).2.2.2.2.1, (S x.2 y.2).2.2.2.2.1,
      (S x.1 y.1).2.2.2.2.2, (S x.2 y.2).2.2.2.2.2]
  ring

theorem sizesG_symm (a b Nxx Nyy Nxy : ℝ) (w : List (ℕ × ℕ)) (N : ℕ) : (gMat (RTables.sizes shippedV) a b Nxx Nyy Nxy w N).IsSymm := by
  have S := shippedV_sym
  refine Matrix.IsSymm.ext fun r c => ?_
  simp only [gMat, Matrix.of_apply, g33v, RTables.sizes]
  set x := w.getD r (0, 0)
  set y := w.getD c (0, 0)
  rw [(S y.1 x.1).1, (S y.2 x.2).1, (S y.1 x.1).2.1, (S y.2 x.2).2.1,
      (S y.1 x.1).2.2.2.1, (S y.2 x.2).2.2.2.1, (S x.1 y.1).2.2.2.1, (S x.2 y.2).2.2.2.1]
  ring

/-- **C112** effect of all roundings on the multipliers.  `kap` bounds the energy from below, `mK` and `mG` bound the sums of the sizes of the terms
in a row.  Each multiplier of the computed matrices is near the exact one of the same rank, whatever the loads. -/
theorem C112_multipliers (F : FloatArith) (hu : F.u < 1) (D' D X : M3) (g : ℝ) (hg : 1 ≤ g) (hD : ∀ i j, Within g (D' i j) (D i j) (X i j))
    (cs : Constraints) (p : PlateNum) (ha : 0 < p.a) (hb : 0 < p.b) (hm : 1 ≤ p.m) (hn : 1 ≤ p.n) (K KG : SqMat (p.m * p.n))
    (h : calcKKGD shipped (.ok D) cs p = .ok (K, KG)) (s : ShapeIdx) (hs : computeIdx cs p.m p.n = .ok s)
    (kap mK mG eta delta : ℝ) (hkap : 0 < kap) (hlow : ∀ x, kap * (x ⬝ᵥ x) ≤ x ⬝ᵥ K.mulVec x)
    (hmK : ∀ r, ∑ c, kMat (RTables.sizes shippedV) p.a p.b X s.w (p.m * p.n) r c ≤ mK)
    (hmG : ∀ r, ∑ c, gMat (RTables.sizes shippedV) p.a p.b |p.Nxx| |p.Nyy| |p.Nxy| s.w (p.m * p.n) r c ≤ mG)
    (heta : (g * (1 / (1 - F.u)) ^ 13 - 1) * mK ≤ eta * kap) (hdel : ((1 / (1 - F.u)) ^ 8 - 1) * mG ≤ delta * kap) (heta0 : 0 ≤ eta) (heta1 : eta < 1) (hdel0 : 0 ≤ delta) :
    ∃ K' KG' : SqMat (p.m * p.n), F.calcKKGD shipped (.ok D') cs p = .ok (K', KG') ∧ K'.PosDef ∧ KG'.IsSymm ∧ ∀ k, 1 ≤ k →
      (∀ lam, IsKth K KG k lam → delta * lam < 1 → ∃ lam', IsKth K' KG' k lam' ∧ lam' * (1 - delta * lam) ≤ (1 + eta) * lam) ∧
      ∀ lam', IsKth K' KG' k lam' → eta + delta * lam' < 1 → ∃ lam, IsKth K KG k lam ∧ lam * (1 - eta - delta * lam') ≤ lam' := by
  obtain ⟨K', KG', h', sK, sG, hent⟩ := C112_matrices F hu D' D X g hg hD cs p ha hb hm hn K KG h s hs
  obtain ⟨tK, tG⟩ := C48_symmetric _ _ p hm hn K KG h
  have hx0 : ∀ x : Fin (p.m * p.n) → ℝ, 0 ≤ x ⬝ᵥ x := fun x => Finset.sum_nonneg fun i _ => mul_self_nonneg _
  have bE : ∀ (E S : SqMat (p.m * p.n)) (e m t : ℝ), 0 ≤ e → (∀ r c, |E r c| ≤ e * S r c) → S.IsSymm → (∀ r, ∑ c, S r c ≤ m) → e * m ≤ t * kap → 0 ≤ t →
      ∀ x, |x ⬝ᵥ E.mulVec x| ≤ t * (x ⬝ᵥ K.mulVec x) := fun E S e m t he hE hS hm' ht ht0 x => by
    have h1 := smallForm_le he hE hS hm' x
    have h2 := mul_le_mul_of_nonneg_right ht (hx0 x)
    have h3 := mul_le_mul_of_nonneg_left (hlow x) ht0
    linarith
  have p13 := FloatArith.ggpow_ge hu hg 13
  have p8 := FloatArith.gpow_ge hu 8
  rw [FloatArith.gr] at p13 p8
  have hEK := bE (K' - K) _ _ mK eta (by linarith) (fun r c => by simpa using (hent r c).1) (sizes_symm _ _ _ _ _) hmK heta heta0
  have hEG := bE (KG' - KG) _ _ mG delta (by linarith) (fun r c => by simpa using (hent r c).2) (sizesG_symm _ _ _ _ _ _ _) hmG hdel hdel0
  simp only [sub_mulVec, dotProduct_sub] at hEK hEG
  have pd : K.PosDef := posDef_of_pos tK fun x hx => by
    refine lt_of_lt_of_le (mul_pos hkap ?_) (hlow x)
    have := Matrix.dotProduct_star_self_pos_iff.mpr hx
    simpa using this
  have pd' : K'.PosDef := posDef_of_pos sK fun x hx => by
    have h1 : 0 < x ⬝ᵥ K.mulVec x := by simpa using pd.dotProduct_mulVec_pos hx
    have := (abs_le.mp (hEK x)).1
    nlinarith
  refine ⟨K', KG', h', pd', sG, fun k hk => ⟨fun lam hl hd => ?_, fun lam' hl hd => ?_⟩⟩
  · exact perturb_up pd tG pd' sG (fun c => by linarith [(abs_le.mp (hEK c)).2]) heta0 (fun c => (abs_le.mp (hEG c)).2) hk hl hd
  · exact perturb_down pd tG pd' sG (fun c => by linarith [(abs_le.mp (hEK c)).1]) (fun c => by linarith [(abs_le.mp (hEG c)).1]) hk hl hd

/-! ## Enough precision -/

/-- A positive definite form is bounded below on the unit sphere. -/
theorem exists_low {N : ℕ} {K : SqMat N} (hK : K.PosDef) : ∃ kap : ℝ, 0 < kap ∧ ∀ x, kap * (x ⬝ᵥ x) ≤ x ⬝ᵥ K.mulVec x := by
  obtain ⟨P, hP⟩ := exists_whiten hK
  let S : SqMat N := Matrix.of fun r c => |(Pᵀ * P) r c|
  have hSs : S.IsSymm := Matrix.IsSymm.ext fun r c => by
    have : (Pᵀ * P).IsSymm := by rw [IsSymm, transpose_mul, transpose_transpose]
    simp only [S, of_apply, this.apply]
  have hm : ∀ r, ∑ c, S r c ≤ ∑ r, ∑ c, S r c := fun r =>
    Finset.single_le_sum (f := fun r => ∑ c, S r c) (fun r _ => Finset.sum_nonneg fun c _ => abs_nonneg _) (Finset.mem_univ r)
  have hm0 : 0 ≤ ∑ r, ∑ c, S r c := Finset.sum_nonneg fun r _ => Finset.sum_nonneg fun c _ => abs_nonneg _
  refine ⟨1 / (∑ r, ∑ c, S r c + 1), by positivity, fun x => ?_⟩
  have hx := diag_coord hP x
  set y := (Pᵀ * K).mulVec x
  have q : ∀ A : SqMat N, P.mulVec y ⬝ᵥ A.mulVec (P.mulVec y) = y ⬝ᵥ (Pᵀ * A * P).mulVec y := fun A => by
    rw [← mulVec_mulVec, ← mulVec_mulVec, dotProduct_mulVec y, vecMul_transpose]
  have h1 : x ⬝ᵥ K.mulVec x = y ⬝ᵥ y := by
    have := q K
    rwa [hP, one_mulVec, hx] at this
  have h2 : x ⬝ᵥ x = y ⬝ᵥ (Pᵀ * P).mulVec y := by
    have := q 1
    rwa [mul_one, one_mulVec, hx] at this
  have h3 := (le_abs_self _).trans (smallForm_le (E := Pᵀ * P) (S := S) zero_le_one (fun r c => by simp [S]) hSs hm y)
  rw [h1, h2, div_mul_eq_mul_div, one_mul, div_le_iff₀ (by positivity)]
  have hy : 0 ≤ y ⬝ᵥ y := Finset.sum_nonneg fun i _ => mul_self_nonneg _
  nlinarith

theorem growth_small {t : ℝ} (h0 : 0 ≤ t) (h1 : t ≤ 1 / 26) {u g : ℝ} (hu : u ≤ t) (hu0 : 0 ≤ u) (hg : g ≤ 1 + t) :
    g * (1 / (1 - u)) ^ 13 - 1 ≤ 28 * t ∧ (1 / (1 - u)) ^ 8 - 1 ≤ 28 * t := by
  have hb : 1 - 13 * t ≤ (1 - u) ^ 13 := by
    have := one_add_mul_le_pow (show (-2 : ℝ) ≤ -u by linarith) 13
    have e : (1 + -u) = 1 - u := by ring
    rw [e] at this
    push_cast at this
    linarith
  have h2 : (1 / (1 - u)) ^ 13 ≤ 1 + 26 * t := by
    rw [one_div, inv_pow, inv_le_comm₀ (by apply pow_pos; linarith) (by linarith)]
    refine le_trans ?_ hb
    rw [inv_le_iff_one_le_mul₀ (by linarith)]
    nlinarith
  have hbase : 1 ≤ 1 / (1 - u) := by rw [le_div_iff₀ (by linarith)]; linarith
  have h3 : (1 / (1 - u)) ^ 8 ≤ (1 / (1 - u)) ^ 13 := pow_le_pow_right₀ hbase (by norm_num)
  have h4 : 1 ≤ (1 / (1 - u)) ^ 13 := one_le_pow₀ hbase
  constructor
  · have : g * (1 / (1 - u)) ^ 13 ≤ (1 + t) * (1 + 26 * t) := mul_le_mul hg h2 (by linarith) (by linarith)
    nlinarith
  · linarith

/-- **C112** enough precision: for every tolerance there is a precision from which on all multipliers are computed with that relative accuracy,
whatever the rounding, provided the bending matrix is positive definite. -/
theorem C112_precision (D X : M3) (cs : Constraints) (p : PlateNum) (ha : 0 < p.a) (hb : 0 < p.b) (hm : 1 ≤ p.m) (hn : 1 ≤ p.n)
    (K KG : SqMat (p.m * p.n)) (h : calcKKGD shipped (.ok D) cs p = .ok (K, KG)) (hpd : K.PosDef) (eps : ℝ) (heps : 0 < eps) :
    ∃ t : ℝ, 0 < t ∧ ∀ F : FloatArith, F.u ≤ t → ∀ D' : M3, (∀ i j, Within (1 + t) (D' i j) (D i j) (X i j)) →
      ∃ K' KG' : SqMat (p.m * p.n), F.calcKKGD shipped (.ok D') cs p = .ok (K', KG') ∧ K'.PosDef ∧ K'.IsSymm ∧ KG'.IsSymm ∧ ∀ k lam, 1 ≤ k →
        IsKth K KG k lam → ∃ lam', IsKth K' KG' k lam' ∧ |lam' - lam| ≤ eps * lam := by
  obtain ⟨M, s, hM, hs, -, -, hlt, -, -⟩ := calcKKGD_inv hm hn h
  have hG := (C48_symmetric _ _ p hm hn K KG h).2
  obtain ⟨kap, hkap, hlow⟩ := exists_low hpd
  set mK := ∑ r, ∑ c, |kMat (RTables.sizes shippedV) p.a p.b X s.w (p.m * p.n) r c| with hmKd
  set mG := ∑ r, ∑ c, |gMat (RTables.sizes shippedV) p.a p.b |p.Nxx| |p.Nyy| |p.Nxy| s.w (p.m * p.n) r c| with hmGd
  have rows : ∀ A : SqMat (p.m * p.n), ∀ r, ∑ c, A r c ≤ ∑ r, ∑ c, |A r c| := fun A r =>
    (Finset.sum_le_sum fun c _ => le_abs_self _).trans
      (Finset.single_le_sum (f := fun r => ∑ c, |A r c|) (fun r _ => Finset.sum_nonneg fun c _ => abs_nonneg _) (Finset.mem_univ r))
  have hmK0 : 0 ≤ mK := Finset.sum_nonneg fun r _ => Finset.sum_nonneg fun c _ => abs_nonneg _
  have hmG0 : 0 ≤ mG := Finset.sum_nonneg fun r _ => Finset.sum_nonneg fun c _ => abs_nonneg _
  obtain ⟨L, hL⟩ := (posMult_finite hpd hG).bddAbove
  set L' := max L 1
  have hL' : (1 : ℝ) ≤ L' := le_max_right _ _
  set e := min eps 1
  have he0 : 0 < e := lt_min heps one_pos
  have he1 : e ≤ 1 := min_le_right _ _
  have hee : e ≤ eps := min_le_left _ _
  -- the precision
  set t := min (1 / 26) (min (e / 4 * kap / (28 * (mK + 1))) (e / 8 / L' * kap / (28 * (mG + 1))))
  have ht0 : 0 < t := by
    refine lt_min (by norm_num) (lt_min ?_ ?_) <;> positivity
  have ht1 : t ≤ 1 / 26 := min_le_left _ _
  have ht2 : 28 * t * mK ≤ e / 4 * kap := by
    have := (min_le_right _ _).trans (min_le_left _ _) |> (le_refl t).trans
    rw [le_div_iff₀ (by positivity)] at this
    nlinarith
  have ht3 : 28 * t * mG ≤ e / 8 / L' * kap := by
    have := (min_le_right _ _).trans (min_le_right _ _) |> (le_refl t).trans
    rw [le_div_iff₀ (by positivity)] at this
    nlinarith
  refine ⟨t, ht0, fun F hF D' hD => ?_⟩
  have hu : F.u < 1 := by linarith
  obtain ⟨g1, g2⟩ := growth_small ht0.le ht1 hF F.u_nonneg le_rfl
  have hdel0 : 0 ≤ e / 8 / L' := by positivity
  obtain ⟨K', KG', k1, k2, k3, k4⟩ := C112_multipliers F hu D' D X (1 + t) (by linarith) hD cs p ha hb hm hn K KG h s hs kap mK mG (e / 4) (e / 8 / L')
    hkap hlow (rows _) (rows _) ((mul_le_mul_of_nonneg_right g1 hmK0).trans ht2) ((mul_le_mul_of_nonneg_right g2 hmG0).trans ht3) (by positivity)
    (by linarith) hdel0
  refine ⟨K', KG', k1, k2, k2.isHermitian, k3, fun k lam hk hl => ?_⟩
  obtain ⟨l, hle, hpl, hcnt⟩ := numModes_jump hpd hG (hk.trans hl.1)
  have hlam : l = lam := le_antisymm hle (hl.2 (show k ≤ numModes K KG l by rw [hcnt]; exact hl.1))
  subst hlam
  have hl0 := hpl.1
  have hlL : l ≤ L' := (hL hpl).trans (le_max_left _ _)
  have hdl : e / 8 / L' * l ≤ e / 8 := by
    rw [div_mul_eq_mul_div, div_le_iff₀ (by linarith)]
    exact mul_le_mul_of_nonneg_left hlL (by positivity)
  obtain ⟨lam', i1, i2⟩ := (k4 k hk).1 l hl (by linarith)
  have hlam' : 0 < lam' := by
    obtain ⟨l2, hle2, hpl2, -⟩ := numModes_jump k2 k3 (hk.trans i1.1)
    exact hpl2.1.trans_le hle2
  have up : lam' ≤ (1 + e) * l := by
    have h1 : lam' * (1 - e / 8) ≤ (1 + e / 4) * l := (mul_le_mul_of_nonneg_left (by linarith) hlam'.le).trans i2
    have h3 : 1 + e / 4 ≤ (1 + e) * (1 - e / 8) := by nlinarith
    have h2 : (1 + e / 4) * l ≤ (1 + e) * l * (1 - e / 8) := by
      have := mul_le_mul_of_nonneg_right h3 hl0.le
      linarith
    exact le_of_mul_le_mul_right (h1.trans h2) (by linarith)
  have hdl' : e / 8 / L' * lam' ≤ e / 4 := by
    calc e / 8 / L' * lam' ≤ e / 8 / L' * ((1 + e) * l) := mul_le_mul_of_nonneg_left up hdel0
      _ = (1 + e) * (e / 8 / L' * l) := by ring
      _ ≤ (1 + e) * (e / 8) := mul_le_mul_of_nonneg_left hdl (by linarith)
      _ ≤ e / 4 := by nlinarith
  obtain ⟨l2, j1, j2⟩ := (k4 k hk).2 lam' i1 (by linarith)
  obtain rfl := j1.unique hl
  refine ⟨lam', i1, ?_⟩
  rw [abs_le]
  constructor
  · have : l2 * (1 - e / 2) ≤ lam' := (mul_le_mul_of_nonneg_left (by linarith) hl0.le).trans j2
    nlinarith
  · nlinarith

/-- Non-vacuity for C112: with enough bits, rounding to nearest computes every multiplier of the clamped demonstration plate to six digits, and
there is such a multiplier. -/
example : ∃ (K KG : SqMat (2 * 2)) (p0 : ℕ), calcKKGD shipped (.ok (demoD 1 1)) (.str wCLAMPED) (demoPlate 1) = .ok (K, KG) ∧ (∃ lam, IsKth K KG 1 lam) ∧
    ∀ p ≥ p0, ∃ K' KG' : SqMat (2 * 2), (nearestArith p).calcKKGD shipped (.ok (demoD 1 1)) (.str wCLAMPED) (demoPlate 1) = .ok (K', KG') ∧
      ∀ k lam, 1 ≤ k → IsKth K KG k lam → ∃ lam', IsKth K' KG' k lam' ∧ |lam' - lam| ≤ 1 / 10 ^ 6 * lam := by
  obtain ⟨K, KG, h, hpd, hsym, hb⟩ := demo_matrices 1 1 1 one_pos one_pos one_pos
  obtain ⟨t, ht, hall⟩ := C112_precision (demoD 1 1) (Matrix.of fun i j => |demoD 1 1 i j|) (.str wCLAMPED) (demoPlate 1) (by norm_num [demoPlate])
    (by norm_num [demoPlate]) (by norm_num [demoPlate]) (by norm_num [demoPlate]) K KG h hpd (1 / 10 ^ 6) (by norm_num)
  obtain ⟨p0, hp0⟩ := exists_pow_lt_of_lt_one ht (show (1 / 2 : ℝ) < 1 by norm_num)
  obtain ⟨lam, hlam⟩ := exists_min_posMult hpd hsym ⟨_, (hb.1 _).mpr ⟨0, rfl⟩⟩
  refine ⟨K, KG, p0, h, ⟨lam, (kth_one hpd hsym lam).mpr hlam⟩, fun p hp => ?_⟩
  obtain ⟨K', KG', h1, -, -, -, h2⟩ := hall (nearestArith p) (by
    show (2 : ℝ) ^ (-(p : ℤ) - 1) ≤ t
    refine le_trans ?_ hp0.le
    rw [one_div, inv_pow, ← zpow_natCast, ← _root_.zpow_neg]
    exact zpow_le_zpow_right₀ (by norm_num) (by omega)) (demoD 1 1) (fun i j => (Within.exact _).mono le_rfl (by linarith) le_rfl)
  exact ⟨K', KG', h1, h2⟩

end Composipy
