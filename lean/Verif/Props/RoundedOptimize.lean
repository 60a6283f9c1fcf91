import Verif.Model.RoundedOptimize
import Verif.Props.DoublePrecision
import Verif.Props.Optimum
import Verif.Props.RoundedLimit

/-!
# The optimisers in floating-point arithmetic (C128)
-/

namespace Composipy
open Spec Matrix

/-! ## Normalised loads -/

/-- **C128** `normalize_critical_load` fails in floating point exactly when it fails in exact arithmetic, each ratio is off by one rounding, and the largest
magnitude is exact. -/
theorem C128_normalised (F : FloatArith) (Nxx Nyy Nxy : ℝ) :
    (∀ e, F.normalizeCriticalLoad Nxx Nyy Nxy = .error e ↔ normalizeCriticalLoad Nxx Nyy Nxy = .error e) ∧
    ∀ x y s M, normalizeCriticalLoad Nxx Nyy Nxy = .ok (x, y, s, M) → ∃ x' y' s', F.normalizeCriticalLoad Nxx Nyy Nxy = .ok (x', y', s', M) ∧
      |x' - x| ≤ F.u * |x| ∧ |y' - y| ≤ F.u * |y| ∧ |s' - s| ≤ F.u * |s| := by
  by_cases h : max |Nxx| (max |Nyy| |Nxy|) = 0
  · obtain ⟨rfl, rfl, rfl⟩ := maxAbs_zero.mp h
    obtain ⟨l, hl, -, hi⟩ := sorted_last 0 0 0
    have e1 : F.normalizeCriticalLoad 0 0 0 = .error .zeroDivisionError := by
      simp only [FloatArith.normalizeCriticalLoad]
      rw [hl, hi]
      simp [pyDiv]
    have e2 : normalizeCriticalLoad 0 0 0 = .error .zeroDivisionError := by
      simp only [normalizeCriticalLoad]
      rw [hl, hi]
      simp [pyDiv]
    rw [e1, e2]
    exact ⟨fun e => Iff.rfl, fun _ _ _ _ h => by cases h⟩
  · obtain ⟨l, hl, -, hi⟩ := sorted_last Nxx Nyy Nxy
    have e1 : F.normalizeCriticalLoad Nxx Nyy Nxy = .ok (F.fl (Nxx / max |Nxx| (max |Nyy| |Nxy|)), F.fl (Nyy / max |Nxx| (max |Nyy| |Nxy|)),
        F.fl (Nxy / max |Nxx| (max |Nyy| |Nxy|)), max |Nxx| (max |Nyy| |Nxy|)) := by
      simp only [FloatArith.normalizeCriticalLoad]
      rw [hl, hi]
      simp [pyDiv, h]
    rw [e1, normalize_eq _ _ _ h]
    refine ⟨fun e => by simp, fun x y s M hx => ?_⟩
    simp only [Except.ok.injEq, Prod.mk.injEq] at hx
    obtain ⟨rfl, rfl, rfl, rfl⟩ := hx
    exact ⟨_, _, _, rfl, F.near _, F.near _, F.near _⟩

/-! ## Constraints -/

/-- The vectors that hold the lamination parameters `xi1`, `xi3`. -/
def Spec.HoldsXi (y0 : List ℝ) (xi1 xi3 : ℝ) : Prop := y0 = [xi1, xi3] ∨ ∃ T, y0 = [T, xi1, xi3]

theorem Spec.HoldsXi.unpack {y0 : List ℝ} {xi1 xi3 : ℝ} (h : HoldsXi y0 xi1 xi3) : unpackXi y0 = .ok (xi1, xi3) := by
  rcases h with rfl | ⟨T, rfl⟩ <;> rfl

/-- The last two roundings of a constraint. -/
theorem last_two (F : FloatArith) {a a' c : ℝ} (hc : |c| ≤ 1) (ha : |a| ≤ 2) {e : ℝ} (h : |a' - a| ≤ e) :
    |F.fl (F.fl (c + a') + 1) - (c + a + 1)| ≤ e + F.u * (3 + e) + F.u * (4 + e + F.u * (3 + e)) := by
  have hu0 := F.u_nonneg
  have he : 0 ≤ e := (abs_nonneg _).trans h
  have h1 := F.near (c + a')
  have h2 := F.near (F.fl (c + a') + 1)
  have h3 : |c + a'| ≤ 3 + e := by
    rw [abs_le] at *
    constructor <;> linarith [h.1, h.2, ha.1, ha.2, hc.1, hc.2]
  have h4 : |F.fl (c + a') - (c + a')| ≤ F.u * (3 + e) := h1.trans (mul_le_mul_of_nonneg_left h3 hu0)
  have h5 : |F.fl (c + a') + 1| ≤ 4 + e + F.u * (3 + e) := by
    rw [abs_le] at *
    constructor <;> linarith [h3.1, h3.2, h4.1, h4.2]
  have h6 := h2.trans (mul_le_mul_of_nonneg_left h5 hu0)
  rw [abs_le] at *
  constructor <;> linarith [h.1, h.2, h4.1, h4.2, h6.1, h6.2]

/-- **C128** the three constraint functions in floating point: on the box of the optimisers the error is at most a few units of rounding. -/
theorem C128_constraints (F : FloatArith) (hu : F.u ≤ 1 / 16) (y0 : List ℝ) (xi1 xi3 : ℝ) (h : HoldsXi y0 xi1 xi3) (b1 : |xi1| ≤ 1) (b3 : |xi3| ≤ 1) :
    (∃ g', F.penaltyG1 y0 = .ok g' ∧ |g' - (xi3 + 2 * xi1 + 1)| ≤ 10 * F.u) ∧ (∃ g', F.penaltyG2 y0 = .ok g' ∧ |g' - (xi3 - 2 * xi1 + 1)| ≤ 10 * F.u) ∧
    ∃ g', F.naturalConstraintG y0 = .ok g' ∧ |g' - (xi3 - 2 * xi1 ^ 2 + 1)| ≤ 12 * F.u := by
  have hu0 := F.u_nonneg
  have hu2 : F.u ^ 2 ≤ F.u / 16 := by nlinarith
  have hu3 : F.u ^ 3 ≤ F.u / 256 := by nlinarith
  have hu4 : F.u ^ 4 ≤ F.u / 4096 := by nlinarith
  have h2 : |2 * xi1| ≤ 2 := by rw [abs_mul, abs_two]; linarith
  have e1 : |F.fl (2 * xi1) - 2 * xi1| ≤ 2 * F.u := (F.near _).trans (by nlinarith)
  refine ⟨?_, ?_, ?_⟩
  · refine ⟨F.fl (F.fl (xi3 + F.fl (2 * xi1)) + 1), by simp only [FloatArith.penaltyG1, h.unpack, ok_bind, pure_eq_ok], ?_⟩
    refine (last_two F b3 h2 e1).trans ?_
    nlinarith
  · refine ⟨F.fl (F.fl (xi3 - F.fl (2 * xi1)) + 1), by simp only [FloatArith.penaltyG2, h.unpack, ok_bind, pure_eq_ok], ?_⟩
    have := last_two F b3 (a := -(2 * xi1)) (a' := -F.fl (2 * xi1)) (by rwa [abs_neg]) (e := 2 * F.u) (by rw [neg_sub_neg, abs_sub_comm]; exact e1)
    rw [← sub_eq_add_neg, ← sub_eq_add_neg] at this
    refine this.trans ?_
    nlinarith
  · refine ⟨F.fl (F.fl (xi3 - F.fl (2 * F.pw xi1 2)) + 1), by simp only [FloatArith.naturalConstraintG, h.unpack, ok_bind, pure_eq_ok], ?_⟩
    have q : |xi1 ^ 2| ≤ 1 := by rw [abs_pow]; exact pow_le_one₀ (abs_nonneg _) b1
    have p1 : |F.pw xi1 2 - xi1 ^ 2| ≤ F.u := (F.nearPw xi1 2).trans (by nlinarith)
    have p2 : |2 * F.pw xi1 2| ≤ 2 + 2 * F.u := by
      rw [abs_le] at *
      constructor <;> linarith [p1.1, p1.2, q.1, q.2]
    have p3 : |F.fl (2 * F.pw xi1 2) - 2 * xi1 ^ 2| ≤ 4 * F.u + 2 * F.u ^ 2 := by
      have := (F.near (2 * F.pw xi1 2)).trans (mul_le_mul_of_nonneg_left p2 hu0)
      rw [abs_le] at *
      constructor <;> linarith [p1.1, p1.2, this.1, this.2]
    have := last_two F b3 (a := -(2 * xi1 ^ 2)) (a' := -F.fl (2 * F.pw xi1 2)) (by rw [abs_neg, abs_mul, abs_two]; linarith) (e := 4 * F.u + 2 * F.u ^ 2)
      (by rw [neg_sub_neg, abs_sub_comm]; exact p3)
    rw [← sub_eq_add_neg, ← sub_eq_add_neg] at this
    refine this.trans ?_
    nlinarith

/-- **C128** the tolerance of the constraints absorbs the roundings: with five digits or more, a point that satisfies a constraint exactly is accepted, and an
accepted point violates it by little more than the tolerance. -/
theorem C128_feasible (F : FloatArith) (hu : F.u ≤ 1 / 10 ^ 6) (S : EigSolver) (g : Panel) (T Nxx Nyy Nxy : ℝ) (pen : Bool) (prob : MinProblem)
    (hp : F.maximizeBucklingLoad S g T Nxx Nyy Nxy pen = .ok prob) (xi1 xi3 : ℝ) (b1 : |xi1| ≤ 1) (b3 : |xi3| ≤ 1) :
    ((∀ c ∈ prob.cons, ∃ v, c.f [xi1, xi3] = .ok (.fin v) ∧ c.lb ≤ v) →
      if pen then -0.00012 ≤ xi3 + 2 * xi1 + 1 ∧ -0.00012 ≤ xi3 - 2 * xi1 + 1 else -0.00012 ≤ xi3 - 2 * xi1 ^ 2 + 1) ∧
    ((if pen then 0 ≤ xi3 + 2 * xi1 + 1 ∧ 0 ≤ xi3 - 2 * xi1 + 1 else 0 ≤ xi3 - 2 * xi1 ^ 2 + 1) →
      ∀ c ∈ prob.cons, ∃ v, c.f [xi1, xi3] = .ok (.fin v) ∧ c.lb ≤ v ∧ c.ub = .fin 10000 ∧ v ≤ 10000) := by
  have hu0 := F.u_nonneg
  obtain ⟨⟨g1, f1, e1⟩, ⟨g2, f2, e2⟩, ⟨g3, f3, e3⟩⟩ := C128_constraints F (by linarith) [xi1, xi3] xi1 xi3 (.inl rfl) b1 b3
  rcases hn : F.normalizeCriticalLoad Nxx Nyy Nxy with e | ⟨x, y, s, M⟩
  · simp [FloatArith.maximizeBucklingLoad, hn] at hp
  simp only [FloatArith.maximizeBucklingLoad, hn, ok_bind, pure_eq_ok, Except.ok.injEq] at hp
  subst hp
  have hlb := F.near 0.0001
  rw [abs_of_pos (by norm_num : (0 : ℝ) < 0.0001)] at hlb
  rw [abs_le] at hlb e1 e2 e3 b1 b3
  have q : xi1 ^ 2 ≤ 1 := by nlinarith
  have q0 := sq_nonneg xi1
  cases pen
  · simp only [Bool.false_eq_true, if_false, List.mem_singleton, forall_eq, f3, Except.map]
    refine ⟨fun ⟨v, hv, hl⟩ => ?_, fun h => ⟨_, rfl, ?_, trivial, ?_⟩⟩
    · cases hv
      linarith [e3.1, e3.2, hlb.1, hlb.2]
    · linarith [e3.1, e3.2, hlb.1, hlb.2]
    · linarith [e3.1, e3.2, b3.2]
  · simp only [if_true, List.mem_cons, List.not_mem_nil, or_false, forall_eq_or_imp, forall_eq, f1, f2, Except.map]
    refine ⟨fun ⟨⟨v, hv, hl⟩, ⟨w, hw, hl'⟩⟩ => ?_, fun h => ⟨⟨_, rfl, ?_, trivial, ?_⟩, ⟨_, rfl, ?_, trivial, ?_⟩⟩⟩
    · cases hv
      cases hw
      constructor <;> linarith [e1.1, e1.2, e2.1, e2.2, hlb.1, hlb.2]
    all_goals linarith [e1.1, e1.2, e2.1, e2.2, hlb.1, hlb.2, b1.1, b1.2, b3.2, h.1, h.2]

/-- **C128** the same for `minimize_panel_weight`, whose constraints after the first are those of the triangle. -/
theorem C128_feasible_weight (F : FloatArith) (hu : F.u ≤ 1 / 10 ^ 6) (S : EigSolver) (g : Panel) (Nxx Nyy Nxy : ℝ) (x0 : List ℝ) (prob : MinProblem)
    (hp : F.minimizePanelWeight S g Nxx Nyy Nxy x0 = .ok prob) (T xi1 xi3 : ℝ) (b1 : |xi1| ≤ 1) (b3 : |xi3| ≤ 1) :
    ((∀ c ∈ prob.cons.tail, ∃ v, c.f [T, xi1, xi3] = .ok (.fin v) ∧ c.lb ≤ v) → -0.00012 ≤ xi3 + 2 * xi1 + 1 ∧ -0.00012 ≤ xi3 - 2 * xi1 + 1) ∧
    (0 ≤ xi3 + 2 * xi1 + 1 ∧ 0 ≤ xi3 - 2 * xi1 + 1 →
      ∀ c ∈ prob.cons.tail, ∃ v, c.f [T, xi1, xi3] = .ok (.fin v) ∧ c.lb ≤ v ∧ c.ub = .fin 10000 ∧ v ≤ 10000) := by
  have hu0 := F.u_nonneg
  obtain ⟨⟨g1, f1, e1⟩, ⟨g2, f2, e2⟩, -⟩ := C128_constraints F (by linarith) [T, xi1, xi3] xi1 xi3 (.inr ⟨T, rfl⟩) b1 b3
  rcases hn : F.normalizeCriticalLoad Nxx Nyy Nxy with e | ⟨x, y, s, M⟩
  · simp [FloatArith.minimizePanelWeight, hn] at hp
  simp only [FloatArith.minimizePanelWeight, hn, ok_bind, pure_eq_ok, Except.ok.injEq] at hp
  subst hp
  have hlb := F.near 0.0001
  rw [abs_of_pos (by norm_num : (0 : ℝ) < 0.0001)] at hlb
  rw [abs_le] at hlb e1 e2 b1 b3
  simp only [List.tail_cons, List.mem_cons, List.not_mem_nil, or_false, forall_eq_or_imp, forall_eq, f1, f2, Except.map]
  refine ⟨fun ⟨⟨v, hv, hl⟩, ⟨w, hw, hl'⟩⟩ => ?_, fun h => ⟨⟨_, rfl, ?_, trivial, ?_⟩, ⟨_, rfl, ?_, trivial, ?_⟩⟩⟩
  · cases hv
    cases hw
    constructor <;> linarith [e1.1, e1.2, e2.1, e2.2, hlb.1, hlb.2]
  all_goals linarith [e1.1, e1.2, e2.1, e2.2, hlb.1, hlb.2, b1.1, b1.2, b3.2, h.1, h.2]

/-! ## Small changes of a pencil -/

/-- Small changes of the entries of a pencil move its multipliers little. -/
theorem pencil_precision {N : ℕ} {K G : SqMat N} (hpd : K.PosDef) (hG : G.IsSymm) (SK SG : SqMat N) (hSK : SK.IsSymm) (hSG : SG.IsSymm) {eps : ℝ}
    (heps : 0 < eps) : ∃ t : ℝ, 0 < t ∧ ∀ d, 0 ≤ d → d ≤ t → ∀ K' G' : SqMat N, K'.IsSymm → G'.IsSymm → (∀ r c, |K' r c - K r c| ≤ d * SK r c) →
      (∀ r c, |G' r c - G r c| ≤ d * SG r c) → K'.PosDef ∧ ∀ k lam, 1 ≤ k → IsKth K G k lam → ∃ lam', IsKth K' G' k lam' ∧ |lam' - lam| ≤ eps * lam := by
  obtain ⟨kap, hkap, hlow⟩ := exists_low hpd
  set mK := ∑ r, ∑ c, |SK r c| with hmKd
  set mG := ∑ r, ∑ c, |SG r c| with hmGd
  have rows : ∀ A : SqMat N, ∀ r, ∑ c, A r c ≤ ∑ r, ∑ c, |A r c| := fun A r =>
    (Finset.sum_le_sum fun c _ => le_abs_self _).trans
      (Finset.single_le_sum (f := fun r => ∑ c, |A r c|) (fun r _ => Finset.sum_nonneg fun c _ => abs_nonneg _) (Finset.mem_univ r))
  have hmK0 : 0 ≤ mK := Finset.sum_nonneg fun r _ => Finset.sum_nonneg fun c _ => abs_nonneg _
  have hmG0 : 0 ≤ mG := Finset.sum_nonneg fun r _ => Finset.sum_nonneg fun c _ => abs_nonneg _
  obtain ⟨L, hL⟩ := (posMult_finite hpd hG).bddAbove
  set L' := max L 1
  have hL' : (1 : ℝ) ≤ L' := le_max_right _ _
  set e := min eps 1
  have he0 : 0 < e := lt_min heps one_pos
  have he1 : e ≤ 1 := min_le_right _ _
  have hee : e ≤ eps := min_le_left _ _
  set t := min (e / 4 * kap / (mK + 1)) (e / 8 / L' * kap / (mG + 1)) with htd
  have ht0 : 0 < t := by refine lt_min ?_ ?_ <;> positivity
  refine ⟨t, ht0, fun d hd0 hd K' G' sK sG hEK hEG => ?_⟩
  have ht2 : d * mK ≤ e / 4 * kap := by
    have := hd.trans (min_le_left _ _)
    rw [le_div_iff₀ (by positivity)] at this
    nlinarith
  have ht3 : d * mG ≤ e / 8 / L' * kap := by
    have := hd.trans (min_le_right _ _)
    rw [le_div_iff₀ (by positivity)] at this
    nlinarith
  have hdel0 : 0 ≤ e / 8 / L' := by positivity
  have hx0 : ∀ x : Fin N → ℝ, 0 ≤ x ⬝ᵥ x := fun x => Finset.sum_nonneg fun i _ => mul_self_nonneg _
  have bE : ∀ (E S : SqMat N) (m t : ℝ), (∀ r c, |E r c| ≤ d * S r c) → S.IsSymm → (∀ r, ∑ c, S r c ≤ m) → d * m ≤ t * kap → 0 ≤ t →
      ∀ x, |x ⬝ᵥ E.mulVec x| ≤ t * (x ⬝ᵥ K.mulVec x) := fun E S m t hE hS hm' ht ht0 x => by
    have h1 := smallForm_le hd0 hE hS hm' x
    have h2 := mul_le_mul_of_nonneg_right ht (hx0 x)
    have h3 := mul_le_mul_of_nonneg_left (hlow x) ht0
    linarith
  have fK := bE (K' - K) SK mK (e / 4) (fun r c => by simpa using hEK r c) hSK (rows _) ht2 (by positivity)
  have fG := bE (G' - G) SG mG (e / 8 / L') (fun r c => by simpa using hEG r c) hSG (rows _) ht3 hdel0
  simp only [sub_mulVec, dotProduct_sub] at fK fG
  have pd' : K'.PosDef := posDef_of_pos sK fun x hx => by
    have h1 : 0 < x ⬝ᵥ K.mulVec x := by simpa using hpd.dotProduct_mulVec_pos hx
    have := (abs_le.mp (fK x)).1
    nlinarith
  refine ⟨pd', fun k lam hk hl => ?_⟩
  obtain ⟨l, hle, hpl, hcnt⟩ := numModes_jump hpd hG (hk.trans hl.1)
  have hlam : l = lam := le_antisymm hle (hl.2 (show k ≤ numModes K G l by rw [hcnt]; exact hl.1))
  subst hlam
  have hl0 := hpl.1
  have hlL : l ≤ L' := (hL hpl).trans (le_max_left _ _)
  have hdl : e / 8 / L' * l ≤ e / 8 := by
    rw [div_mul_eq_mul_div, div_le_iff₀ (by linarith)]
    exact mul_le_mul_of_nonneg_left hlL (by positivity)
  obtain ⟨lam', i1, i2⟩ := perturb_up hpd hG pd' sG (fun c => by linarith [(abs_le.mp (fK c)).2]) (show 0 ≤ e / 4 by positivity)
    (fun c => (abs_le.mp (fG c)).2) hk hl (by linarith)
  have hlam' : 0 < lam' := by
    obtain ⟨l2, hle2, hpl2, -⟩ := numModes_jump pd' sG (hk.trans i1.1)
    exact hpl2.1.trans_le hle2
  have up : lam' ≤ (1 + e) * l := by
    have h1 : lam' * (1 - e / 8) ≤ (1 + e / 4) * l := (mul_le_mul_of_nonneg_left (by linarith) hlam'.le).trans i2
    have h3 : 1 + e / 4 ≤ (1 + e) * (1 - e / 8) := by nlinarith
    have h2 : (1 + e / 4) * l ≤ (1 + e) * l * (1 - e / 8) := by
      have := mul_le_mul_of_nonneg_right h3 hl0.le
      linarith
    exact le_of_mul_le_mul_right (h1.trans h2) (by linarith)
  have hdl' : e / 8 / L' * lam' ≤ e / 4 := by
    calc e / 8 / L' * lam' ≤ e / 8 / L' * ((1 + e) * l) := mul_le_mul_of_nonneg_left up hdel0
      _ = (1 + e) * (e / 8 / L' * l) := by ring
      _ ≤ (1 + e) * (e / 8) := mul_le_mul_of_nonneg_left hdl (by linarith)
      _ ≤ e / 4 := by nlinarith
  obtain ⟨l2, j1, j2⟩ := perturb_down hpd hG pd' sG (eta := e / 4) (delta := e / 8 / L') (fun c => by linarith [(abs_le.mp (fK c)).1])
    (fun c => by linarith [(abs_le.mp (fG c)).1]) hk i1 (by linarith)
  obtain rfl := j1.unique hl
  refine ⟨lam', i1, ?_⟩
  rw [abs_le]
  constructor
  · have : l2 * (1 - e / 2) ≤ lam' := (mul_le_mul_of_nonneg_left (by linarith) hl0.le).trans j2
    nlinarith
  · nlinarith

/-! ## The matrices -/

/-- The geometric matrix with rounded loads. -/
theorem loads_near (F : FloatArith) (hu : F.u < 1) (a b : ℝ) (ha : 0 < a) (hb : 0 < b) {x y s x' y' s' : ℝ} (hx : |x' - x| ≤ F.u * |x|)
    (hy : |y' - y| ≤ F.u * |y|) (hs : |s' - s| ≤ F.u * |s|) (r c : ℕ × ℕ) :
    |F.g33v shippedV a b x' y' s' r c - g33v shippedV a b x y s r c| ≤
      ((1 + F.u) * (1 / (1 - F.u)) ^ 8 - 1) * g33v (RTables.sizes shippedV) a b |x| |y| |s| r c := by
  have h1 := (C112_geometric F hu shippedV a b ha hb x' y' s' r c).2
  have p8 := FloatArith.gpow_ge hu 8
  rw [FloatArith.gr] at p8
  have hba : 0 < b / a := div_pos hb ha
  have hab : 0 < a / b := div_pos ha hb
  have up : ∀ {z z' : ℝ}, |z' - z| ≤ F.u * |z| → |z'| ≤ (1 + F.u) * |z| := fun {z z'} h => by
    have := abs_sub_abs_le_abs_sub z' z
    linarith
  have h2 : g33v (RTables.sizes shippedV) a b |x'| |y'| |s'| r c ≤ (1 + F.u) * g33v (RTables.sizes shippedV) a b |x| |y| |s| r c := by
    simp only [g33v, RTables.sizes]
    have t1 := mul_le_mul_of_nonneg_right (up hx) (show 0 ≤ b / a * (|shippedV.fxi_fxi r.1 c.1| * |shippedV.ff r.2 c.2|) by positivity)
    have t2 := mul_le_mul_of_nonneg_right (up hy) (show 0 ≤ a / b * (|shippedV.ff r.1 c.1| * |shippedV.fxi_fxi r.2 c.2|) by positivity)
    have t3 := mul_le_mul_of_nonneg_right (up hs) (show 0 ≤ |shippedV.f_fxi r.1 c.1| * |shippedV.fxi_f r.2 c.2| + |shippedV.fxi_f r.1 c.1| * |shippedV.f_fxi r.2 c.2| by positivity)
    linarith
  have h3 : |g33v shippedV a b x' y' s' r c - g33v shippedV a b x y s r c| ≤ F.u * g33v (RTables.sizes shippedV) a b |x| |y| |s| r c := by
    have e : g33v shippedV a b x' y' s' r c - g33v shippedV a b x y s r c = (x' - x) * (b / a) * (shippedV.fxi_fxi r.1 c.1 * shippedV.ff r.2 c.2)
        + (y' - y) * (a / b) * (shippedV.ff r.1 c.1 * shippedV.fxi_fxi r.2 c.2)
        + (s' - s) * (shippedV.f_fxi r.1 c.1 * shippedV.fxi_f r.2 c.2 + shippedV.fxi_f r.1 c.1 * shippedV.f_fxi r.2 c.2) := by
      simp only [g33v]; ring
    rw [e]
    refine (abs_add_le _ _).trans ((add_le_add_left (abs_add_le _ _) _).trans ?_)
    simp only [abs_mul, abs_of_pos hba, abs_of_pos hab, g33v, RTables.sizes]
    have t1 := mul_le_mul_of_nonneg_right hx (show 0 ≤ b / a * (|shippedV.fxi_fxi r.1 c.1| * |shippedV.ff r.2 c.2|) by positivity)
    have t2 := mul_le_mul_of_nonneg_right hy (show 0 ≤ a / b * (|shippedV.ff r.1 c.1| * |shippedV.fxi_fxi r.2 c.2|) by positivity)
    have t3 := mul_le_mul hs (abs_add_le (shippedV.f_fxi r.1 c.1 * shippedV.fxi_f r.2 c.2) (shippedV.fxi_f r.1 c.1 * shippedV.f_fxi r.2 c.2)) (abs_nonneg _)
      (mul_nonneg F.u_nonneg (abs_nonneg _))
    simp only [abs_mul] at t3
    linarith
  have h4 := abs_sub_le (F.g33v shippedV a b x' y' s' r c) (g33v shippedV a b x' y' s' r c) (g33v shippedV a b x y s r c)
  have h5 := mul_le_mul_of_nonneg_left h2 (show 0 ≤ (1 / (1 - F.u)) ^ 8 - 1 by linarith)
  nlinarith

/-- The growth of a few roundings. -/
theorem growth_loads {t : ℝ} (h0 : 0 ≤ t) (h1 : t ≤ 1 / 26) {u : ℝ} (hu : u ≤ t) (hu0 : 0 ≤ u) : (1 + u) * (1 / (1 - u)) ^ 8 - 1 ≤ 28 * t := by
  have hbase : 1 ≤ 1 / (1 - u) := by rw [le_div_iff₀ (by linarith)]; linarith
  have h2 : 1 + u ≤ 1 / (1 - u) := by rw [le_div_iff₀ (by linarith)]; nlinarith
  have h3 := (growth_small h0 h1 hu hu0 (show (1 : ℝ) ≤ 1 + t by linarith)).1
  have h4 : (1 + u) * (1 / (1 - u)) ^ 8 ≤ (1 / (1 - u)) ^ 13 := by
    calc (1 + u) * (1 / (1 - u)) ^ 8 ≤ 1 / (1 - u) * (1 / (1 - u)) ^ 8 := mul_le_mul_of_nonneg_right h2 (by positivity)
      _ = (1 / (1 - u)) ^ 9 := by ring
      _ ≤ _ := pow_le_pow_right₀ hbase (by norm_num)
  linarith

/-- **C128** with enough precision all multipliers of the panel are computed with the accuracy asked for, also from a computed `D` and computed loads. -/
theorem C128_panel (D X : M3) (g : Panel) (ha : 0 < g.a) (hb : 0 < g.b) (hm : 1 ≤ g.m) (hn : 1 ≤ g.n) (x y s : ℝ) (K KG : SqMat (g.m * g.n))
    (h : calcKKGD shipped (.ok D) g.c (panelPlate g x y s) = .ok (K, KG)) (hpd : K.PosDef) (eps : ℝ) (heps : 0 < eps) :
    ∃ t : ℝ, 0 < t ∧ ∀ F : FloatArith, F.u ≤ t → ∀ (D' : M3) (x' y' s' : ℝ), (∀ i j, Within (1 + t) (D' i j) (D i j) (X i j)) →
      |x' - x| ≤ F.u * |x| → |y' - y| ≤ F.u * |y| → |s' - s| ≤ F.u * |s| →
      ∃ K' KG' : SqMat (g.m * g.n), F.calcKKGD shipped (.ok D') g.c (panelPlate g x' y' s') = .ok (K', KG') ∧ K'.PosDef ∧ KG'.IsSymm ∧ ∀ k lam, 1 ≤ k →
        IsKth K KG k lam → ∃ lam', IsKth K' KG' k lam' ∧ |lam' - lam| ≤ eps * lam := by
  obtain ⟨M, sh, hM, hs, -, -, hlt, rfl, rfl⟩ := calcKKGD_inv (p := panelPlate g x y s) hm hn h
  obtain rfl := Except.ok.inj hM
  have hG := (C48_symmetric _ _ (panelPlate g x y s) hm hn _ _ h).2
  obtain ⟨t, ht, hall⟩ := pencil_precision hpd hG (kMat (RTables.sizes shippedV) g.a g.b X sh.w (g.m * g.n))
    (gMat (RTables.sizes shippedV) g.a g.b |x| |y| |s| sh.w (g.m * g.n)) (sizes_symm _ _ _ _ _) (sizesG_symm _ _ _ _ _ _ _) heps
  refine ⟨min (1 / 26) (t / 28), lt_min (by norm_num) (by positivity), fun F hF D' x' y' s' hD hx hy hs' => ?_⟩
  set t' := min (1 / 26) (t / 28)
  have ht'0 : 0 < t' := lt_min (by norm_num) (by positivity)
  have ht'1 : t' ≤ 1 / 26 := min_le_left _ _
  have ht'2 : 28 * t' ≤ t := by
    have : t' ≤ t / 28 := min_le_right _ _
    linarith
  have hu : F.u < 1 := by linarith
  -- any loads give matrices in exact arithmetic
  obtain ⟨K₁, KG₁, hK₁⟩ : ∃ K₁ KG₁ : SqMat (g.m * g.n), calcKKGD shipped (.ok D) g.c (panelPlate g x' y' s') = .ok (K₁, KG₁) :=
    ⟨_, _, calcKKGD_ok shipped_ok D g.c (panelPlate g x' y' s') sh hs ha.ne' hb.ne' hlt⟩
  obtain ⟨K', KG', e1, e2, e3, -⟩ := C112_matrices F hu D' D X (1 + t') (by linarith) hD g.c (panelPlate g x' y' s') ha hb hm hn K₁ KG₁ hK₁ sh hs
  have e1' := FloatArith.calcKKGD_ok (F := F) shipped_ok hu D' g.c (panelPlate g x' y' s') sh hs ha.ne' hb.ne' hlt
  rw [e1] at e1'
  obtain ⟨rfl, rfl⟩ := Prod.mk.inj (Except.ok.inj e1')
  obtain ⟨q1, -⟩ := growth_small ht'0.le ht'1 hF F.u_nonneg (le_refl (1 + t'))
  have q2 := growth_loads ht'0.le ht'1 hF F.u_nonneg
  have hK0 : ∀ r c, |F.k33v shippedV g.a g.b D' r c - k33v shippedV g.a g.b D r c| ≤ 28 * t' * k33v (RTables.sizes shippedV) g.a g.b X r c := fun r c => by
    obtain ⟨w1, w2⟩ := C112_bending F hu shippedV g.a g.b ha hb D' D X (1 + t') (by linarith) hD r c
    exact w2.trans (mul_le_mul_of_nonneg_right q1 ((abs_nonneg _).trans w1))
  have hG0 : ∀ r c, |F.g33v shippedV g.a g.b x' y' s' r c - g33v shippedV g.a g.b x y s r c| ≤
      28 * t' * g33v (RTables.sizes shippedV) g.a g.b |x| |y| |s| r c := fun r c =>
    (loads_near F hu g.a g.b ha hb hx hy hs' r c).trans
      (mul_le_mul_of_nonneg_right q2 ((abs_nonneg _).trans (C112_geometric F hu shippedV g.a g.b ha hb x y s r c).1))
  obtain ⟨pd', hk⟩ := hall (28 * t') (by positivity) ht'2 _ _ e2 e3 (fun r c => hK0 _ _) (fun r c => hG0 _ _)
  exact ⟨_, _, e1, pd', e3, hk⟩

/-! ## The objective -/

theorem panel_mat_init' (F : FloatArith) (hu : F.u ≤ 1) (g : Panel) (hg : PanelOk g) :
    (OrthoMat.args (.num (.fin g.E1)) (.num (.fin g.E2)) (.num (.fin g.v12)) (.num (.fin g.G12)) (.num (.fin (F.fl 0.1)))).init =
      .ok ⟨.fin g.E1, .fin g.E2, .fin g.v12, .fin g.G12, .fin (F.fl 0.1), .fin 0, .fin 0, .fin 0, .fin 0, .fin 0⟩ := by
  obtain ⟨h1, h2, h3, h4, -⟩ := hg
  rw [C01_ortho_ok]
  have h3' := abs_le.mp h3
  have hth : 0 ≤ F.fl 0.1 := by
    have := F.near 0.1
    rw [abs_of_pos (by norm_num : (0 : ℝ) < 0.1)] at this
    linarith [(abs_le.mp this).1]
  refine ⟨by simp [OrthoConverts, OrthoMat.args, PyVal.toFloat], ?_, ?_⟩
  · have nn : ∀ r : ℝ, 0 ≤ r → (0 ≤ r ∧ ∀ h, (none : Option ℝ) = some h → r ≤ h) := fun r hr => ⟨hr, by simp⟩
    exact ⟨nn _ h1.le, nn _ h2, ⟨by linarith [h3'.1], fun h hh => by cases hh; linarith [h3'.2]⟩, nn _ h4, nn _ hth,
      nn _ le_rfl, nn _ le_rfl, nn _ le_rfl, nn _ le_rfl, nn _ le_rfl⟩
  · intro h
    exact h1.ne' (XF.fin.inj h)

/-- The numbers of the panel's material. -/
noncomputable def Spec.panelMaterial (g : Panel) : OrthoMat ℝ := ⟨g.E1, g.E2, g.v12, g.G12, 0.1, 0, 0, 0, 0, 0⟩

theorem ncrIn_eq (F : FloatArith) (hu : F.u ≤ 1) (S : EigSolver) (g : Panel) (hg : PanelOk g) (T xi1 xi3 x y s : ℝ) :
    F.ncrFromLp S g T xi1 xi3 x y s =
      (F.bucklingAnalysis S (F.panelD (panelMaterial g) T xi1 xi3) g.c (panelPlate g x y s) 5 (.fresh _)).1 >>= fun r => pyIdx r.1 0 := by
  unfold FloatArith.ncrFromLp
  rw [panel_mat_init' F hu g hg, (panel_plate_init g x y s _).mpr ⟨rfl, hg.2.2.2.2⟩]
  rfl

/-- The computed bending matrix of the panel. -/
theorem panelD_near (g : Panel) (hg : PanelOk g) (hr : g.v12 ^ 2 * g.E2 < g.E1) (T xi1 xi3 : ℝ) (b1 : |xi1| ≤ 1) (b3 : |xi3| ≤ 1) {D : M3}
    (hD : panelD g T xi1 xi3 = .ok D) : ∃ X : M3, ∀ t, 0 < t → ∃ t', 0 < t' ∧ ∀ F : FloatArith, F.u ≤ t' →
      ∃ D', F.panelD (panelMaterial g) T xi1 xi3 = .ok D' ∧ ∀ i j, Within (1 + t) (D' i j) (D i j) (X i j) := by
  obtain ⟨h1, h2, -⟩ := hg
  set r := poissonProduct (.ortho (panelMaterial g)) with hrd
  have hre : r = g.v12 ^ 2 * g.E2 / g.E1 := by
    rw [hrd]; simp only [poissonProduct, panelMaterial]; ring
  have hr0 : 0 ≤ r := by rw [hre]; positivity
  have hr1 : r < 1 := by rw [hre, div_lt_one h1]; exact hr
  obtain ⟨Q, hQ⟩ : ∃ Q, (panelMaterial g).Q0 = .ok Q := by
    have hd : (1 : ℝ) - (panelMaterial g).v12 * (panelMaterial g).v21 ≠ 0 := by
      have e : (panelMaterial g).v12 * (panelMaterial g).v21 = r := by rw [hre]; simp only [panelMaterial, OrthoMat.v21]; ring
      rw [e]; linarith
    exact ⟨_, by simp only [OrthoMat.Q0, pyDiv, if_neg hd, ok_bind, pure_eq_ok]; rfl⟩
  set C := |T| ^ 3 / 12 * (3 / 2 * entrySum Q) with hC
  have hC0 : 0 ≤ C := by
    have : 0 ≤ entrySum Q := Finset.sum_nonneg fun k _ => Finset.sum_nonneg fun l _ => abs_nonneg _
    positivity
  obtain ⟨b, hb0, hbD⟩ := exists_rows D
  refine ⟨fun _ _ => b + C, fun t ht => ?_⟩
  have t1 : Tiny fun u => denErr u r ≤ 1 / 2 := Tiny.le (continuousAt_den r) (by rw [denErr_zero]; norm_num)
  have t2 : Tiny fun u => matGrowth u r * (1 + u) ^ 12 - 1 ≤ t := Tiny.le (by
      have : ContinuousAt (fun u => matGrowth u r) 0 := by
        unfold matGrowth
        exact ContinuousAt.div (by fun_prop) (by have := continuousAt_den r; fun_prop) (by rw [denErr_zero]; norm_num)
      fun_prop) (by simpa [matGrowth, denErr_zero] using ht)
  obtain ⟨t', ht', hall⟩ := t1.and t2
  refine ⟨t', ht', fun F hF => ?_⟩
  obtain ⟨s1, s2⟩ := hall F.u F.u_nonneg hF
  obtain ⟨Q₁, Q', A, D₁, d1, d2, -, d4, -, -, hE⟩ := C111_parameters F (panelMaterial g) xi1 0 xi3 0 T hr0 hr1 (by linarith) b1 (by simp) b3 (by simp)
  rw [hQ] at d1
  obtain rfl := Except.ok.inj d1
  obtain rfl : D = D₁ := by
    have e : panelD g T xi1 xi3 = lpD (.single (.ortho (panelMaterial g))) (.vec [xi1, 0, xi3, 0]) (.num T) := rfl
    rw [e, d4] at hD
    exact (Except.ok.inj hD).symm
  refine ⟨F.lpD (F.invariantsOf Q') xi1 0 xi3 0 T, by simp only [FloatArith.panelD, d2, ok_bind, pure_eq_ok], fun i j => ⟨?_, ?_⟩⟩
  · have := (Finset.single_le_sum (f := fun j => |D i j|) (fun _ _ => abs_nonneg _) (Finset.mem_univ j)).trans (hbD i)
    linarith
  · refine (hE i j).2.trans ?_
    calc _ ≤ t * C := mul_le_mul_of_nonneg_right s2 hC0
      _ ≤ (1 + t - 1) * (b + C) := by nlinarith

/-- A solver that keeps the contract with multiplicities, and answers whenever it can. -/
def Spec.FullSolver (S : EigSolver) : Prop :=
  ∀ (N : ℕ) (A M : SqMat N), A.IsSymm → M.PosDef →
    (∀ k out, S N A M k = .ok out → EigshFull A M k out ∧ CayleySorted out) ∧ ∀ k ≤ N, ∃ out, S N A M k = .ok out

theorem first_le_mult {N : ℕ} {K KG : SqMat N} {lam : ℝ} (h : IsKth K KG 1 lam) {mu : ℝ} (hmu : PosMult K KG mu) : lam ≤ mu := by
  refine h.2 ?_
  obtain ⟨m0, w, hw⟩ := hmu
  refine Nat.pos_of_ne_zero fun e4 => ?_
  have e5 : Module.finrank ℝ (modes K KG mu) = 0 := e4
  rw [Submodule.finrank_eq_zero] at e5
  have e6 : w ∈ modes K KG mu := Submodule.subset_span ⟨mu, m0, le_rfl, hw⟩
  rw [e5, Submodule.mem_bot] at e6
  exact hw.1 e6

/-- The value reported first, for matrices whose first multiplier is at least 1. -/
theorem first_value (F : FloatArith) (S : EigSolver) (hS : FullSolver S) (D' : M3) (g : Panel) (hmn : 3 ≤ g.m * g.n) (x y s : ℝ) {sh : ShapeIdx}
    (hs : computeIdx g.c g.m g.n = .ok sh) (K KG : SqMat (g.m * g.n))
    (hK : F.calcKKGD shipped (.ok D') g.c (panelPlate g x y s) = .ok (K, KG)) (hpd : K.PosDef) (hsym : KG.IsSymm) {lam : ℝ} (hl : IsKth K KG 1 lam)
    (h1 : 1 ≤ lam) : ((F.bucklingAnalysis S (.ok D') g.c (panelPlate g x y s) 5 (.fresh _)).1 >>= fun r => pyIdx r.1 0) = .ok (.fin (F.fl lam)) := by
  obtain ⟨e1, e2⟩ := hS _ KG K hsym hpd
  have hk0 : ¬min (5 : ℤ) (((panelPlate g x y s).m * (panelPlate g x y s).n : ℕ) - 2 : ℤ) ≤ 0 := by
    show ¬min (5 : ℤ) ((g.m * g.n : ℕ) - 2 : ℤ) ≤ 0
    omega
  set k := min (5 : ℤ) (((panelPlate g x y s).m * (panelPlate g x y s).n : ℕ) - 2 : ℤ) with hk
  have hkN : k.toNat ≤ g.m * g.n := by
    have : k ≤ ((g.m * g.n : ℕ) - 2 : ℤ) := min_le_right _ _
    omega
  obtain ⟨out, hout⟩ := e2 k.toNat hkN
  obtain ⟨hf, hso⟩ := e1 _ _ hout
  have hlen : 0 < out.length := by rw [hf.len]; omega
  obtain ⟨lam', f1, f2, f3⟩ := full_ordered hpd hsym hf hso (fun mu hmu => h1.trans (first_le_mult hl hmu)) 0 hlen hl.1
  obtain rfl := f1.unique hl
  have hl0 := f2.1
  have hcall : eigshCall (N := (panelPlate g x y s).m * (panelPlate g x y s).n) S KG K k = .ok out := by
    unfold eigshCall
    rw [if_neg hk0]
    exact hout
  have hrun : (F.bucklingAnalysis S (.ok D') g.c (panelPlate g x y s) 5 (.fresh _)).1 = .ok (out.map (fun q => F.recip q.1), out.map Prod.snd) := by
    have hs' : computeIdx g.c (panelPlate g x y s).m (panelPlate g x y s).n = .ok sh := hs
    unfold FloatArith.bucklingAnalysis
    simp only [hs', hK, ← hk]
    rw [hcall]
    rfl
  rw [hrun, ok_bind, pyIdx]
  have : (out.map (fun q => F.recip q.1))[0]? = some (.fin (F.fl lam')) := by
    rw [List.getElem?_map, List.getElem?_eq_getElem hlen, Option.map_some, f3, FloatArith.recip, npDiv, if_neg (div_ne_zero (by norm_num) hl0.ne')]
    field_simp
  simp only [this]

/-- **C128** with enough precision `Ncr_from_lp` computes the critical multiplier of the design with the accuracy asked for, from exact or computed loads.  The
roundings inside `eigsh` are not covered. -/
theorem C128_value (g : Panel) (hg : PanelOk g) (ha : 0 < g.a) (hb : 0 < g.b) (hr : g.v12 ^ 2 * g.E2 < g.E1) (hmn : 3 ≤ g.m * g.n) (T xi1 xi3 : ℝ)
    (b1 : |xi1| ≤ 1) (b3 : |xi3| ≤ 1) (x y s : ℝ) (K KG : SqMat (g.m * g.n))
    (h : calcKKGD shipped (panelD g T xi1 xi3) g.c (panelPlate g x y s) = .ok (K, KG)) (hpd : K.PosDef) (lam : ℝ) (hl : IsKth K KG 1 lam) (h1 : 1 < lam)
    (eps : ℝ) (heps : 0 < eps) :
    ∃ t : ℝ, 0 < t ∧ ∀ F : FloatArith, F.u ≤ t → ∀ S, FullSolver S → ∀ x' y' s', |x' - x| ≤ F.u * |x| → |y' - y| ≤ F.u * |y| → |s' - s| ≤ F.u * |s| →
      ∃ e, F.ncrFromLp S g T xi1 xi3 x' y' s' = .ok (.fin e) ∧ |e - lam| ≤ eps * lam := by
  obtain ⟨hm, hn⟩ := hg.2.2.2.2.2.2
  obtain ⟨D, hD⟩ : ∃ D, panelD g T xi1 xi3 = .ok D := by
    cases hd : panelD g T xi1 xi3 with
    | ok D => exact ⟨D, rfl⟩
    | error e => rw [hd] at h; simp [calcKKGD] at h
  obtain ⟨X, hX⟩ := panelD_near g hg hr T xi1 xi3 b1 b3 hD
  rw [hD] at h
  set e0 := min (eps / 4) (min (1 - 1 / lam) 1) with he0
  have h1l : 1 / lam < 1 := by rw [div_lt_one (by linarith)]; exact h1
  have he0p : 0 < e0 := lt_min (by positivity) (lt_min (by linarith) one_pos)
  have q1 : e0 ≤ eps / 4 := min_le_left _ _
  have q2 : e0 ≤ 1 - 1 / lam := (min_le_right _ _).trans (min_le_left _ _)
  have q3 : e0 ≤ 1 := (min_le_right _ _).trans (min_le_right _ _)
  obtain ⟨t, ht, hall⟩ := C128_panel D X g ha hb hm hn x y s K KG h hpd e0 he0p
  obtain ⟨t', ht', hall'⟩ := hX t ht
  refine ⟨min t (min t' (min (eps / 4) 1)), by positivity, fun F hF S hS x' y' s' hx hy hs => ?_⟩
  have u1 : F.u ≤ t := hF.trans (min_le_left _ _)
  have u2 : F.u ≤ t' := hF.trans ((min_le_right _ _).trans (min_le_left _ _))
  have u3 : F.u ≤ eps / 4 := hF.trans ((min_le_right _ _).trans ((min_le_right _ _).trans (min_le_left _ _)))
  have u4 : F.u ≤ 1 := hF.trans ((min_le_right _ _).trans ((min_le_right _ _).trans (min_le_right _ _)))
  obtain ⟨D', hD', hw⟩ := hall' F u2
  obtain ⟨K', KG', hK', pd', sG, hk⟩ := hall F u1 D' x' y' s' hw hx hy hs
  obtain ⟨lam', i1, i2⟩ := hk 1 lam le_rfl hl
  have hl1 : 1 ≤ lam' := by
    have := (abs_le.mp i2).1
    have h2 : e0 * lam ≤ lam - 1 := by
      have := mul_le_mul_of_nonneg_right q2 (show 0 ≤ lam by linarith)
      rw [sub_mul, one_mul, div_mul_cancel₀ _ (by linarith)] at this
      exact this
    linarith
  obtain ⟨M, sh, -, hs', -⟩ := calcKKGD_inv (p := panelPlate g x y s) hm hn h
  refine ⟨F.fl lam', ?_, ?_⟩
  · rw [ncrIn_eq F u4 S g hg, hD']
    exact first_value F S hS D' g hmn x' y' s' hs' K' KG' hK' pd' sG i1 hl1
  · have n1 := F.near lam'
    rw [abs_of_pos (by linarith : 0 < lam')] at n1
    have n2 := abs_sub_le (F.fl lam') lam' lam
    have n3 : lam' ≤ 2 * lam := by
      have := (abs_le.mp i2).2
      nlinarith
    have n4 : F.u * lam' ≤ eps / 4 * (2 * lam) := mul_le_mul u3 n3 (by linarith) (by positivity)
    have n5 : e0 * lam ≤ eps / 4 * lam := mul_le_mul_of_nonneg_right q1 (by linarith)
    have n6 : 0 < eps * lam := by positivity
    linarith

/-- **C128** for comparison, `Ncr_from_lp` in exact arithmetic returns the critical multiplier. -/
theorem C128_exact (g : Panel) (hg : PanelOk g) (hmn : 3 ≤ g.m * g.n) (T xi1 xi3 x y s : ℝ) (K KG : SqMat (g.m * g.n))
    (h : calcKKGD shipped (panelD g T xi1 xi3) g.c (panelPlate g x y s) = .ok (K, KG)) (hpd : K.PosDef) (lam : ℝ) (hl : IsKth K KG 1 lam) (h1 : 1 ≤ lam)
    (S : EigSolver) (hS : FullSolver S) : ncrFromLp S g T xi1 xi3 x y s = .ok (.fin lam) := by
  obtain ⟨hm, hn⟩ := hg.2.2.2.2.2.2
  have hsym := (C48_symmetric _ _ (panelPlate g x y s) hm hn K KG h).2
  obtain ⟨D, sh, hD, hs, -⟩ := calcKKGD_inv (p := panelPlate g x y s) hm hn h
  obtain ⟨e1, e2⟩ := hS _ KG K hsym hpd
  have hk0 : ¬min (5 : ℤ) (((panelPlate g x y s).m * (panelPlate g x y s).n : ℕ) - 2 : ℤ) ≤ 0 := by
    show ¬min (5 : ℤ) ((g.m * g.n : ℕ) - 2 : ℤ) ≤ 0
    omega
  set k := min (5 : ℤ) (((panelPlate g x y s).m * (panelPlate g x y s).n : ℕ) - 2 : ℤ) with hk
  have hkN : k.toNat ≤ g.m * g.n := by
    have : k ≤ ((g.m * g.n : ℕ) - 2 : ℤ) := min_le_right _ _
    omega
  obtain ⟨out, hout⟩ := e2 k.toNat hkN
  obtain ⟨hf, hso⟩ := e1 _ _ hout
  have hlen : 0 < out.length := by rw [hf.len]; omega
  obtain ⟨lam', f1, f2, f3⟩ := full_ordered hpd hsym hf hso (fun mu hmu => h1.trans (first_le_mult hl hmu)) 0 hlen hl.1
  obtain rfl := f1.unique hl
  have hl0 := f2.1
  have hcall : eigshCall (N := (panelPlate g x y s).m * (panelPlate g x y s).n) S KG K k = .ok out := by
    unfold eigshCall
    rw [if_neg hk0]
    exact hout
  have hrun : (bucklingAnalysis S (.ok D) g.c (panelPlate g x y s) 5 (.fresh _)).1 = .ok (out.map (fun q => npDiv (-1) q.1), out.map Prod.snd) := by
    rw [hD] at h
    unfold bucklingAnalysis
    simp only [hs, h, ← hk]
    rw [hcall]
    rfl
  rw [ncr_eq S g hg, hD, hrun, ok_bind, pyIdx]
  have : (out.map (fun q => npDiv (-1) q.1))[0]? = some (.fin lam') := by
    rw [List.getElem?_map, List.getElem?_eq_getElem hlen, Option.map_some, f3, npDiv, if_neg (div_ne_zero (by norm_num) hl0.ne')]
    congr 2
    field_simp
  simp only [this]

/-- **C128** `maximize_buckling_load`: with enough precision, the objective computed at a design differs by less than the accuracy asked for from minus the
critical multiplier of the normalised loads. -/
theorem C128_maximize (g : Panel) (hg : PanelOk g) (ha : 0 < g.a) (hb : 0 < g.b) (hr : g.v12 ^ 2 * g.E2 < g.E1) (hmn : 3 ≤ g.m * g.n) (T Nxx Nyy Nxy : ℝ)
    (x y s M : ℝ) (hN : normalizeCriticalLoad Nxx Nyy Nxy = .ok (x, y, s, M)) (xi1 xi3 : ℝ) (b1 : |xi1| ≤ 1) (b3 : |xi3| ≤ 1) (K KG : SqMat (g.m * g.n))
    (h : calcKKGD shipped (panelD g T xi1 xi3) g.c (panelPlate g x y s) = .ok (K, KG)) (hpd : K.PosDef) (lam : ℝ) (hl : IsKth K KG 1 lam) (h1 : 1 < lam)
    (eps : ℝ) (heps : 0 < eps) :
    ∃ t : ℝ, 0 < t ∧ ∀ F : FloatArith, F.u ≤ t → ∀ S, FullSolver S → ∀ pen, ∃ prob, F.maximizeBucklingLoad S g T Nxx Nyy Nxy pen = .ok prob ∧
      prob.x0 = [0, 0] ∧ prob.bounds = [(-1, 1), (-1, 1)] ∧ ∃ e, prob.obj [xi1, xi3] = .ok (.fin e) ∧ |e - (-lam)| ≤ eps * lam := by
  obtain ⟨t, ht, hall⟩ := C128_value g hg ha hb hr hmn T xi1 xi3 b1 b3 x y s K KG h hpd lam hl h1 eps heps
  refine ⟨t, ht, fun F hF S hS pen => ?_⟩
  obtain ⟨x', y', s', hN', hx, hy, hs⟩ := (C128_normalised F Nxx Nyy Nxy).2 x y s M hN
  obtain ⟨e, he, hb'⟩ := hall F hF S hS x' y' s' hx hy hs
  refine ⟨_, by simp only [FloatArith.maximizeBucklingLoad, hN', ok_bind, pure_eq_ok]; rfl, rfl, rfl, -1 * e, ?_, ?_⟩
  · simp only [FloatArith.maxCriticalLoad, he, guardedNcr, ok_bind, pure_eq_ok, negF]
  · rw [show -1 * e - -lam = -(e - lam) by ring, abs_neg]
    exact hb'

/-- **C128** `minimize_panel_weight`: the objective is off by one rounding of the cube, and with enough precision the first constraint, computed at a design,
differs by less than the accuracy asked for from the critical multiplier of the normalised loads; its lower limit is exact. -/
theorem C128_weight (g : Panel) (hg : PanelOk g) (ha : 0 < g.a) (hb : 0 < g.b) (hr : g.v12 ^ 2 * g.E2 < g.E1) (hmn : 3 ≤ g.m * g.n) (T Nxx Nyy Nxy : ℝ)
    (x y s M : ℝ) (hN : normalizeCriticalLoad Nxx Nyy Nxy = .ok (x, y, s, M)) (xi1 xi3 : ℝ) (b1 : |xi1| ≤ 1) (b3 : |xi3| ≤ 1) (K KG : SqMat (g.m * g.n))
    (h : calcKKGD shipped (panelD g T xi1 xi3) g.c (panelPlate g x y s) = .ok (K, KG)) (hpd : K.PosDef) (lam : ℝ) (hl : IsKth K KG 1 lam) (h1 : 1 < lam)
    (eps : ℝ) (heps : 0 < eps) :
    ∃ t : ℝ, 0 < t ∧ ∀ F : FloatArith, F.u ≤ t → ∀ S, FullSolver S → ∀ x0, ∃ prob c rest, F.minimizePanelWeight S g Nxx Nyy Nxy x0 = .ok prob ∧
      prob.x0 = x0 ∧ (∃ w, prob.obj [T, xi1, xi3] = .ok (.fin w) ∧ |w - T ^ 3| ≤ F.u * |T| ^ 3) ∧
      (∃ lo, prob.bounds = [(lo, 1000000), (-1, 1), (-1, 1)] ∧ |lo - 0.001| ≤ F.u * 0.001) ∧
      prob.cons = c :: rest ∧ c.lb = M ∧ c.ub = .pinf ∧ ∃ e, c.f [T, xi1, xi3] = .ok (.fin e) ∧ |e - lam| ≤ eps * lam := by
  obtain ⟨t, ht, hall⟩ := C128_value g hg ha hb hr hmn T xi1 xi3 b1 b3 x y s K KG h hpd lam hl h1 eps heps
  refine ⟨t, ht, fun F hF S hS x0 => ?_⟩
  obtain ⟨x', y', s', hN', hx, hy, hs⟩ := (C128_normalised F Nxx Nyy Nxy).2 x y s M hN
  obtain ⟨e, he, hb'⟩ := hall F hF S hS x' y' s' hx hy hs
  refine ⟨_, _, _, by simp only [FloatArith.minimizePanelWeight, hN', ok_bind, pure_eq_ok]; rfl, rfl, ⟨F.pw T 3, rfl, ?_⟩, ⟨F.fl 0.001, rfl, ?_⟩, rfl, rfl, rfl, e, ?_, hb'⟩
  · rw [← abs_pow]; exact F.nearPw T 3
  · have := F.near 0.001
    rwa [abs_of_pos (by norm_num : (0 : ℝ) < 0.001)] at this
  · simp only [FloatArith.minCriticalLoad, he, guardedNcr]

/-- Non-vacuity for C128: with enough bits, rounding to nearest evaluates the objective of `maximize_buckling_load` for the demonstration panel to six digits. -/
example : ∃ (S : EigSolver) (p0 : ℕ), FullSolver S ∧ ∀ p ≥ p0, ∃ prob, (nearestArith p).maximizeBucklingLoad S demoPanel 1 (-2) 0 0 = .ok prob ∧
    ∃ e, prob.obj [0, 0] = .ok (.fin e) ∧ |e - (-216)| ≤ 1 / 10 ^ 6 * 216 := by
  have hn : normalizeCriticalLoad (-2) 0 0 = .ok (-1, 0, 0, 2) := by
    have : max |(-2 : ℝ)| (max |0| |0|) = 2 := by norm_num
    have h := normalize_eq (-2) 0 0 (by rw [this]; norm_num)
    simp only [this] at h
    rw [h]; norm_num
  obtain ⟨K, KG, hK, hpd, hsym, hm, -⟩ := demo_matrices 2 1 1 (by norm_num) one_pos one_pos
  have hK' : calcKKGD shipped (panelD demoPanel 1 0 0) demoPanel.c (panelPlate demoPanel (-1) 0 0) = .ok (K, KG) := by
    rw [demoPanel_D]; exact hK
  have hl : IsKth K KG 1 216 := by
    refine (kth_one hpd hsym _).mpr ⟨(hm _).mpr ⟨0, by norm_num [demoLoads]⟩, fun lam h => ?_⟩
    obtain ⟨r, rfl⟩ := (hm lam).mp h
    fin_cases r <;> norm_num [demoLoads]
  obtain ⟨S, hS⟩ := exists_full
  obtain ⟨t, ht, hall⟩ := C128_maximize demoPanel demoPanel_ok (by norm_num [demoPanel]) (by norm_num [demoPanel]) (by norm_num [demoPanel])
    (by norm_num [demoPanel]) 1 (-2) 0 0 (-1) 0 0 2 hn 0 0 (by simp) (by simp) K KG hK' hpd 216 hl (by norm_num) (1 / 10 ^ 6) (by norm_num)
  obtain ⟨p0, hp0⟩ := enough_bits ht
  refine ⟨S, p0, hS, fun p hp => ?_⟩
  obtain ⟨prob, h1, -, -, h2⟩ := hall (nearestArith p) (hp0 p hp) S hS true
  exact ⟨prob, h1, h2⟩

end Composipy
