import Verif.Props.TableError
import Verif.Lemmas.Ritz
import Mathlib.Algebra.Order.Chebyshev

/-!
# C87: which supports make the stiffness matrix definite
-/

namespace Composipy
open Polynomial Spec

/-! ## Independence of the shape functions in one variable -/

/-- `F` has no non-trivial combination over the numbers in `I` that vanishes. -/
def Spec.Indep (F : ℕ → ℝ[X]) (I : ℕ → Prop) : Prop :=
  ∀ (S : Finset ℕ) (d : ℕ → ℝ), (∀ k ∈ S, I k) → ∑ k ∈ S, C (d k) * F k = 0 → ∀ k ∈ S, d k = 0

/-- Grouping a sum over unknowns by the first index. -/
theorem group_sum {N : ℕ} (f : Fin N → ℕ) (g : Fin N → ℝ) (F : ℕ → ℝ[X]) :
    ∑ r, C (g r) * F (f r) = ∑ k ∈ Finset.univ.image f, C (∑ r, if f r = k then g r else 0) * F k := by
  simp only [map_sum, Finset.sum_mul]
  rw [Finset.sum_comm]
  refine Finset.sum_congr rfl fun r _ => ?_
  rw [Finset.sum_eq_single (f r)]
  · simp
  · intro k _ hk
    rw [if_neg fun h => hk h.symm]
    simp
  · intro h
    exact absurd (Finset.mem_image_of_mem _ (Finset.mem_univ r)) h

theorem poly_zero {p : ℝ[X]} (h : ∀ x ∈ Set.Icc (-1 : ℝ) 1, p.eval x = 0) : p = 0 :=
  eq_zero_of_infinite_isRoot _ (Set.Infinite.mono (s := Set.Icc (-1 : ℝ) 1) (fun x hx => h x hx)
    (Set.Icc_infinite (by norm_num)))

/-- Products of independent families in two variables are independent. -/
theorem products_indep {F G : ℕ → ℝ[X]} {I J : ℕ → Prop} (hF : Indep F I) (hG : Indep G J) {N : ℕ} (w : Fin N → ℕ × ℕ)
    (hinj : Function.Injective w) (hw : ∀ r, I (w r).1 ∧ J (w r).2) (c : Fin N → ℝ)
    (h : ∀ xi ∈ Set.Icc (-1 : ℝ) 1, ∀ eta ∈ Set.Icc (-1 : ℝ) 1,
      ∑ r, c r * ((F (w r).1).eval xi * (G (w r).2).eval eta) = 0) : c = 0 := by
  funext r0
  have h1 : ∀ eta ∈ Set.Icc (-1 : ℝ) 1, ∑ r, (if (w r).1 = (w r0).1 then c r * (G (w r).2).eval eta else 0) = 0 := by
    intro eta heta
    have hz : ∑ r, C (c r * (G (w r).2).eval eta) * F (w r).1 = 0 := by
      apply poly_zero
      intro xi hxi
      rw [eval_finsetSum, ← h xi hxi eta heta]
      refine Finset.sum_congr rfl fun r _ => ?_
      rw [eval_mul, eval_C]; ring
    rw [group_sum (fun r => (w r).1)] at hz
    refine hF _ _ (fun k hk => ?_) hz _ (Finset.mem_image_of_mem _ (Finset.mem_univ r0))
    obtain ⟨r, -, rfl⟩ := Finset.mem_image.mp hk
    exact (hw r).1
  have h2 : ∑ r, C (if (w r).1 = (w r0).1 then c r else 0) * G (w r).2 = 0 := by
    apply poly_zero
    intro eta heta
    rw [eval_finsetSum]
    refine Eq.trans (Finset.sum_congr rfl fun r _ => ?_) (h1 eta heta)
    rw [eval_mul, eval_C]
    split_ifs <;> ring
  rw [group_sum (fun r => (w r).2)] at h2
  have h3 := hG _ _ (fun k hk => by
    obtain ⟨r, -, rfl⟩ := Finset.mem_image.mp hk
    exact (hw r).2) h2 _ (Finset.mem_image_of_mem _ (Finset.mem_univ r0))
  rw [Finset.sum_eq_single r0] at h3
  · simpa using h3
  · intro r _ hr
    by_cases e2 : (w r).2 = (w r0).2
    · rw [if_pos e2, if_neg fun e1 => hr (hinj (Prod.ext e1 e2))]
    · rw [if_neg e2]
  · simp

/-- Second derivatives of the four end functions. -/
theorem low_second : derivative (derivative (shape 0)) = C (3 / 2) * X ∧
    derivative (derivative (shape 1)) = C (3 / 4) * X - C (1 / 4) ∧
    derivative (derivative (shape 2)) = - (C (3 / 2) * X) ∧
    derivative (derivative (shape 3)) = C (3 / 4) * X + C (1 / 4) := by
  refine ⟨?_, ?_, ?_, ?_⟩ <;>
  · refine Polynomial.funext fun x => ?_
    simp only [shape, bardell, Polynomial.map_add, Polynomial.map_sub, Polynomial.map_neg, Polynomial.map_mul,
      Polynomial.map_pow, Polynomial.map_C, Polynomial.map_X, derivative_add, derivative_sub, derivative_neg,
      derivative_C_mul, derivative_C, derivative_X_pow, derivative_X, derivative_mul, eval_add, eval_sub, eval_mul, eval_C,
      eval_X, eval_neg, eval_pow, eq_ratCast]
    norm_num
    try ring

/-- An affine second derivative is orthogonal to those from 4 on. -/
theorem low_orth {k l : ℕ} (hk : k < 4) (hl : 4 ≤ l) :
    pint (derivative (derivative (shape k)) * derivative (derivative (shape l))) = 0 := by
  obtain ⟨b1, b2, b3, b4⟩ := C45_bubble l hl
  have key (u v : ℝ) : pint ((C u * X + C v) * derivative (derivative (shape l))) = 0 := by
    rw [pint_by_parts]
    have : derivative (C u * X + C v) * derivative (shape l) = C u * derivative (shape l) := by
      simp
    rw [this, pint_C_mul, pint_derivative, eval_mul, eval_mul, b1, b2, b3, b4]
    ring
  obtain ⟨s0, s1, s2, s3⟩ := low_second
  have hk' : k = 0 ∨ k = 1 ∨ k = 2 ∨ k = 3 := by omega
  rcases hk' with rfl | rfl | rfl | rfl
  · rw [s0, ← key (3 / 2) 0]; simp
  · rw [s1, ← key (3 / 4) (-(1 / 4))]; simp [sub_eq_add_neg]
  · rw [s2, ← key (-(3 / 2)) 0]; simp
  · rw [s3, ← key (3 / 4) (1 / 4)]

/-- From 4 on, the second derivatives see only their own coefficient. -/
theorem high_zero {S : Finset ℕ} {d : ℕ → ℝ} (h : ∑ k ∈ S, C (d k) * derivative (derivative (shape k)) = 0) {l : ℕ}
    (hl : l ∈ S) (h4 : 4 ≤ l) : d l = 0 := by
  have hz : pint ((∑ k ∈ S, C (d k) * derivative (derivative (shape k))) * derivative (derivative (shape l))) = 0 := by
    rw [h]; simp [pint]
  rw [Finset.sum_mul, pint_sum, Finset.sum_eq_single l] at hz
  · rw [mul_assoc, pint_C_mul, C45_orthogonal _ _ h4 h4, if_pos rfl] at hz
    exact (mul_eq_zero.mp hz).resolve_right (norm_ne_zero h4)
  · intro k _ hk
    rw [mul_assoc, pint_C_mul]
    by_cases h4' : 4 ≤ k
    · rw [C45_orthogonal _ _ h4' h4, if_neg hk, mul_zero]
    · rw [low_orth (by omega) h4, mul_zero]
  · exact fun h => absurd hl h

/-- All shape functions together are independent. -/
theorem shape_indep : Indep shape fun _ => True := by
  intro S d _ h
  have hev (x : ℝ) : ∑ k ∈ S, d k * (shape k).eval x = 0 := by
    have := congrArg (eval x) h
    rw [eval_finsetSum] at this
    simpa using this
  have hdv (x : ℝ) : ∑ k ∈ S, d k * (derivative (shape k)).eval x = 0 := by
    have := congrArg (fun p => eval x (derivative p)) h
    simp only [derivative_sum, derivative_C_mul] at this
    rw [eval_finsetSum] at this
    simpa using this
  obtain ⟨⟨a1, a2, a3, a4⟩, ⟨b1, b2, b3, b4⟩, ⟨c1, c2, c3, c4⟩, e1, e2, e3, e4⟩ := C45_low_values
  have h2 : ∑ k ∈ S, C (d k) * derivative (derivative (shape k)) = 0 := by
    have := congrArg (fun p => derivative (derivative p)) h
    simpa only [derivative_sum, derivative_C_mul, derivative_zero] using this
  intro l hl
  by_cases h4 : 4 ≤ l
  · exact high_zero h2 hl h4
  have pick (phi : ℕ → ℝ) (v : ℝ) (hv : v ≠ 0) (hl' : phi l = v) (ho : ∀ k < 4, k ≠ l → phi k = 0)
      (hb : ∀ k, 4 ≤ k → phi k = 0) (hs : ∑ k ∈ S, d k * phi k = 0) : d l = 0 := by
    rw [Finset.sum_eq_single l] at hs
    · rw [hl'] at hs
      exact (mul_eq_zero.mp hs).resolve_right hv
    · intro k _ hk
      by_cases h4' : 4 ≤ k
      · rw [hb k h4', mul_zero]
      · rw [ho k (by omega) hk, mul_zero]
    · exact fun h => absurd hl h
  have hl4 : l = 0 ∨ l = 1 ∨ l = 2 ∨ l = 3 := by omega
  rcases hl4 with rfl | rfl | rfl | rfl
  · refine pick (fun k => (shape k).eval (-1)) 1 one_ne_zero a1 (fun k hk hne => ?_) (fun k hk => (C45_bubble k hk).1) (hev _)
    have : k = 1 ∨ k = 2 ∨ k = 3 := by omega
    rcases this with rfl | rfl | rfl <;> assumption
  · refine pick (fun k => (derivative (shape k)).eval (-1)) (1 / 2) (by norm_num) b3 (fun k hk hne => ?_)
      (fun k hk => (C45_bubble k hk).2.2.1) (hdv _)
    have : k = 0 ∨ k = 2 ∨ k = 3 := by omega
    rcases this with rfl | rfl | rfl <;> assumption
  · refine pick (fun k => (shape k).eval 1) 1 one_ne_zero c2 (fun k hk hne => ?_) (fun k hk => (C45_bubble k hk).2.1) (hev _)
    have : k = 0 ∨ k = 1 ∨ k = 3 := by omega
    rcases this with rfl | rfl | rfl <;> assumption
  · refine pick (fun k => (derivative (shape k)).eval 1) (1 / 2) (by norm_num) e4 (fun k hk hne => ?_)
      (fun k hk => (C45_bubble k hk).2.2.2) (hdv _)
    have : k = 0 ∨ k = 1 ∨ k = 2 := by omega
    rcases this with rfl | rfl | rfl <;> assumption

/-- The supports of the two ends of a strip hold it: one deflection and one more end condition are removed. -/
def Spec.Held (t0 r0 t1 r1 : Prop) : Prop := t0 ∧ (r0 ∨ t1 ∨ r1) ∨ t1 ∧ (r0 ∨ r1)

/-- The curvatures of the functions kept by a held strip are independent. -/
theorem curv_indep {t0 r0 t1 r1 : Prop} (h : Held t0 r0 t1 r1) :
    Indep (fun k => derivative (derivative (shape k))) (Kept t0 r0 t1 r1) := by
  classical
  intro S d hS hz
  -- the end functions of the combination
  let e : ℕ → ℝ := fun k => if k ∈ S then d k else 0
  have hlow : C (e 0) * derivative (derivative (shape 0)) + C (e 1) * derivative (derivative (shape 1))
      + C (e 2) * derivative (derivative (shape 2)) + C (e 3) * derivative (derivative (shape 3)) = 0 := by
    have h1 : ∑ k ∈ S, C (d k) * derivative (derivative (shape k))
        = ∑ k ∈ S ∪ Finset.range 4, C (e k) * derivative (derivative (shape k)) := by
      rw [← Finset.sum_subset (Finset.subset_union_left (s₁ := S) (s₂ := Finset.range 4))]
      · exact Finset.sum_congr rfl fun k hk => by simp only [e, if_pos hk]
      · intro k _ hk
        simp only [e, if_neg hk, C_0, zero_mul]
    have h2 : ∑ k ∈ S ∪ Finset.range 4, C (e k) * derivative (derivative (shape k))
        = ∑ k ∈ Finset.range 4, C (e k) * derivative (derivative (shape k)) := by
      symm
      refine Finset.sum_subset Finset.subset_union_right fun k hk hk4 => ?_
      have hkS : k ∈ S := by
        rcases Finset.mem_union.mp hk with h | h
        · exact h
        · exact absurd h hk4
      have : d k = 0 := high_zero hz hkS (by simpa using hk4)
      simp only [e, if_pos hkS, this, C_0, zero_mul]
    rw [← hz, h1, h2]
    simp only [Finset.sum_range_succ, Finset.sum_range_zero, zero_add]
  obtain ⟨s0, s1, s2, s3⟩ := low_second
  rw [s0, s1, s2, s3] at hlow
  have v0 := congrArg (eval 0) hlow
  have v1 := congrArg (eval 1) hlow
  simp only [eval_add, eval_sub, eval_neg, eval_mul, eval_C, eval_X, eval_zero] at v0 v1
  have out : ∀ k, ¬ Kept t0 r0 t1 r1 k → e k = 0 := fun k hk => if_neg fun hkS => hk (hS k hkS)
  have z0 : t0 → e 0 = 0 := fun ht => out 0 (by simp [Kept, ht])
  have z1 : r0 → e 1 = 0 := fun ht => out 1 (by simp [Kept, ht])
  have z2 : t1 → e 2 = 0 := fun ht => out 2 (by simp [Kept, ht])
  have z3 : r1 → e 3 = 0 := fun ht => out 3 (by simp [Kept, ht])
  have hall : e 0 = 0 ∧ e 1 = 0 ∧ e 2 = 0 ∧ e 3 = 0 := by
    rcases h with ⟨ha, hb | hb | hb⟩ | ⟨ha, hb | hb⟩
    · have := z0 ha; have := z1 hb; refine ⟨?_, ?_, ?_, ?_⟩ <;> linarith
    · have := z0 ha; have := z2 hb; refine ⟨?_, ?_, ?_, ?_⟩ <;> linarith
    · have := z0 ha; have := z3 hb; refine ⟨?_, ?_, ?_, ?_⟩ <;> linarith
    · have := z2 ha; have := z1 hb; refine ⟨?_, ?_, ?_, ?_⟩ <;> linarith
    · have := z2 ha; have := z3 hb; refine ⟨?_, ?_, ?_, ?_⟩ <;> linarith
  intro k hk
  by_cases h4 : 4 ≤ k
  · exact high_zero hz hk h4
  have hek : e k = d k := if_pos hk
  have : k = 0 ∨ k = 1 ∨ k = 2 ∨ k = 3 := by omega
  rcases this with rfl | rfl | rfl | rfl
  · rw [← hek, hall.1]
  · rw [← hek, hall.2.1]
  · rw [← hek, hall.2.2.1]
  · rw [← hek, hall.2.2.2]

/-! ## Plates -/

/-- A deflection with a curvature somewhere has positive energy. -/
theorem bendEnergy_pos {a b : ℝ} (ha : 0 < a) (hb : 0 < b) {D : Matrix (Fin 3) (Fin 3) ℝ} (hD : D.PosDef)
    (w : List (ℕ × ℕ)) {N : ℕ} (c : Fin N → ℝ) {x0 y0 : ℝ} (hx0 : x0 ∈ Set.Icc 0 a) (hy0 : y0 ∈ Set.Icc 0 b)
    (hne : dX (dX (ritz a b w c)) x0 y0 ≠ 0 ∨ dY (dY (ritz a b w c)) x0 y0 ≠ 0) :
    0 < bendEnergy D a b (ritz a b w c) := by
  have hnn : ∀ x y, 0 ≤ bendDensity D (ritz a b w c) x y := by
    intro x y
    have := hD.posSemidef.dotProduct_mulVec_nonneg ![dX (dX (ritz a b w c)) x y, dY (dY (ritz a b w c)) x y,
      2 * dY (dX (ritz a b w c)) x y]
    simpa [bendDensity] using this
  have hpos : 0 < bendDensity D (ritz a b w c) x0 y0 := by
    have hv : ![dX (dX (ritz a b w c)) x0 y0, dY (dY (ritz a b w c)) x0 y0, 2 * dY (dX (ritz a b w c)) x0 y0] ≠ 0 := by
      intro h
      rcases hne with hne | hne
      · exact hne (by simpa using congrFun h 0)
      · exact hne (by simpa using congrFun h 1)
    have := hD.dotProduct_mulVec_pos hv
    simpa [bendDensity] using this
  have hcont := bendDensity_continuous (a := a) (b := b) D w c
  unfold bendEnergy
  refine intervalIntegral.integral_pos ha ?_ ?_ ⟨x0, hx0, ?_⟩
  · exact (intervalIntegral.continuous_parametric_intervalIntegral_of_continuous'
      (f := fun x y => bendDensity D (ritz a b w c) x y) hcont 0 b).continuousOn
  · exact fun x _ => intervalIntegral.integral_nonneg hb.le fun y _ => hnn x y
  · exact intervalIntegral.integral_pos hb (hcont.comp (by fun_prop : Continuous fun y : ℝ => (x0, y))).continuousOn
      (fun y _ => hnn x0 y) ⟨y0, hy0, hpos⟩

/-- The point of the plate with the normalised coordinate `t`. -/
theorem norm_point {a t : ℝ} (ha : 0 < a) (ht : t ∈ Set.Icc (-1 : ℝ) 1) :
    (t + 1) * a / 2 ∈ Set.Icc 0 a ∧ 2 / a * ((t + 1) * a / 2) - 1 = t := by
  refine ⟨⟨?_, ?_⟩, by field_simp; ring⟩
  · have : 0 ≤ (t + 1) * a := mul_nonneg (by linarith [ht.1]) ha.le
    linarith
  · have : (t + 1) * a ≤ 2 * a := mul_le_mul_of_nonneg_right (by linarith [ht.2]) ha.le
    linarith

/-- **C87** the supported plates.  If the two `x` edges hold the plate in the `x` direction (one edge deflection and one
more end condition removed from the shapes of `w`), or the two `y` edges do so in the `y` direction, every deflection
other than zero has positive bending energy.  The flags are those the code looks at for `w`: `TZ`, `RZ` on the `x` edges,
`TX`, `RX` on the `y` edges (structure.py:254-255). -/
theorem C87_supported (D : Matrix (Fin 3) (Fin 3) ℝ) (hD : D.PosDef) (cs : Constraints) (p : PlateNum) (ha : 0 < p.a)
    (hb : 0 < p.b) (s : ShapeIdx) (hs : computeIdx cs p.m p.n = .ok s) (e : Edges) (he : chooseEdges cs = .ok e)
    (hheld : Held (e.x0.has TZ) (e.x0.has RZ) (e.xa.has TZ) (e.xa.has RZ) ∨
      Held (e.y0.has TX) (e.y0.has RX) (e.yb.has TX) (e.yb.has RX)) (c : Fin (p.m * p.n) → ℝ) (hc : c ≠ 0) :
    0 < bendEnergy D p.a p.b (ritz p.a p.b s.w c) := by
  obtain ⟨e', xs, ys, he', hw, hx, hy⟩ := w_lists hs
  obtain rfl : e = e' := Except.ok.inj (he.symm.trans he')
  have hg := (C40_sizes cs _ _ s hs).2.2
  have hinj : Function.Injective fun r : Fin (p.m * p.n) => s.w.getD r (0, 0) := by
    intro r r' h
    simp only at h
    rw [List.getD_eq_getElem _ _ (by rw [hg.len]; exact r.2), List.getD_eq_getElem _ _ (by rw [hg.len]; exact r'.2)] at h
    exact Fin.ext ((hg.nodup.getElem_inj_iff).mp h)
  have hmem (r : Fin (p.m * p.n)) : (s.w.getD r (0, 0)).1 ∈ xs ∧ (s.w.getD r (0, 0)).2 ∈ ys := by
    have h1 : s.w.getD r (0, 0) ∈ s.w := by
      rw [List.getD_eq_getElem _ _ (by rw [hg.len]; exact r.2)]
      exact List.getElem_mem _
    have h2 : s.w.getD r (0, 0) ∈ xs.product ys := hw ▸ h1
    generalize s.w.getD r (0, 0) = q at h2
    exact List.mem_product.mp (show (q.1, q.2) ∈ xs ×ˢ ys from h2)
  by_contra hcon
  have hno : ∀ x ∈ Set.Icc 0 p.a, ∀ y ∈ Set.Icc 0 p.b, dX (dX (ritz p.a p.b s.w c)) x y = 0 ∧
      dY (dY (ritz p.a p.b s.w c)) x y = 0 := by
    intro x hx y hy
    by_contra hne
    exact hcon (bendEnergy_pos ha hb hD s.w c hx hy (by tauto))
  apply hc
  rcases hheld with hheld | hheld
  · refine products_indep (curv_indep hheld) shape_indep _ hinj (fun r => ⟨hx.sound _ (hmem r).1, trivial⟩) c ?_
    intro xi hxi eta heta
    obtain ⟨hpx, ex⟩ := norm_point ha hxi
    obtain ⟨hpy, ey⟩ := norm_point hb heta
    have h0 := (hno _ hpx _ hpy).1
    rw [(ritz_derivs p.a p.b s.w c _ _).2.2.1] at h0
    have h1 := (mul_eq_zero.mp h0).resolve_left (pow_ne_zero _ (div_ne_zero two_ne_zero ha.ne'))
    simpa only [sep, phys_eval, ex, ey] using h1
  · refine products_indep shape_indep (curv_indep hheld) _ hinj (fun r => ⟨trivial, hy.sound _ (hmem r).2⟩) c ?_
    intro xi hxi eta heta
    obtain ⟨hpx, ex⟩ := norm_point ha hxi
    obtain ⟨hpy, ey⟩ := norm_point hb heta
    have h0 := (hno _ hpx _ hpy).2
    rw [(ritz_derivs p.a p.b s.w c _ _).2.2.2.1] at h0
    have h1 := (mul_eq_zero.mp h0).resolve_left (pow_ne_zero _ (div_ne_zero two_ne_zero hb.ne'))
    simpa only [sep, phys_eval, ex, ey] using h1

/-- The `x` edges (or the `y` edges) named by two words hold the plate: both are supported, or one is clamped. -/
def Spec.HoldingWords (v w : Str) : Prop :=
  (IsPinnedWord v ∨ IsClampedWord v) ∧ (IsPinnedWord w ∨ IsClampedWord w) ∨ IsClampedWord v ∨ IsClampedWord w

theorem held_words {v w : Str} (h : HoldingWords v w) {f g : List Str} (hf : boundaryConditions (strLower v) = .ok f)
    (hg : boundaryConditions (strLower w) = .ok g) :
    Held (Edge.has (.flags f) TZ) (Edge.has (.flags f) RZ) (Edge.has (.flags g) TZ) (Edge.has (.flags g) RZ) ∧
    Held (Edge.has (.flags f) TX) (Edge.has (.flags f) RX) (Edge.has (.flags g) TX) (Edge.has (.flags g) RX) := by
  have pin {u : Str} {k : List Str} (hu : IsPinnedWord u) (hk : boundaryConditions (strLower u) = .ok k) : k = pinnedFlags :=
    (Except.ok.inj ((bc_pinned hu).symm.trans hk)).symm
  have cla {u : Str} {k : List Str} (hu : IsClampedWord u) (hk : boundaryConditions (strLower u) = .ok k) : k = clampedFlags :=
    (Except.ok.inj ((bc_clamped hu).symm.trans hk)).symm
  have p1 : Edge.has (.flags pinnedFlags) TZ = true ∧ Edge.has (.flags pinnedFlags) TX = true := by decide
  have c1 : Edge.has (.flags clampedFlags) TZ = true ∧ Edge.has (.flags clampedFlags) TX = true ∧
      Edge.has (.flags clampedFlags) RZ = true ∧ Edge.has (.flags clampedFlags) RX = true := by decide
  rcases h with ⟨hv | hv, hw | hw⟩ | hv | hw
  · obtain rfl := pin hv hf; obtain rfl := pin hw hg
    exact ⟨.inl ⟨p1.1, .inr (.inl p1.1)⟩, .inl ⟨p1.2, .inr (.inl p1.2)⟩⟩
  · obtain rfl := pin hv hf; obtain rfl := cla hw hg
    exact ⟨.inl ⟨p1.1, .inr (.inl c1.1)⟩, .inl ⟨p1.2, .inr (.inl c1.2.1)⟩⟩
  · obtain rfl := cla hv hf; obtain rfl := pin hw hg
    exact ⟨.inl ⟨c1.1, .inr (.inl p1.1)⟩, .inl ⟨c1.2.1, .inr (.inl p1.2)⟩⟩
  · obtain rfl := cla hv hf; obtain rfl := cla hw hg
    exact ⟨.inl ⟨c1.1, .inr (.inl c1.1)⟩, .inl ⟨c1.2.1, .inr (.inl c1.2.1)⟩⟩
  · obtain rfl := cla hv hf
    exact ⟨.inl ⟨c1.1, .inl c1.2.2.1⟩, .inl ⟨c1.2.1, .inl c1.2.2.2⟩⟩
  · obtain rfl := cla hw hg
    exact ⟨.inr ⟨c1.1, .inr c1.2.2.1⟩, .inr ⟨c1.2.1, .inr c1.2.2.2⟩⟩

/-- **C87** in terms of the words a user writes: if two opposite edges are both supported, or any edge is clamped, and the
dictionary is accepted, the exact stiffness matrix is positive definite, for every size and number of terms. -/
theorem C87_words (D : Matrix (Fin 3) (Fin 3) ℝ) (hD : D.PosDef) (p : PlateNum) (ha : 0 < p.a) (hb : 0 < p.b)
    (w0 wa v0 vb : Str) (hknown : ∀ w ∈ [w0, wa, v0, vb], IsPinnedWord w ∨ IsClampedWord w ∨ IsFreeWord w)
    (hold : HoldingWords w0 wa ∨ HoldingWords v0 vb) :
    ∃ K KG, calcKKGD exactReaders (.ok D) (.dict (some (.word w0)) (some (.word wa)) (some (.word v0)) (some (.word vb))) p
      = .ok (K, KG) ∧ ∀ c, c ≠ 0 → 0 < c ⬝ᵥ K.mulVec c := by
  have hsym : D.IsSymm := by
    have := hD.isHermitian
    rw [Matrix.IsHermitian, Matrix.conjTranspose_eq_transpose_of_trivial] at this
    exact this
  obtain ⟨s, hs⟩ := (C41_unknown_word p.m p.n w0 wa v0 vb).1.mpr hknown
  obtain ⟨K, KG, hK, he⟩ := C49_energy D hsym _ p s hs ha.ne' hb.ne'
  obtain ⟨e, xs, ys, hch, -⟩ := w_lists hs
  refine ⟨K, KG, hK, fun c hc => ?_⟩
  rw [(he c).1]
  have hch' := hch
  rw [word_dict] at hch'
  cases h0 : boundaryConditions (strLower w0) with
  | error _ => simp [h0] at hch'
  | ok f0 =>
  cases h1 : boundaryConditions (strLower wa) with
  | error _ => simp [h0, h1] at hch'
  | ok f1 =>
  cases h2 : boundaryConditions (strLower v0) with
  | error _ => simp [h0, h1, h2] at hch'
  | ok f2 =>
  cases h3 : boundaryConditions (strLower vb) with
  | error _ => simp [h0, h1, h2, h3] at hch'
  | ok f3 =>
  simp only [h0, h1, h2, h3, ok_bind, pure_eq_ok, Except.ok.injEq] at hch'
  subst hch'
  refine C87_supported D hD _ p ha hb s hs _ hch ?_ c hc
  rcases hold with h | h
  · exact .inl (held_words h h0 h1).1
  · exact .inr (held_words h h2 h3).2

/-- **C87** the same for the two named conditions. -/
theorem C87_named (D : Matrix (Fin 3) (Fin 3) ℝ) (hD : D.PosDef) (p : PlateNum) (ha : 0 < p.a) (hb : 0 < p.b)
    (name : Str) (hname : name = wPINNED ∨ name = wCLAMPED) :
    ∃ K KG, calcKKGD exactReaders (.ok D) (.str name) p = .ok (K, KG) ∧ ∀ c, c ≠ 0 → 0 < c ⬝ᵥ K.mulVec c := by
  have hsym : D.IsSymm := by
    have := hD.isHermitian
    rw [Matrix.IsHermitian, Matrix.conjTranspose_eq_transpose_of_trivial] at this
    exact this
  obtain ⟨e, hch, hheld⟩ : ∃ e, chooseEdges (.str name) = .ok e ∧
      Held (e.x0.has TZ) (e.x0.has RZ) (e.xa.has TZ) (e.xa.has RZ) := by
    rcases hname with rfl | rfl
    · exact ⟨_, rfl, .inl ⟨by decide, .inr (.inl (by decide))⟩⟩
    · exact ⟨_, rfl, .inl ⟨by decide, .inr (.inl (by decide))⟩⟩
  obtain ⟨s, hs⟩ := (C40_accepted_iff (.str name) p.m p.n).mpr ⟨_, hch⟩
  obtain ⟨K, KG, hK, he⟩ := C49_energy D hsym _ p s hs ha.ne' hb.ne'
  refine ⟨K, KG, hK, fun c hc => ?_⟩
  rw [(he c).1]
  exact C87_supported D hD _ p ha hb s hs e hch (.inl hheld) c hc

/-- **C87** and for the tables as shipped, when the energy of the plate is bounded below by more than the rounding of the
tables (C86): the matrix the library computes is positive definite. -/
theorem C87_shipped_gap (D : Matrix (Fin 3) (Fin 3) ℝ) (hD : D.IsSymm) (cs : Constraints) (p : PlateNum) (hm : 1 ≤ p.m)
    (hn : 1 ≤ p.n) {K KG : SqMat (p.m * p.n)} (h : calcKKGD shipped (.ok D) cs p = .ok (K, KG)) (s : ShapeIdx)
    (hs : computeIdx cs p.m p.n = .ok s) (mu : ℝ) (hmu : 4e-8 * bendSize D p.a p.b * (p.m * p.n : ℕ) < mu)
    (hgap : ∀ c : Fin (p.m * p.n) → ℝ, mu * ∑ r, c r ^ 2 ≤ bendEnergy D p.a p.b (ritz p.a p.b s.w c)) :
    ∀ c, c ≠ 0 → 0 < c ⬝ᵥ K.mulVec c := by
  intro c hc
  obtain ⟨s', hs', herr⟩ := C86_energy_error D hD cs p hm hn h
  obtain rfl : s = s' := Except.ok.inj (hs.symm.trans hs')
  have h1 := (abs_le.mp (herr c).1).1
  have h2 : (∑ r, |c r|) ^ 2 ≤ (p.m * p.n : ℕ) * ∑ r, c r ^ 2 := by
    have := sq_sum_le_card_mul_sum_sq (s := Finset.univ) (f := fun r => |c r|)
    simpa using this
  have hpos : 0 < ∑ r, c r ^ 2 := by
    obtain ⟨r, hr⟩ := Function.ne_iff.mp hc
    exact Finset.sum_pos' (fun i _ => sq_nonneg _) ⟨r, Finset.mem_univ _, by
      have : c r ≠ 0 := hr
      positivity⟩
  have hsize : 0 ≤ 4e-8 * bendSize D p.a p.b := by unfold bendSize; positivity
  have h3 := mul_le_mul_of_nonneg_left h2 hsize
  have h4 := mul_lt_mul_of_pos_right hmu hpos
  have h5 := hgap c
  nlinarith [h1, h3, h4, h5]

/-! ## The unsupported plate -/

/-- The tables in which the two constant-preserving end functions 0 and 2 cancel, in every reading with a derivative on
their side, against the functions numbered below `B`. -/
structure Flat (V : RTables) (B : ℕ) : Prop where
  f_fxi : ∀ i < B, V.f_fxi i 0 + V.f_fxi i 2 = 0
  fxi_fxi : ∀ i < B, V.fxi_fxi i 0 + V.fxi_fxi i 2 = 0
  fxixi_fxi : ∀ i < B, V.fxixi_fxi i 0 + V.fxixi_fxi i 2 = 0
  f_fxixi : ∀ i < B, V.f_fxixi i 0 + V.f_fxixi i 2 = 0
  fxi_fxixi : ∀ i < B, V.fxi_fxixi i 0 + V.fxi_fxixi i 2 = 0
  fxixi_fxixi : ∀ i < B, V.fxixi_fxixi i 0 + V.fxixi_fxixi i 2 = 0

theorem flat_shapes : derivative (shape 0) = - derivative (shape 2) := by
  refine Polynomial.funext fun x => ?_
  simp only [shape, bardell, Polynomial.map_add, Polynomial.map_sub, Polynomial.map_neg, Polynomial.map_mul,
    Polynomial.map_pow, Polynomial.map_C, Polynomial.map_X, derivative_add, derivative_sub, derivative_neg,
    derivative_C_mul, derivative_C, derivative_X_pow, derivative_X, derivative_mul, eval_add, eval_sub, eval_mul, eval_C,
    eval_X, eval_neg, eval_pow, eq_ratCast]
  norm_num
  try ring

theorem exact_flat (B : ℕ) : Flat exactV B := by
  have key (p : ℝ[X]) (q r : ℝ[X]) (h : q = -r) : (∫ x in (-1 : ℝ)..1, p.eval x * q.eval x) + ∫ x in (-1 : ℝ)..1, p.eval x * r.eval x = 0 := by
    subst h
    simp only [eval_neg, mul_neg, intervalIntegral.integral_neg]
    ring
  have h1 := flat_shapes
  have h2 : derivative (derivative (shape 0)) = - derivative (derivative (shape 2)) := by rw [h1, derivative_neg]
  exact ⟨fun i _ => key _ _ _ h1, fun i _ => key _ _ _ h1, fun i _ => key _ _ _ h1, fun i _ => key _ _ _ h2,
    fun i _ => key _ _ _ h2, fun i _ => key _ _ _ h2⟩

/-- Two entries of a table whose texts are opposite numbers. -/
def oppositeOk (x y : ℕ) : Bool :=
  match textTerms (unpack x), textTerms (unpack y) with
  | some [(q, 0, 0)], some [(q', 0, 0)] => decide (q + q' = 0)
  | _, _ => false

theorem opposite_val {t : List (List ℕ)} {i j k l : ℕ} (hi : i < t.length) (hj : j < (t.getD i []).length)
    (hk : k < t.length) (hl : l < (t.getD k []).length)
    (h : oppositeOk ((t.getD i []).getD j 0) ((t.getD k []).getD l 0) = true) :
    readVal (evalAt t (i, j)) + readVal (evalAt t (k, l)) = 0 := by
  have ev {i j : ℕ} (hi : i < t.length) (hj : j < (t.getD i []).length) {q : ℚ}
      (hq : textTerms (unpack ((t.getD i []).getD j 0)) = some [(q, 0, 0)]) : evalAt t (i, j) = .ok (q : ℝ) := by
    have hg : t.getD i [] = t[i] := by simp [List.getD, hi]
    rw [hg] at hj hq
    have hg2 : t[i].getD j 0 = t[i][j] := by simp [List.getD, hj]
    rw [hg2] at hq
    unfold evalAt textAt
    simp only [List.getElem?_eq_getElem hi, List.getElem?_eq_getElem hj, ok_bind]
    rw [pyEval_of_terms hq]
    simp [Terms.val, termVal]
  unfold oppositeOk at h
  split at h
  · rename_i q q' h1 h2
    rw [ev hi hj h1, ev hk hl h2]
    simp only [readVal]
    exact_mod_cast (decide_eq_true_eq.mp h)
  · cases h

/-- The rows 0 and 2 of a table cancel in the first six columns, resp. the columns 0 and 2 in the first six rows. -/
def flatOk (t : List (List ℕ)) : Bool :=
  decide (t.length = 30) && t.all (fun r => decide (r.length = 30)) && (List.range 6).all fun i =>
    oppositeOk ((t.getD 0 []).getD i 0) ((t.getD 2 []).getD i 0)

/-- See `flatOk`. -/
def flatOkT (t : List (List ℕ)) : Bool :=
  decide (t.length = 30) && t.all (fun r => decide (r.length = 30)) && (List.range 6).all fun i =>
    oppositeOk ((t.getD i []).getD 0 0) ((t.getD i []).getD 2 0)

theorem flat_rows {t : List (List ℕ)} (h : flatOk t = true) {i : ℕ} (hi : i < 6) :
    readVal (evalAt t (0, i)) + readVal (evalAt t (2, i)) = 0 := by
  simp only [flatOk, Bool.and_eq_true, decide_eq_true_eq, List.all_eq_true, List.mem_range] at h
  obtain ⟨⟨hl, hr⟩, he⟩ := h
  have hlen {k : ℕ} (hk : k < 30) : (t.getD k []).length = 30 := by
    rw [List.getD_eq_getElem _ _ (by omega)]
    exact hr _ (List.getElem_mem _)
  exact opposite_val (by omega) (by rw [hlen (by norm_num)]; omega) (by omega) (by rw [hlen (by norm_num)]; omega) (he i hi)

theorem flat_cols {t : List (List ℕ)} (h : flatOkT t = true) {i : ℕ} (hi : i < 6) :
    readVal (evalAt t (i, 0)) + readVal (evalAt t (i, 2)) = 0 := by
  simp only [flatOkT, Bool.and_eq_true, decide_eq_true_eq, List.all_eq_true, List.mem_range] at h
  obtain ⟨⟨hl, hr⟩, he⟩ := h
  have hlen {k : ℕ} (hk : k < 30) : (t.getD k []).length = 30 := by
    rw [List.getD_eq_getElem _ _ (by omega)]
    exact hr _ (List.getElem_mem _)
  exact opposite_val (by omega) (by rw [hlen (by omega)]; norm_num) (by omega) (by rw [hlen (by omega)]; norm_num) (he i hi)

/-- In the shipped tables the cancellation survives the rounding for the first six functions. -/
theorem shipped_flat : Flat shippedV 6 where
  f_fxi i hi := flat_rows (t := text_FXI_F) (by decide +kernel) hi
  fxi_fxi i hi := flat_cols (t := text_FXI_FXI) (by decide +kernel) hi
  fxixi_fxi i hi := flat_cols (t := text_FXIXI_FXI) (by decide +kernel) hi
  f_fxixi i hi := flat_rows (t := text_FXIXI_F) (by decide +kernel) hi
  fxi_fxixi i hi := flat_rows (t := text_FXIXI_FXI) (by decide +kernel) hi
  fxixi_fxixi i hi := flat_cols (t := text_FXIXI_FXIXI) (by decide +kernel) hi

/-- The four shapes whose sum is the constant 1. -/
def cornerShapes : List (ℕ × ℕ) := [(0, 0), (0, 2), (2, 0), (2, 2)]

theorem flat_k {V : RTables} {B : ℕ} (hV : Flat V B) (a b : ℝ) (D : Matrix (Fin 3) (Fin 3) ℝ) {r : ℕ × ℕ}
    (h1 : r.1 < B) (h2 : r.2 < B) :
    k33v V a b D r (0, 0) + k33v V a b D r (0, 2) + k33v V a b D r (2, 0) + k33v V a b D r (2, 2) = 0 := by
  unfold k33v
  dsimp only
  linear_combination
    (4 * (b / a ^ 3) * D 0 0 * (V.ff r.2 0 + V.ff r.2 2)) * hV.fxixi_fxixi _ h1
    + (4 / (a * b) * D 1 0 * (V.fxixi_f r.1 0 + V.fxixi_f r.1 2)) * hV.f_fxixi _ h2
    + (4 / (a * b) * D 1 0 * (V.fxixi_f r.2 0 + V.fxixi_f r.2 2)) * hV.f_fxixi _ h1
    + (4 * (a / b ^ 3) * D 1 1 * (V.ff r.1 0 + V.ff r.1 2)) * hV.fxixi_fxixi _ h2
    + (8 / a ^ 2 * D 2 0 * (V.f_fxi r.2 0 + V.f_fxi r.2 2)) * hV.fxixi_fxi _ h1
    + (8 / a ^ 2 * D 2 0 * (V.fxi_f r.2 0 + V.fxi_f r.2 2)) * hV.fxi_fxixi _ h1
    + (8 / b ^ 2 * D 2 1 * (V.fxi_f r.1 0 + V.fxi_f r.1 2)) * hV.fxi_fxixi _ h2
    + (8 / b ^ 2 * D 2 1 * (V.f_fxi r.1 0 + V.f_fxi r.1 2)) * hV.fxixi_fxi _ h2
    + (16 / (a * b) * D 2 2 * (V.fxi_fxi r.1 0 + V.fxi_fxi r.1 2)) * hV.fxi_fxi _ h2

theorem flat_g {V : RTables} {B : ℕ} (hV : Flat V B) (a b Nxx Nyy Nxy : ℝ) {r : ℕ × ℕ} (h1 : r.1 < B) (h2 : r.2 < B) :
    g33v V a b Nxx Nyy Nxy r (0, 0) + g33v V a b Nxx Nyy Nxy r (0, 2) + g33v V a b Nxx Nyy Nxy r (2, 0)
      + g33v V a b Nxx Nyy Nxy r (2, 2) = 0 := by
  unfold g33v
  dsimp only
  linear_combination
    (Nxx * (b / a) * (V.ff r.2 0 + V.ff r.2 2)) * hV.fxi_fxi _ h1
    + (Nyy * (a / b) * (V.ff r.1 0 + V.ff r.1 2)) * hV.fxi_fxi _ h2
    + (Nxy * (V.fxi_f r.2 0 + V.fxi_f r.2 2)) * hV.f_fxi _ h1
    + (Nxy * (V.fxi_f r.1 0 + V.fxi_f r.1 2)) * hV.f_fxi _ h2

/-- The raised plate: over shapes that include the four corners, `K` and `KG` both vanish on a common vector. -/
theorem flat_kernel {V : RTables} {B : ℕ} (hV : Flat V B) (a b Nxx Nyy Nxy : ℝ) (D : Matrix (Fin 3) (Fin 3) ℝ)
    (w : List (ℕ × ℕ)) {N : ℕ} (hN : w.length = N) (hB : ∀ q ∈ w, q.1 < B ∧ q.2 < B) (hsub : ∀ q ∈ cornerShapes, q ∈ w) :
    ∃ v : Fin N → ℝ, v ≠ 0 ∧ (kMat V a b D w N).mulVec v = 0 ∧ (gMat V a b Nxx Nyy Nxy w N).mulVec v = 0 := by
  obtain ⟨e, hinj, he⟩ := exists_embed (w := cornerShapes) (N := 4) rfl hN (by decide) hsub
  have hlt (r : Fin N) : (w.getD r (0, 0)).1 < B ∧ (w.getD r (0, 0)).2 < B := by
    have : (r : ℕ) < w.length := by rw [hN]; exact r.2
    rw [List.getD_eq_getElem _ _ this]
    exact hB _ (List.getElem_mem _)
  have e0 : w.getD (e 0) (0, 0) = (0, 0) := he 0
  have e1 : w.getD (e 1) (0, 0) = (0, 2) := he 1
  have e2 : w.getD (e 2) (0, 0) = (2, 0) := he 2
  have e3 : w.getD (e 3) (0, 0) = (2, 2) := he 3
  have hmv (M : SqMat N) (r : Fin N) : M.mulVec (extendBy e fun _ => 1) r = M r (e 0) + M r (e 1) + M r (e 2) + M r (e 3) := by
    have h := extendBy_sum e (fun _ => 1) (fun j => M r j)
    rw [Fin.sum_univ_four] at h
    simp only [one_mul] at h
    rw [← h]
    simp only [Matrix.mulVec, dotProduct, mul_comm]
  refine ⟨extendBy e fun _ => 1, fun h => ?_, ?_, ?_⟩
  · have := congrFun h (e 0)
    rw [extendBy_apply hinj] at this
    simp at this
  · funext r
    rw [hmv]
    simp only [kMat, Matrix.of_apply, e0, e1, e2, e3]
    exact flat_k hV a b D (hlt r).1 (hlt r).2
  · funext r
    rw [hmv]
    simp only [gMat, Matrix.of_apply, e0, e1, e2, e3]
    exact flat_g hV a b Nxx Nyy Nxy (hlt r).1 (hlt r).2

/-- The shapes of a plate with four free edges: the first `m` and `n` functions. -/
theorem free_idx (m n : ℕ) {w0 wa v0 vb : Str} (h0 : IsFreeWord w0) (ha : IsFreeWord wa) (g0 : IsFreeWord v0)
    (gb : IsFreeWord vb) :
    ∃ s, computeIdx (.dict (some (.word w0)) (some (.word wa)) (some (.word v0)) (some (.word vb))) m n = .ok s ∧
      s.w = (List.range m).product (List.range n) := by
  have hch : chooseEdges (.dict (some (.word w0)) (some (.word wa)) (some (.word v0)) (some (.word vb)))
      = .ok ⟨.flags [], .flags [], .flags [], .flags []⟩ := by
    rw [word_dict, bc_free h0, bc_free ha, bc_free g0, bc_free gb]
    rfl
  obtain ⟨s, hs⟩ := (C40_accepted_iff (.dict (some (.word w0)) (some (.word wa)) (some (.word v0)) (some (.word vb))) m n).mpr
    ⟨_, hch⟩
  obtain ⟨e, xs, ys, he, hw, hx, hy⟩ := w_lists hs
  obtain rfl := Except.ok.inj (hch.symm.trans he)
  have first (k : ℕ) (t r : Str) : IsFirst k (Kept ((Edge.flags []).has t) ((Edge.flags []).has r) ((Edge.flags []).has t)
      ((Edge.flags []).has r)) (List.range k) := by
    refine ⟨by simp, List.pairwise_lt_range, fun i _ => ?_, fun i hi j hj _ => ?_⟩
    · simp [Kept, Edge.has]
    · simp only [List.mem_range] at hi ⊢
      omega
  exact ⟨s, hs, by rw [hw, hx.unique (first m TZ RZ), hy.unique (first n TX RX)]⟩

/-- **C87** a plate with four free edges (3 to 6 terms each way, tables as shipped): the deflection by a constant is in the
kernel of both matrices, so that `K` is singular and every number whatsoever is a buckling multiplier. -/
theorem C87_free_degenerate (D : Matrix (Fin 3) (Fin 3) ℝ) (p : PlateNum) (ha : p.a ≠ 0) (hb : p.b ≠ 0) (hm : 3 ≤ p.m ∧ p.m ≤ 6)
    (hn : 3 ≤ p.n ∧ p.n ≤ 6) (w0 wa v0 vb : Str) (h0 : IsFreeWord w0) (h1 : IsFreeWord wa) (h2 : IsFreeWord v0)
    (h3 : IsFreeWord vb) :
    ∃ K KG, calcKKGD shipped (.ok D) (.dict (some (.word w0)) (some (.word wa)) (some (.word v0)) (some (.word vb))) p
      = .ok (K, KG) ∧ K.det = 0 ∧ ∀ lam, ∃ v, Buckles K KG lam v := by
  obtain ⟨s, hs, hw⟩ := free_idx p.m p.n h0 h1 h2 h3
  have hmem : ∀ q, q ∈ s.w ↔ q.1 < p.m ∧ q.2 < p.n := by
    intro q
    rw [hw, show (List.range p.m).product (List.range p.n) = List.range p.m ×ˢ List.range p.n from rfl]
    have := List.mem_product (a := q.1) (b := q.2) (l₁ := List.range p.m) (l₂ := List.range p.n)
    simpa using this
  have hK := calcKKGD_ok shipped_ok D _ p s hs ha hb fun q hq => by
    have := (hmem q).mp hq
    omega
  obtain ⟨v, hv, hk, hg⟩ := flat_kernel shipped_flat p.a p.b p.Nxx p.Nyy p.Nxy D s.w
    (C40_sizes _ _ _ s hs).2.2.len (fun q hq => by
      have := (hmem q).mp hq
      omega) (fun q hq => by
      rw [hmem]
      simp only [cornerShapes, List.mem_cons, List.not_mem_nil, or_false] at hq
      rcases hq with rfl | rfl | rfl | rfl <;> omega)
  refine ⟨_, _, hK, ?_, fun lam => ⟨v, hv, ?_⟩⟩
  · exact Matrix.exists_mulVec_eq_zero_iff.mp ⟨v, hv, hk⟩
  · rw [Matrix.add_mulVec, Matrix.smul_mulVec, hk, hg, smul_zero, add_zero]

/-- **C87** for any number of terms from 3 on the same holds of the exact integrals. -/
theorem C87_free_exact (D : Matrix (Fin 3) (Fin 3) ℝ) (p : PlateNum) (ha : p.a ≠ 0) (hb : p.b ≠ 0) (hm : 3 ≤ p.m)
    (hn : 3 ≤ p.n) (w0 wa v0 vb : Str) (h0 : IsFreeWord w0) (h1 : IsFreeWord wa) (h2 : IsFreeWord v0)
    (h3 : IsFreeWord vb) :
    ∃ K KG, calcKKGD exactReaders (.ok D) (.dict (some (.word w0)) (some (.word wa)) (some (.word v0)) (some (.word vb))) p
      = .ok (K, KG) ∧ K.det = 0 ∧ ∀ lam, ∃ v, Buckles K KG lam v := by
  obtain ⟨s, hs, hw⟩ := free_idx p.m p.n h0 h1 h2 h3
  have hmem : ∀ q, q ∈ s.w ↔ q.1 < p.m ∧ q.2 < p.n := by
    intro q
    rw [hw, show (List.range p.m).product (List.range p.n) = List.range p.m ×ˢ List.range p.n from rfl]
    have := List.mem_product (a := q.1) (b := q.2) (l₁ := List.range p.m) (l₂ := List.range p.n)
    simpa using this
  have hK := calcKKGD_ok exact_ok D _ p s hs ha hb fun q hq => ⟨trivial, trivial⟩
  obtain ⟨v, hv, hk, hg⟩ := flat_kernel (exact_flat (p.m + p.n)) p.a p.b p.Nxx p.Nyy p.Nxy D s.w
    (C40_sizes _ _ _ s hs).2.2.len (fun q hq => by
      have := (hmem q).mp hq
      omega) (fun q hq => by
      rw [hmem]
      simp only [cornerShapes, List.mem_cons, List.not_mem_nil, or_false] at hq
      rcases hq with rfl | rfl | rfl | rfl <;> omega)
  refine ⟨_, _, hK, ?_, fun lam => ⟨v, hv, ?_⟩⟩
  · exact Matrix.exists_mulVec_eq_zero_iff.mp ⟨v, hv, hk⟩
  · rw [Matrix.add_mulVec, Matrix.smul_mulVec, hk, hg, smul_zero, add_zero]

/-- Non-vacuity for C87: a cantilever (one clamped edge, three free) is held, a free plate is accepted too. -/
example : HoldingWords wClamped wFree ∧ IsFreeWord wFree := by
  refine ⟨.inr (.inl (.inl ?_)), ?_⟩
  · decide
  · show strLower wFree = wFree
    decide

end Composipy
