import Verif.Props.LP
import Verif.Props.Optimize
import Mathlib.Analysis.SpecialFunctions.Complex.Arg
import Mathlib.Analysis.SpecialFunctions.Pow.Real

/-!
# C90: every feasible set of lamination parameters is that of a stack
-/

namespace Composipy
open Spec Matrix

/-! ## Averages of harmonics fill the feasible region -/

/-- A point of the unit circle is the first harmonic of some ply angle. -/
theorem exists_angle {x y : ℝ} (h : x ^ 2 + y ^ 2 = 1) : ∃ t, xiTerm t = ![x, y, x ^ 2 - y ^ 2, 2 * x * y] := by
  obtain ⟨f, hx, hy⟩ : ∃ f, x = Real.cos f ∧ y = Real.sin f := by
    have hn : ‖(⟨x, y⟩ : ℂ)‖ = 1 := by
      rw [Complex.norm_def, Complex.normSq_mk, ← sq, ← sq, h, Real.sqrt_one]
    refine ⟨Complex.arg ⟨x, y⟩, ?_, ?_⟩
    · have := Complex.norm_mul_cos_arg (⟨x, y⟩ : ℂ)
      rw [hn, one_mul] at this
      exact this.symm
    · have := Complex.norm_mul_sin_arg (⟨x, y⟩ : ℂ)
      rw [hn, one_mul] at this
      exact this.symm
  refine ⟨f * (90 / Real.pi), ?_⟩
  have hp := Real.pi_ne_zero
  have e2 : 2 * (f * (90 / Real.pi) * (Real.pi / 180)) = f := by field_simp; ring
  have e4 : 4 * (f * (90 / Real.pi) * (Real.pi / 180)) = 2 * f := by field_simp; ring
  simp only [xiTerm, e2, e4, hx, hy, Real.cos_two_mul, Real.sin_two_mul]
  have := Real.sin_sq_add_cos_sq f
  funext i
  fin_cases i <;> simp
  · linarith
  · ring

theorem IsMix.atom {x y : ℝ} (h : x ^ 2 + y ^ 2 = 1) : IsMix ![x, y, x ^ 2 - y ^ 2, 2 * x * y] := by
  obtain ⟨t, ht⟩ := exists_angle h
  exact ⟨[(1, t)], by simp, by simp, by simp [ht]⟩

theorem IsMix.mix {u v : V4} (hu : IsMix u) (hv : IsMix v) {s t : ℝ} (hs : 0 ≤ s) (ht : 0 ≤ t) (h : s + t = 1) :
    IsMix (s • u + t • v) := by
  obtain ⟨L, l1, l2, rfl⟩ := hu
  obtain ⟨M, m1, m2, rfl⟩ := hv
  have sc : ∀ (L : List (ℝ × ℝ)) (s : ℝ), (L.map fun p => (s * p.1, p.2)).map Prod.fst = (L.map Prod.fst).map (s * ·) := by
    intro L s; simp [Function.comp_def]
  refine ⟨(L.map fun p => (s * p.1, p.2)) ++ (M.map fun p => (t * p.1, p.2)), ?_, ?_, ?_⟩
  · intro p hp
    rcases List.mem_append.mp hp with hp | hp <;> obtain ⟨q, hq, rfl⟩ := List.mem_map.mp hp
    · exact mul_nonneg hs (l1 q hq)
    · exact mul_nonneg ht (m1 q hq)
  · rw [List.map_append, List.sum_append, sc, sc, List.sum_map_mul_left, List.sum_map_mul_left]
    simp only [List.map_id', l2, m2]
    linarith
  · rw [List.map_append, List.sum_append, List.smul_sum, List.smul_sum]
    simp only [List.map_map, Function.comp_def, smul_smul]

/-- Two plies: the chord through `(p, q)` in direction `(d, e)` meets the unit circle in two points. -/
theorem IsMix.chord {p q d e : ℝ} (hpq : p ^ 2 + q ^ 2 < 1) (hde : d ^ 2 + e ^ 2 = 1) :
    IsMix ![p, q, p ^ 2 - q ^ 2 + (1 - p ^ 2 - q ^ 2) * (d ^ 2 - e ^ 2), 2 * p * q + (1 - p ^ 2 - q ^ 2) * (2 * d * e)] := by
  set b := p * d + q * e with hb
  set r := Real.sqrt (b ^ 2 + (1 - p ^ 2 - q ^ 2)) with hr
  have hr2 : r ^ 2 = b ^ 2 + (1 - p ^ 2 - q ^ 2) := Real.sq_sqrt (by nlinarith [sq_nonneg b])
  have hrb : |b| < r := by
    rw [← Real.sqrt_sq_eq_abs]
    exact Real.sqrt_lt_sqrt (sq_nonneg _) (by linarith)
  have h1 : 0 < r - b := by linarith [le_abs_self b]
  have h2 : 0 < r + b := by linarith [neg_abs_le b]
  have hr0 : 0 < r := by linarith
  have c1 : (p + (r - b) * d) ^ 2 + (q + (r - b) * e) ^ 2 = 1 := by
    have : (p + (r - b) * d) ^ 2 + (q + (r - b) * e) ^ 2 = p ^ 2 + q ^ 2 + 2 * (r - b) * (p * d + q * e)
        + (r - b) ^ 2 * (d ^ 2 + e ^ 2) := by ring
    rw [this, hde, ← hb]
    linear_combination hr2
  have c2 : (p - (r + b) * d) ^ 2 + (q - (r + b) * e) ^ 2 = 1 := by
    have : (p - (r + b) * d) ^ 2 + (q - (r + b) * e) ^ 2 = p ^ 2 + q ^ 2 - 2 * (r + b) * (p * d + q * e)
        + (r + b) ^ 2 * (d ^ 2 + e ^ 2) := by ring
    rw [this, hde, ← hb]
    linear_combination hr2
  have hm := (IsMix.atom c1).mix (IsMix.atom c2) (s := (r + b) / (2 * r)) (t := (r - b) / (2 * r)) (by positivity)
    (by positivity) (by field_simp; ring)
  convert hm using 1
  have hs : (1 - p ^ 2 - q ^ 2) = r ^ 2 - b ^ 2 := by linarith
  funext i
  fin_cases i
  · simp; field_simp; ring
  · simp; field_simp; ring
  · simp only [Fin.reduceFinMk, Matrix.cons_val, Pi.add_apply, Pi.smul_apply, smul_eq_mul, hs]
    field_simp; ring
  · simp only [Fin.reduceFinMk, Matrix.cons_val, Pi.add_apply, Pi.smul_apply, smul_eq_mul, hs]
    field_simp; ring

/-- The feasible region is exactly the set of averages of harmonics. -/
theorem isMix_iff_feasible (v : V4) : IsMix v ↔ Feasible v := by
  refine ⟨IsMix.feasible, fun ⟨_, h1, _, _, _, hdet⟩ => ?_⟩
  -- the second harmonic lies in a disk about the square of the first
  have hdisk : (v 2 - (v 0 ^ 2 - v 1 ^ 2)) ^ 2 + (v 3 - 2 * v 0 * v 1) ^ 2 ≤ (1 - v 0 ^ 2 - v 1 ^ 2) ^ 2 := by nlinarith
  rcases eq_or_lt_of_le h1 with he | hlt
  · have hz : (v 2 - (v 0 ^ 2 - v 1 ^ 2)) ^ 2 + (v 3 - 2 * v 0 * v 1) ^ 2 ≤ 0 := by
      have : 1 - v 0 ^ 2 - v 1 ^ 2 = 0 := by linarith
      rw [this] at hdisk; simpa using hdisk
    have z2 : v 2 = v 0 ^ 2 - v 1 ^ 2 := by
      nlinarith [sq_nonneg (v 2 - (v 0 ^ 2 - v 1 ^ 2)), sq_nonneg (v 3 - 2 * v 0 * v 1)]
    have z3 : v 3 = 2 * v 0 * v 1 := by
      nlinarith [sq_nonneg (v 2 - (v 0 ^ 2 - v 1 ^ 2)), sq_nonneg (v 3 - 2 * v 0 * v 1)]
    have := IsMix.atom he
    convert this using 1
    funext i
    fin_cases i
    · rfl
    · rfl
    · exact z2
    · exact z3
  · set r := 1 - v 0 ^ 2 - v 1 ^ 2 with hr
    have hr0 : 0 < r := by linarith
    -- the scaled position in the disk, in polar form
    set z : ℂ := ⟨(v 2 - (v 0 ^ 2 - v 1 ^ 2)) / r, (v 3 - 2 * v 0 * v 1) / r⟩ with hz
    have hzn : ‖z‖ ≤ 1 := by
      rw [Complex.norm_def, Complex.normSq_apply]
      refine Real.sqrt_le_one.mpr ?_
      simp only [hz]
      rw [div_mul_div_comm, div_mul_div_comm, ← add_div, div_le_one (by positivity)]
      nlinarith
    have hcos : Real.cos (Real.arccos ‖z‖) = ‖z‖ := Real.cos_arccos (by linarith [norm_nonneg z]) hzn
    set g := Real.arccos ‖z‖
    set f := z.arg
    have zr : (v 2 - (v 0 ^ 2 - v 1 ^ 2)) / r = Real.cos g * Real.cos f := by
      rw [hcos]; exact (Complex.norm_mul_cos_arg z).symm
    have zi : (v 3 - 2 * v 0 * v 1) / r = Real.cos g * Real.sin f := by
      rw [hcos]; exact (Complex.norm_mul_sin_arg z).symm
    have m1 := IsMix.chord hlt (d := Real.cos ((f + g) / 2)) (e := Real.sin ((f + g) / 2))
      (by linarith [Real.sin_sq_add_cos_sq ((f + g) / 2)])
    have m2 := IsMix.chord hlt (d := Real.cos ((f - g) / 2)) (e := Real.sin ((f - g) / 2))
      (by linarith [Real.sin_sq_add_cos_sq ((f - g) / 2)])
    have dc : ∀ x, Real.cos (x / 2) ^ 2 - Real.sin (x / 2) ^ 2 = Real.cos x := fun x => by
      have := Real.cos_two_mul (x / 2)
      rw [mul_div_cancel₀ _ two_ne_zero] at this
      linarith [Real.sin_sq_add_cos_sq (x / 2)]
    have ds : ∀ x, 2 * Real.cos (x / 2) * Real.sin (x / 2) = Real.sin x := fun x => by
      have := Real.sin_two_mul (x / 2)
      rw [mul_div_cancel₀ _ two_ne_zero] at this
      linarith
    rw [dc, ds, ← hr] at m1 m2
    have hm := m1.mix m2 (s := 1 / 2) (t := 1 / 2) (by norm_num) (by norm_num) (by norm_num)
    convert hm using 1
    have v2 : v 2 = v 0 ^ 2 - v 1 ^ 2 + r * (Real.cos g * Real.cos f) := by rw [← zr]; field_simp; ring
    have v3 : v 3 = 2 * v 0 * v 1 + r * (Real.cos g * Real.sin f) := by rw [← zi]; field_simp; ring
    funext i
    fin_cases i
    · simp; ring
    · simp; ring
    · simp only [Fin.reduceFinMk, Matrix.cons_val, Pi.add_apply, Pi.smul_apply, smul_eq_mul, Real.cos_add, Real.cos_sub]
      rw [v2]; ring
    · simp only [Fin.reduceFinMk, Matrix.cons_val, Pi.add_apply, Pi.smul_apply, smul_eq_mul, Real.sin_add, Real.sin_sub]
      rw [v3]; ring

/-! ## A symmetric stack for given weights -/

/-- The plies above the midplane: interfaces at `g` of the partial sums of the weights. -/
noncomputable def halfStack (g : ℝ → ℝ) (P : ℝ) : List (ℝ × ℝ) → List (ℝ × ℝ)
  | [] => []
  | (p, t) :: W => (g (P + p) - g P, t) :: halfStack g (P + p) W

theorem halfStack_sum (g : ℝ → ℝ) (P : ℝ) (W : List (ℝ × ℝ)) :
    ((halfStack g P W).map Prod.fst).sum = g (P + (W.map Prod.fst).sum) - g P := by
  induction W generalizing P with
  | nil => simp [halfStack]
  | cons q W ih => simp only [halfStack, List.map_cons, List.sum_cons, ih, add_assoc]; ring

theorem halfStack_mem {g : ℝ → ℝ} (hg : ∀ a b, 0 ≤ a → a < b → g a < g b) {W : List (ℝ × ℝ)} (hW : ∀ q ∈ W, 0 < q.1) {P : ℝ}
    (hP : 0 ≤ P) : ∀ q ∈ halfStack g P W, 0 < q.1 ∧ q.2 ∈ W.map Prod.snd := by
  induction W generalizing P with
  | nil => simp [halfStack]
  | cons p W ih =>
    have hp := hW p (by simp)
    intro q hq
    rcases List.mem_cons.mp hq with rfl | hq
    · exact ⟨by have := hg P (P + p.1) hP (by linarith); simp only; linarith, by simp⟩
    · obtain ⟨h1, h2⟩ := ih (fun q hq => hW q (by simp [hq])) (by linarith : 0 ≤ P + p.1) q hq
      exact ⟨h1, by simp [h2]⟩

theorem halfStack_mom {w : ℝ → ℝ → ℝ} {g : ℝ → ℝ} {k : ℝ} (hw : ∀ a b, 0 ≤ a → a ≤ b → w (g a) (g b) = k * (b - a))
    {W : List (ℝ × ℝ)} (hW : ∀ q ∈ W, 0 < q.1) {P : ℝ} (hP : 0 ≤ P) :
    mom w (g P) ((halfStack g P W).map fun q => (q.1, xiTerm q.2)) = k • (W.map fun q => q.1 • xiTerm q.2).sum := by
  induction W generalizing P with
  | nil => simp [halfStack, mom]
  | cons p W ih =>
    have hp := hW p (by simp)
    simp only [halfStack, List.map_cons, mom, List.sum_cons, smul_add]
    rw [show g P + (g (P + p.1) - g P) = g (P + p.1) by ring, hw P (P + p.1) hP (by linarith),
      ih (fun q hq => hW q (by simp [hq])) (by linarith), smul_smul]
    congr 2
    ring

/-- The same material, one entry per thickness. -/
def Spec.sameMaterial (m : OrthoMat ℝ) (ts : List ℝ) : List Mat := ts.map fun t => .ortho { m with thickness := t }

/-- A symmetric stack of plies of positive thickness of material `m`, with angles from `A`, of total thickness `T`. -/
structure Spec.SymStack (m : OrthoMat ℝ) (T : ℝ) (A : Set ℝ) (s ts : List ℝ) (l : Lam) : Prop where
  init : Lam.init (.angles s) (.list (sameMaterial m ts)) = .ok l
  pos : ∀ t ∈ ts, 0 < t
  angles : ∀ t ∈ s, t ∈ A
  sym : s.reverse = s ∧ ts.reverse = ts
  total : ts.sum = T

theorem zip_same (m : OrthoMat ℝ) (L : List (ℝ × ℝ)) : (L.map Prod.snd).zip (sameMaterial m (L.map Prod.fst))
    = L.map fun q => (q.2, .ortho { m with thickness := q.1 }) := by
  simp only [sameMaterial, List.map_map, List.zip_map', Function.comp_def]

/-- Moments of a mirrored list. -/
theorem mom_mirror {w : ℝ → ℝ → ℝ} (hw : ∀ a b, w (-b) (-a) = w a b) (L : List (ℝ × V4)) :
    mom w (-(L.map Prod.fst).sum) (L.reverse ++ L) = (2 : ℝ) • mom w 0 L := by
  rw [mom_append, List.map_reverse, List.sum_reverse, neg_add_cancel]
  have := mom_reverse w 0 L
  rw [zero_add] at this
  rw [this, two_smul]
  congr 2
  funext a b
  exact hw a b

/-- The construction, for either weight. -/
theorem exists_symStack (m : OrthoMat ℝ) {T : ℝ} {A : Set ℝ} {W : List (ℝ × ℝ)} (hW : ∀ q ∈ W, 0 ≤ q.1 ∧ q.2 ∈ A)
    (h1 : (W.map Prod.fst).sum = 1) {w : ℝ → ℝ → ℝ} (hsym : ∀ a b, w (-b) (-a) = w a b) {g : ℝ → ℝ} {k : ℝ}
    (hw : ∀ a b, 0 ≤ a → a ≤ b → w (g a) (g b) = k * (b - a)) (hg : ∀ a b, 0 ≤ a → a < b → g a < g b) (g0 : g 0 = 0)
    (g1 : g 1 = T / 2) :
    ∃ s ts l, SymStack m T A s ts l ∧ totalThickness l.layup = T ∧
      mom w (bottom l.layup) (l.layup.map harmLayer) = (2 * k) • (W.map fun q => q.1 • xiTerm q.2).sum := by
  classical
  -- drop zero weights
  let V := W.filter fun q => q.1 ≠ 0
  have hV : ∀ q ∈ V, 0 < q.1 := fun q hq => by
    have := List.mem_filter.mp hq
    exact lt_of_le_of_ne (hW q this.1).1 (Ne.symm (by simpa using this.2))
  have fs : ∀ L : List (ℝ × ℝ), ((L.filter fun q => q.1 ≠ 0).map Prod.fst).sum = (L.map Prod.fst).sum ∧
      ((L.filter fun q => q.1 ≠ 0).map fun q => q.1 • xiTerm q.2).sum = (L.map fun q => q.1 • xiTerm q.2).sum := fun L => by
    induction L with
    | nil => simp
    | cons q L ih =>
      by_cases hq : q.1 = 0
      · simp only [List.filter_cons, hq, ne_eq, not_true_eq_false, decide_false, Bool.false_eq_true, if_false, List.map_cons,
          List.sum_cons, zero_smul, zero_add]
        exact ih
      · simp only [List.filter_cons, hq, ne_eq, not_false_eq_true, decide_true, if_true, List.map_cons, List.sum_cons]
        exact ⟨by rw [← ih.1], by rw [← ih.2]⟩
  have hV1 : (V.map Prod.fst).sum = 1 := by rw [← h1]; exact (fs W).1
  set H := halfStack g 0 V with hH
  have hsum : (H.map Prod.fst).sum = T / 2 := by rw [hH, halfStack_sum, hV1, zero_add, g0, g1, sub_zero]
  have hmem := halfStack_mem hg hV le_rfl
  set L := H.reverse ++ H with hL
  have hLm : ∀ q ∈ L, q ∈ H := fun q hq => by simpa [hL] using hq
  have hLr : L.reverse = L := by simp [hL]
  have hLs : (L.map Prod.fst).sum = T := by
    rw [hL, List.map_append, List.sum_append, List.map_reverse, List.sum_reverse, hsum]; ring
  have hlen : (sameMaterial m (L.map Prod.fst)).length = (L.map Prod.snd).length := by simp [sameMaterial]
  have hinit : ∃ l, Lam.init (.angles (L.map Prod.snd)) (.list (sameMaterial m (L.map Prod.fst))) = .ok l ∧
      l.layup = L.map fun q => (q.2, .ortho { m with thickness := q.1 }) := by
    refine ⟨_, by simp only [Lam.init, hlen, ne_eq, not_true_eq_false, if_false]; rfl, zip_same m L⟩
  obtain ⟨l, hl, hlay⟩ := hinit
  have htot : totalThickness l.layup = T := by
    rw [totalThickness_eq, hlay, List.map_map, ← hLs]; rfl
  refine ⟨L.map Prod.snd, L.map Prod.fst, l, ⟨hl, ?_, ?_, ⟨by rw [← List.map_reverse, hLr], by rw [← List.map_reverse, hLr]⟩, hLs⟩,
    htot, ?_⟩
  · intro t ht
    obtain ⟨q, hq, rfl⟩ := List.mem_map.mp ht
    exact (hmem q (hLm q hq)).1
  · intro t ht
    obtain ⟨q, hq, rfl⟩ := List.mem_map.mp ht
    obtain ⟨r, hr, e⟩ := List.mem_map.mp (hmem q (hLm q hq)).2
    rw [← e]
    exact (hW r (List.mem_filter.mp hr).1).2
  · have e1 : l.layup.map harmLayer = (H.map fun q => (q.1, xiTerm q.2)).reverse ++ H.map fun q => (q.1, xiTerm q.2) := by
      rw [hlay, List.map_map, hL, List.map_append, List.map_reverse]; rfl
    have e2 : bottom l.layup = -((H.map fun q => (q.1, xiTerm q.2)).map Prod.fst).sum := by
      rw [bottom, htot, List.map_map]
      have : (H.map (Prod.fst ∘ fun q : ℝ × ℝ => (q.1, xiTerm q.2))).sum = T / 2 := by rw [← hsum]; rfl
      rw [this]; ring
    have e3 := halfStack_mom hw hV (P := 0) le_rfl
    rw [g0] at e3
    rw [e1, e2, mom_mirror hsym, e3, smul_smul]
    congr 1
    exact (fs W).2

/-! ## C90 -/

theorem mom_ortho' (w : ℝ → ℝ → ℝ) (hw : ∀ a b c, w a b + w b c = w a c) (z : ℝ) (m : OrthoMat ℝ)
    (U : Invariants) (hU : m.invariants = .ok U) (L : List (ℝ × Mat)) (hL : ∀ p ∈ L, ∃ t, p.2 = .ortho { m with thickness := t }) :
    mom w z (L.map layer) = w z (z + (L.map fun p => p.2.thickness).sum) • isoPart U +
      harm U (mom w z (L.map harmLayer)) := by
  have h1 : L.map layer = L.map fun p => (p.2.thickness, isoPart U + harm U (xiTerm p.1)) := by
    apply List.map_congr_left
    intro p hp
    obtain ⟨t, ht⟩ := hL p hp
    have := plyQ!_invariants { m with thickness := t } U hU p.1
    rw [← ht] at this
    simp only [layer]
    rw [← this]
  rw [h1, mom_add w (fun p : ℝ × Mat => p.2.thickness), ← mom_map_linear]
  congr 1
  · rw [← mom_const w hw, List.map_map]; rfl
  · rw [List.map_map]; rfl

theorem Spec.SymStack.layup {m : OrthoMat ℝ} {T : ℝ} {A : Set ℝ} {s ts : List ℝ} {l : Lam} (h : SymStack m T A s ts l) :
    IsStack l ∧ s.length = ts.length ∧ l.layup = s.zip (sameMaterial m ts) ∧ l.layup.reverse = l.layup ∧
      (∀ p ∈ l.layup, p.1 ∈ A ∧ 0 < p.2.thickness ∧ ∃ t, p.2 = .ortho { m with thickness := t }) := by
  have hi := h.init
  simp only [Lam.init] at hi
  split at hi
  · cases hi
  rename_i hlen
  simp only [ne_eq, Decidable.not_not] at hlen
  simp only [Except.ok.injEq] at hi
  have hlay : l.layup = s.zip (sameMaterial m ts) := by rw [← hi]
  have hl2 : s.length = ts.length := by rw [← hlen]; simp [sameMaterial]
  refine ⟨⟨_, _, h.init⟩, hl2, hlay, ?_, ?_⟩
  · rw [hlay]
    have : (s.zip (sameMaterial m ts)).reverse = s.reverse.zip (sameMaterial m ts).reverse := by
      rw [List.zip_eq_zipWith, List.zip_eq_zipWith, List.reverse_zipWith (by rw [hlen])]
    rw [this, h.sym.1]
    congr 1
    simp only [sameMaterial]
    rw [← List.map_reverse, h.sym.2]
  · intro p hp
    rw [hlay] at hp
    obtain ⟨h1, h2⟩ := List.of_mem_zip (a := p.1) (b := p.2) hp
    obtain ⟨t, ht, e⟩ := List.mem_map.mp h2
    exact ⟨h.angles _ h1, by rw [← e]; exact h.pos t ht, t, e.symm⟩

theorem cbrt_cube {x : ℝ} (hx : 0 ≤ x) : (x ^ (1 / 3 : ℝ)) ^ 3 = x := by
  rw [← Real.rpow_natCast, ← Real.rpow_mul hx]; norm_num

/-- Averages are realised in bending. -/
theorem realize_D (m : OrthoMat ℝ) {T : ℝ} (hT : 0 < T) {A : Set ℝ} {W : List (ℝ × ℝ)} (hW : ∀ q ∈ W, 0 ≤ q.1 ∧ q.2 ∈ A)
    (h1 : (W.map Prod.fst).sum = 1) : ∃ s ts l, SymStack m T A s ts l ∧
      l.xiDread = .ok fun i => .fin ((W.map fun q => q.1 • xiTerm q.2).sum i) := by
  obtain ⟨s, ts, l, hs, htot, hm⟩ := exists_symStack (T := T) m hW h1 (w := wD) (g := fun x => T / 2 * x ^ (1 / 3 : ℝ))
    (k := T ^ 3 / 24) (fun a b => by simp only [wD]; ring) (fun a b ha hab => by
      simp only [wD, mul_pow, cbrt_cube ha, cbrt_cube (ha.trans hab)]; ring)
    (fun a b ha hab => mul_lt_mul_of_pos_left (Real.rpow_lt_rpow ha hab (by norm_num)) (by linarith))
    (by rw [Real.zero_rpow (by norm_num), mul_zero]) (by simp)
  refine ⟨s, ts, l, hs, ?_⟩
  rw [hs.layup.1.xiD_eq, htot, hm]
  congr 1
  funext i
  have hT3 : T ^ 3 ≠ 0 := by positivity
  simp only [npDiv, if_neg hT3, Pi.smul_apply, smul_eq_mul, XF.fin.injEq]
  field_simp
  norm_num

/-- Averages are realised in the membrane parameters. -/
theorem realize_A (m : OrthoMat ℝ) {T : ℝ} (hT : 0 < T) {A : Set ℝ} {W : List (ℝ × ℝ)} (hW : ∀ q ∈ W, 0 ≤ q.1 ∧ q.2 ∈ A)
    (h1 : (W.map Prod.fst).sum = 1) : ∃ s ts l, SymStack m T A s ts l ∧
      l.xiAread = .ok fun i => .fin ((W.map fun q => q.1 • xiTerm q.2).sum i) := by
  obtain ⟨s, ts, l, hs, htot, hm⟩ := exists_symStack (T := T) m hW h1 (w := wA) (g := fun x => T / 2 * x)
    (k := T / 2) (fun a b => by simp only [wA]; ring) (fun a b ha hab => by simp only [wA]; ring)
    (fun a b ha hab => mul_lt_mul_of_pos_left hab (by linarith)) (by simp) (by simp)
  refine ⟨s, ts, l, hs, ?_⟩
  rw [hs.layup.1.xiA_eq, htot, hm]
  congr 1
  funext i
  simp only [npDiv, if_neg hT.ne', Pi.smul_apply, smul_eq_mul, XF.fin.injEq]
  field_simp

theorem Spec.SymStack.height {m : OrthoMat ℝ} {T : ℝ} {A : Set ℝ} {s ts : List ℝ} {l : Lam} (h : SymStack m T A s ts l) :
    height l.layup = T := by
  obtain ⟨-, hlen, hlay, -⟩ := h.layup
  have : l.layup.map (fun p => p.2.thickness) = ts := by
    rw [hlay]
    have : (s.zip (sameMaterial m ts)).map (fun p => p.2.thickness)
        = ((s.zip (sameMaterial m ts)).map Prod.snd).map Mat.thickness := by simp
    rw [this, List.map_snd_zip (by simp [sameMaterial, hlen])]
    simp only [sameMaterial, List.map_map]
    exact List.map_id' ts
  rw [Spec.height, this, h.total]

theorem Spec.SymStack.mix {m : OrthoMat ℝ} {T : ℝ} (hT : 0 < T) {A : Set ℝ} {s ts : List ℝ} {l : Lam} (h : SymStack m T A s ts l) :
    ∃ a d : V4, l.xiAread = .ok (fun i => .fin (a i)) ∧ l.xiDread = .ok (fun i => .fin (d i)) ∧
      MixOf (l.layup.map Prod.fst) a ∧ MixOf (l.layup.map Prod.fst) d :=
  xi_mix l h.layup.1 (fun p hp => (h.layup.2.2.2.2 p hp).2.1.le) (by rw [h.height]; exact hT)

/-- **C90** lamination parameters `xi` in bending are those of some symmetric stack of the given thickness and material exactly when
they are feasible. -/
theorem C90_bending (m : OrthoMat ℝ) (T : ℝ) (hT : 0 < T) (xi : Fin 4 → ℝ) :
    (∃ s ts l, SymStack m T Set.univ s ts l ∧ l.xiDread = .ok fun i => .fin (xi i)) ↔ Feasible xi := by
  constructor
  · rintro ⟨s, ts, l, hs, hx⟩
    obtain ⟨a, d, -, hd, -, hm⟩ := hs.mix hT
    rw [hx] at hd
    have : xi = d := funext fun i => XF.fin.inj (congrFun (Except.ok.inj hd) i)
    rw [this]
    exact hm.isMix.feasible
  · intro h
    obtain ⟨W, h0, h1, rfl⟩ := (isMix_iff_feasible xi).mpr h
    exact realize_D m hT (fun q hq => ⟨h0 q hq, trivial⟩) h1

/-- **C90** the same for the membrane parameters. -/
theorem C90_membrane (m : OrthoMat ℝ) (T : ℝ) (hT : 0 < T) (xi : Fin 4 → ℝ) :
    (∃ s ts l, SymStack m T Set.univ s ts l ∧ l.xiAread = .ok fun i => .fin (xi i)) ↔ Feasible xi := by
  constructor
  · rintro ⟨s, ts, l, hs, hx⟩
    obtain ⟨a, d, ha, -, hm, -⟩ := hs.mix hT
    rw [hx] at ha
    have : xi = a := funext fun i => XF.fin.inj (congrFun (Except.ok.inj ha) i)
    rw [this]
    exact hm.isMix.feasible
  · intro h
    obtain ⟨W, h0, h1, rfl⟩ := (isMix_iff_feasible xi).mpr h
    exact realize_A m hT (fun q hq => ⟨h0 q hq, trivial⟩) h1

/-- **C90** such a stack has no coupling, and the lamination-parameter laminate built from its parameters has the same `D` (and `A`). -/
theorem C90_same_stiffness (m : OrthoMat ℝ) (T : ℝ) (hT : 0 < T) (A : Set ℝ) (s ts : List ℝ) (l : Lam) (h : SymStack m T A s ts l) :
    (∀ B, l.B = .ok B → B = 0) ∧
    (∀ xi : Fin 4 → ℝ, l.xiDread = .ok (fun i => .fin (xi i)) → ∀ xA xB l',
      Lam.init (.dict ⟨xA, xB, some (.vec [xi 0, xi 1, xi 2, xi 3]), some (.num T)⟩) (.single (.ortho m)) = .ok l' → l'.D = l.D) ∧
    (∀ xi : Fin 4 → ℝ, l.xiAread = .ok (fun i => .fin (xi i)) → ∀ xB xD l',
      Lam.init (.dict ⟨some (.vec [xi 0, xi 1, xi 2, xi 3]), xB, some xD, some (.num T)⟩) (.single (.ortho m)) = .ok l' →
        l'.A = l.A) := by
  obtain ⟨hst, hlen, hlay, hrev, hall⟩ := h.layup
  have htot : totalThickness l.layup = T := by rw [totalThickness_eq]; exact h.height
  have hT3 : T ^ 3 ≠ 0 := by positivity
  have hne : l.layup ≠ [] := by
    intro h0
    rw [h0] at htot
    simp [totalThickness] at htot
    exact hT.ne htot
  have hmat : ∀ p ∈ l.layup, ∃ t, p.2 = .ortho { m with thickness := t } := fun p hp => (hall p hp).2.2
  -- reading the plies
  have hread : ∀ e, m.invariants = .error e → ¬ AllOk l.layup ∧ e = .zeroDivisionError := by
    intro e hU
    constructor
    · intro hok
      obtain ⟨p, hp⟩ := List.exists_mem_of_ne_nil _ hne
      obtain ⟨t, ht⟩ := hmat p hp
      have h3 := (plyQ_ok_iff p).mp (hok p hp)
      rw [ht] at h3
      obtain ⟨U, hU'⟩ := (C09_invariants_ok_iff m).mpr h3
      rw [hU] at hU'; cases hU'
    · unfold OrthoMat.invariants at hU
      cases hQ : m.Q0 with
      | ok Q => simp [hQ] at hU
      | error e' =>
        simp only [hQ, error_bind, Except.error.injEq] at hU
        rw [← hU]; exact C05_Q0_only_zeroDiv m e' hQ
  have hok : ∀ U, m.invariants = .ok U → AllOk l.layup := by
    intro U hU p hp
    obtain ⟨t, ht⟩ := hmat p hp
    rw [plyQ_ok_iff, ht]
    exact (C09_invariants_ok_iff m).mp ⟨U, hU⟩
  refine ⟨fun B hB => C17_symmetric_B_zero l hst hrev B hB, ?_, ?_⟩
  · intro xi hxi xA xB l' hl'
    rw [hst.xiD_eq, htot] at hxi
    have hv : ∀ i, mom wD (bottom l.layup) (l.layup.map harmLayer) i = T ^ 3 / 12 * xi i := fun i => by
      have := congrFun (Except.ok.inj hxi) i
      simp only [npDiv, if_neg hT3, XF.fin.injEq] at this
      rw [← this]; field_simp
    simp only [Lam.init, Except.ok.injEq] at hl'
    subst hl'
    rw [hst.D_eq]
    simp only [Lam.D, lpD, Plies.invariants, Mat.invariants]
    cases hU : m.invariants with
    | error e =>
      obtain ⟨hno, rfl⟩ := hread e hU
      simp [l.loopMatrix_err _ hno]
    | ok U =>
      rw [l.loopMatrix_ok _ (hok U hU), mom_ortho' wD wD_add _ m U hU _ hmat, wD_full, htot]
      simp only [ok_bind, LPVal.unpack4, LPVal.asNum, pure_eq_ok, Except.ok.injEq]
      ext i j
      fin_cases i <;> fin_cases j <;> simp [isoPart, harm, hv] <;> ring
  · intro xi hxi xB xD l' hl'
    rw [hst.xiA_eq, htot] at hxi
    have hv : ∀ i, mom wA (bottom l.layup) (l.layup.map harmLayer) i = T * xi i := fun i => by
      have := congrFun (Except.ok.inj hxi) i
      simp only [npDiv, if_neg hT.ne', XF.fin.injEq] at this
      rw [← this]; field_simp
    simp only [Lam.init, Except.ok.injEq, Option.getD_some] at hl'
    subst hl'
    rw [hst.A_eq]
    simp only [Lam.A, lpA, Plies.invariants, Mat.invariants]
    cases hU : m.invariants with
    | error e =>
      obtain ⟨hno, rfl⟩ := hread e hU
      simp [l.loopMatrix_err _ hno]
    | ok U =>
      rw [l.loopMatrix_ok _ (hok U hU), mom_ortho' wA wA_add _ m U hU _ hmat, wA_full, htot]
      simp only [ok_bind, LPVal.unpack4, LPVal.asNum, pure_eq_ok, Except.ok.injEq]
      ext i j
      fin_cases i <;> fin_cases j <;> simp [isoPart, harm, hv] <;> ring

/-- The four ply angles of the penalty region. -/
def Spec.quasi : Set ℝ := {0, 45, -45, 90}

theorem xiTerm_quasi : xiTerm 0 = ![1, 0, 1, 0] ∧ xiTerm 45 = ![0, 1, -1, 0] ∧ xiTerm (-45) = ![0, -1, -1, 0] ∧
    xiTerm 90 = ![-1, 0, 1, 0] := by
  have e1 : 2 * (45 * (Real.pi / 180)) = Real.pi / 2 := by ring
  have e2 : 4 * (45 * (Real.pi / 180)) = Real.pi := by ring
  have e5 : 2 * (90 * (Real.pi / 180)) = Real.pi := by ring
  have e6 : 4 * (90 * (Real.pi / 180)) = 2 * Real.pi := by ring
  simp [xiTerm, e1, e2, e5, e6]

/-- **C90** the penalty region of `_constraint` (with `xi3 <= 1`) is exactly the set of bending parameters of symmetric stacks of
0, 45, -45 and 90 degree plies without bend-twist parameters. -/
theorem C90_penalty_region (m : OrthoMat ℝ) (T : ℝ) (hT : 0 < T) (xi1 xi3 : ℝ) :
    (∃ s ts l, SymStack m T quasi s ts l ∧ l.xiDread = .ok fun i => .fin (![xi1, 0, xi3, 0] i)) ↔
      constraintOk xi1 xi3 true = true ∧ xi3 ≤ 1 := by
  rw [C56_triangle]
  constructor
  · rintro ⟨s, ts, l, hs, hx⟩
    obtain ⟨a, d, -, hd, -, hm⟩ := hs.mix hT
    rw [hx] at hd
    have : ![xi1, 0, xi3, 0] = d := funext fun i => XF.fin.inj (congrFun (Except.ok.inj hd) i)
    rw [← this] at hm
    have h45 : ∀ t ∈ l.layup.map Prod.fst, Is45 t := by
      intro t ht
      obtain ⟨p, hp, rfl⟩ := List.mem_map.mp ht
      rcases (hs.layup.2.2.2.2 p hp).1 with h | h | h | h
      · exact ⟨0, by rw [h]; norm_num⟩
      · exact ⟨1, by rw [h]; norm_num⟩
      · exact ⟨-1, by rw [h]; norm_num⟩
      · exact ⟨2, by rw [h]; norm_num⟩
    obtain ⟨g1, g2⟩ := hm.triangle h45
    exact ⟨⟨_, _, rfl, rfl, g1, g2⟩, (hm.isMix.feasible.1 2).2⟩
  · rintro ⟨⟨u, v, hu, hv, h1, h2⟩, h3⟩
    cases hu; cases hv
    have h1 : 0 ≤ xi3 + 2 * xi1 + 1 := h1
    have h2 : 0 ≤ xi3 - 2 * xi1 + 1 := h2
    obtain ⟨t0, t1, t2, t3⟩ := xiTerm_quasi
    have := realize_D m hT (A := quasi)
      (W := [((1 + xi3 + 2 * xi1) / 4, 0), ((1 - xi3) / 4, 45), ((1 - xi3) / 4, -45), ((1 + xi3 - 2 * xi1) / 4, 90)]) (by
        intro q hq
        simp only [List.mem_cons, List.not_mem_nil, or_false] at hq
        rcases hq with rfl | rfl | rfl | rfl
        · exact ⟨by simp only; linarith, by simp [quasi]⟩
        · exact ⟨by simp only; linarith, by simp [quasi]⟩
        · exact ⟨by simp only; linarith, by simp [quasi]⟩
        · exact ⟨by simp only; linarith, by simp [quasi]⟩) (by simp; ring)
    obtain ⟨s, ts, l, hs, hx⟩ := this
    refine ⟨s, ts, l, hs, ?_⟩
    rw [hx]
    congr 1
    funext i
    congr 1
    simp only [List.map_cons, List.map_nil, List.sum_cons, List.sum_nil, t0, t1, t2, t3]
    fin_cases i <;> simp <;> ring

/-- **C90** the natural region of `_constraint` (with `xi3 <= 1`) is exactly the set of bending parameters of symmetric stacks of any
angles without bend-twist parameters. -/
theorem C90_natural_region (m : OrthoMat ℝ) (T : ℝ) (hT : 0 < T) (xi1 xi3 : ℝ) :
    (∃ s ts l, SymStack m T Set.univ s ts l ∧ l.xiDread = .ok fun i => .fin (![xi1, 0, xi3, 0] i)) ↔
      constraintOk xi1 xi3 false = true ∧ xi3 ≤ 1 := by
  rw [C56_parabola, C90_bending m T hT]
  constructor
  · intro h
    have h1 := h.2.2.2.1
    have h2 := (h.1 2).2
    simp at h1 h2
    exact ⟨⟨_, rfl, by linarith⟩, h2⟩
  · rintro ⟨⟨u, hu, h1⟩, h2⟩
    cases hu
    have h1 : 0 ≤ xi3 - 2 * xi1 ^ 2 + 1 := h1
    have hx : -1 ≤ xi1 ∧ xi1 ≤ 1 := abs_le_of_sq_le_sq' (by nlinarith) (by norm_num)
    have h3 : -1 ≤ xi3 := by nlinarith [sq_nonneg xi1]
    refine ⟨fun i => ?_, ?_, ?_, ?_, ?_, ?_⟩
    · fin_cases i <;> simp [hx, h2, h3]
    · simpa [abs_le] using hx
    · simpa [abs_le] using And.intro h3 h2
    · simp; linarith
    · simp; linarith
    · simp; nlinarith [mul_nonneg (sub_nonneg.mpr h2) h1]

/-- The material of the panel, as an orthotropic record. -/
noncomputable def Spec.panelOrtho (g : Panel) : OrthoMat ℝ := ⟨g.E1, g.E2, g.v12, g.G12, 0.1, 0, 0, 0, 0, 0⟩

/-- **C90** every panel the optimisers consider can be built: if `(T, xi1, xi3)` satisfies `_constraint` and `xi3 <= 1`, the bending
matrix handed to `buckling_analysis` is that of a real symmetric stack of thickness `T`, with 0/±45/90 plies in the penalty region. -/
theorem C90_buildable (g : Panel) (T : ℝ) (hT : 0 < T) (xi1 xi3 : ℝ) (penalty : Bool) (h : constraintOk xi1 xi3 penalty = true)
    (h3 : xi3 ≤ 1) : ∃ s ts l, SymStack (panelOrtho g) T (if penalty then quasi else Set.univ) s ts l ∧
      panelD g T xi1 xi3 = l.D ∧ ∀ B, l.B = .ok B → B = 0 := by
  have : ∃ s ts l, SymStack (panelOrtho g) T (if penalty then quasi else Set.univ) s ts l ∧
      l.xiDread = .ok fun i => .fin (![xi1, 0, xi3, 0] i) := by
    cases penalty with
    | true => exact (C90_penalty_region _ T hT xi1 xi3).mpr ⟨h, h3⟩
    | false => exact (C90_natural_region _ T hT xi1 xi3).mpr ⟨h, h3⟩
  obtain ⟨s, ts, l, hs, hx⟩ := this
  obtain ⟨hB, hD, -⟩ := C90_same_stiffness _ T hT _ s ts l hs
  refine ⟨s, ts, l, hs, ?_, hB⟩
  have := hD _ hx none none _ rfl
  rw [← this]
  rfl

/-- Non-vacuity of C90: an interior point of the penalty region, a point of the natural region outside it, and a feasible point with
all four parameters nonzero. -/
example : constraintOk (1/4) (1/5) true = true ∧ constraintOk (1/2) (-1/3) false = true ∧ constraintOk (1/2) (-1/3) true = false ∧
    Feasible ![1/4, 1/5, 1/6, 1/7] := by
  refine ⟨by norm_num [constraintOk], by norm_num [constraintOk], by norm_num [constraintOk], fun i => ?_, ?_⟩
  · fin_cases i <;> norm_num
  · simp only [show (![1/4, 1/5, 1/6, 1/7] : Fin 4 → ℝ) 0 = 1/4 from rfl, show (![1/4, 1/5, 1/6, 1/7] : Fin 4 → ℝ) 1 = 1/5 from rfl,
      show (![1/4, 1/5, 1/6, 1/7] : Fin 4 → ℝ) 2 = 1/6 from rfl, show (![1/4, 1/5, 1/6, 1/7] : Fin 4 → ℝ) 3 = 1/7 from rfl]
    norm_num

end Composipy
