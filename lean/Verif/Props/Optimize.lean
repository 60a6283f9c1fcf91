import Verif.Model.Optimize
import Verif.Props.Buckling
import Verif.Props.LP
import Verif.Props.Validation

/-!
# C55 - C59: the optimisation helpers
-/

namespace Composipy
open Spec

/-! ## C55 -/

theorem sorted_last (x y z : ℝ) : ∃ l : List ℝ, [|x|, |y|, |z|].insertionSort (· ≤ ·) = l ∧ l.length = 3 ∧
    pyIdx l (l.length - 1) = .ok (max |x| (max |y| |z|)) := by
  refine ⟨_, rfl, by rw [List.length_insertionSort]; rfl, ?_⟩
  set l := [|x|, |y|, |z|].insertionSort (· ≤ ·) with hl
  have hlen : l.length = 3 := by rw [hl, List.length_insertionSort]; rfl
  have hperm : l.Perm [|x|, |y|, |z|] := List.perm_insertionSort _ _
  have hsorted : l.Pairwise (· ≤ ·) := List.pairwise_insertionSort _ _
  have hlt : l.length - 1 < l.length := by omega
  rw [pyIdx_of_lt _ _ hlt]
  congr 1
  refine le_antisymm ?_ ?_
  · have hm := hperm.mem_iff.mp (List.getElem_mem hlt)
    simp only [List.mem_cons, List.not_mem_nil, or_false] at hm
    rcases hm with h | h | h <;> rw [h] <;> simp
  · have hall : ∀ t ∈ l, t ≤ l[l.length - 1] := by
      intro t ht
      obtain ⟨i, hi, rfl⟩ := List.getElem_of_mem ht
      rcases Nat.lt_or_ge i (l.length - 1) with h | h
      · exact List.pairwise_iff_getElem.mp hsorted i _ hi hlt h
      · have : i = l.length - 1 := by omega
        subst this; exact le_rfl
    refine max_le (hall _ ?_) (max_le (hall _ ?_) (hall _ ?_)) <;> rw [hperm.mem_iff] <;> simp

theorem normalize_eq (Nxx Nyy Nxy : ℝ) (h : max |Nxx| (max |Nyy| |Nxy|) ≠ 0) :
    let M := max |Nxx| (max |Nyy| |Nxy|)
    normalizeCriticalLoad Nxx Nyy Nxy = .ok (Nxx / M, Nyy / M, Nxy / M, M) := by
  obtain ⟨l, hl, -, hi⟩ := sorted_last Nxx Nyy Nxy
  simp only [normalizeCriticalLoad]
  rw [hl, hi]
  simp [pyDiv, h]

theorem maxAbs_zero {x y z : ℝ} : max |x| (max |y| |z|) = 0 ↔ x = 0 ∧ y = 0 ∧ z = 0 := by
  constructor
  · intro h
    have h1 := le_max_left |x| (max |y| |z|)
    have h2 := le_max_right |x| (max |y| |z|)
    have h3 := le_max_left |y| |z|
    have h4 := le_max_right |y| |z|
    exact ⟨abs_nonpos_iff.mp (by linarith), abs_nonpos_iff.mp (by linarith), abs_nonpos_iff.mp (by linarith)⟩
  · rintro ⟨rfl, rfl, rfl⟩; simp

/-- **C55** the result: magnitudes at most 1, one of them exactly 1, and multiplying back gives the input. -/
theorem C55_normalised (Nxx Nyy Nxy x y s M : ℝ) (h : normalizeCriticalLoad Nxx Nyy Nxy = .ok (x, y, s, M)) :
    0 < M ∧ (|x| ≤ 1 ∧ |y| ≤ 1 ∧ |s| ≤ 1) ∧ (|x| = 1 ∨ |y| = 1 ∨ |s| = 1) ∧
      x * M = Nxx ∧ y * M = Nyy ∧ s * M = Nxy ∧ (M = |Nxx| ∨ M = |Nyy| ∨ M = |Nxy|) := by
  by_cases h0 : max |Nxx| (max |Nyy| |Nxy|) = 0
  · obtain ⟨l, hl, -, hi⟩ := sorted_last Nxx Nyy Nxy
    simp only [normalizeCriticalLoad] at h
    rw [hl, hi] at h
    simp [pyDiv, h0] at h
  · rw [normalize_eq _ _ _ h0] at h
    have hpos : 0 < max |Nxx| (max |Nyy| |Nxy|) := lt_of_le_of_ne (le_max_of_le_left (abs_nonneg _)) (Ne.symm h0)
    set K := max |Nxx| (max |Nyy| |Nxy|) with hK
    simp only [Except.ok.injEq, Prod.mk.injEq] at h
    obtain ⟨rfl, rfl, rfl, rfl⟩ := h
    have a1 : |Nxx| ≤ K := le_max_left _ _
    have a2 : |Nyy| ≤ K := (le_max_left _ _).trans (le_max_right _ _)
    have a3 : |Nxy| ≤ K := (le_max_right _ _).trans (le_max_right _ _)
    have hM : K = |Nxx| ∨ K = |Nyy| ∨ K = |Nxy| := by
      rcases max_choice |Nxx| (max |Nyy| |Nxy|) with e | e
      · exact Or.inl (hK.trans e)
      · rcases max_choice |Nyy| |Nxy| with e' | e'
        · exact Or.inr (Or.inl (hK.trans (e.trans e')))
        · exact Or.inr (Or.inr (hK.trans (e.trans e')))
    have habs : ∀ t : ℝ, |t / K| = |t| / K := fun t => by rw [abs_div, abs_of_pos hpos]
    refine ⟨hpos, ⟨?_, ?_, ?_⟩, ?_, div_mul_cancel₀ _ h0, div_mul_cancel₀ _ h0, div_mul_cancel₀ _ h0, hM⟩
    · rw [habs, div_le_one hpos]; exact a1
    · rw [habs, div_le_one hpos]; exact a2
    · rw [habs, div_le_one hpos]; exact a3
    · simp only [habs, div_eq_one_iff_eq h0]
      rcases hM with e | e | e
      · exact Or.inl e.symm
      · exact Or.inr (Or.inl e.symm)
      · exact Or.inr (Or.inr e.symm)

/-- **C55** the only failure is `ZeroDivisionError`, exactly when all three loads are 0. -/
theorem C55_zero (Nxx Nyy Nxy : ℝ) (e : PyErr) :
    normalizeCriticalLoad Nxx Nyy Nxy = .error e ↔ e = .zeroDivisionError ∧ Nxx = 0 ∧ Nyy = 0 ∧ Nxy = 0 := by
  rw [← maxAbs_zero]
  by_cases h0 : max |Nxx| (max |Nyy| |Nxy|) = 0
  · obtain ⟨l, hl, -, hi⟩ := sorted_last Nxx Nyy Nxy
    simp only [normalizeCriticalLoad]
    rw [hl, hi]
    simp only [ok_bind, pyDiv, h0, if_true, error_bind, Except.error.injEq, and_true]
    exact eq_comm
  · rw [normalize_eq _ _ _ h0]
    simp [h0]

/-- **C55** consequence: with the default loads (all zero) both optimisers raise `ZeroDivisionError`. -/
theorem C55_default_loads (S : EigSolver) (g : Panel) (T : ℝ) (pen : Bool) (x0 : List ℝ) :
    (maximizeBucklingLoad S g T 0 0 0 pen).2 = .error .zeroDivisionError ∧
    (minimizePanelWeight S g 0 0 0 x0).2 = .error .zeroDivisionError := by
  have h := (C55_zero 0 0 0 .zeroDivisionError).mpr ⟨rfl, rfl, rfl, rfl⟩
  simp [maximizeBucklingLoad, minimizePanelWeight, h]

/-- Non-vacuity: `(-2, 1, 0)` becomes `(-1, 1/2, 0)` with factor 2. -/
example : normalizeCriticalLoad (-2) 1 0 = .ok (-1, 1 / 2, 0, 2) := by
  have : max |(-2 : ℝ)| (max |1| |0|) = 2 := by norm_num
  have h := normalize_eq (-2) 1 0 (by rw [this]; norm_num)
  simp only [this] at h
  rw [h]
  norm_num

/-! ## C56 -/

/-- **C56** `_constraint(penalty=True)` is exactly the triangle `g1 >= 0, g2 >= 0`. -/
theorem C56_triangle (xi1 xi3 : ℝ) : constraintOk xi1 xi3 true = true ↔
    ∃ u v, penaltyG1 [xi1, xi3] = .ok u ∧ penaltyG2 [xi1, xi3] = .ok v ∧ 0 ≤ u ∧ 0 ≤ v := by
  have e : (∃ u v, penaltyG1 [xi1, xi3] = .ok u ∧ penaltyG2 [xi1, xi3] = .ok v ∧ 0 ≤ u ∧ 0 ≤ v) ↔
      0 ≤ xi3 + 2 * xi1 + 1 ∧ 0 ≤ xi3 - 2 * xi1 + 1 := by
    constructor
    · rintro ⟨u, v, h1, h2, h3, h4⟩
      cases h1; cases h2
      exact ⟨h3, h4⟩
    · rintro ⟨h1, h2⟩
      exact ⟨_, _, rfl, rfl, h1, h2⟩
  rw [e]
  unfold constraintOk
  by_cases hx : xi1 < 0
  · simp only [Bool.not_true, Bool.false_eq_true, if_false, hx, if_true]
    split_ifs with h
    · simp; intro h'; linarith
    · simp; constructor <;> linarith
  · simp only [Bool.not_true, Bool.false_eq_true, if_false, hx]
    split_ifs with h
    · simp; intro h'; linarith
    · simp; constructor <;> linarith

/-- **C56** `_constraint(penalty=False)` is exactly the natural constraint. -/
theorem C56_parabola (xi1 xi3 : ℝ) : constraintOk xi1 xi3 false = true ↔
    ∃ u, naturalConstraintG [xi1, xi3] = .ok u ∧ 0 ≤ u := by
  have e : (∃ u, naturalConstraintG [xi1, xi3] = .ok u ∧ 0 ≤ u) ↔ 0 ≤ xi3 - 2 * xi1 ^ 2 + 1 := by
    constructor
    · rintro ⟨u, h1, h2⟩
      cases h1
      exact h2
    · intro h
      exact ⟨_, rfl, h⟩
  rw [e]
  unfold constraintOk
  simp only [Bool.not_false, if_true]
  split_ifs with h
  · simp; exact h
  · simp; linarith

/-- **C56** for `|xi1| <= 1` the triangle lies inside the natural region; also with the tolerance used by the optimisers. -/
theorem C56_triangle_in_parabola (y0 : List ℝ) (u v g eps : ℝ) (h1 : penaltyG1 y0 = .ok u) (h2 : penaltyG2 y0 = .ok v)
    (h3 : naturalConstraintG y0 = .ok g) (hu : eps ≤ u) (hv : eps ≤ v)
    (hx : ∀ xi1 xi3, unpackXi y0 = .ok (xi1, xi3) → -1 ≤ xi1 ∧ xi1 ≤ 1) : eps ≤ g := by
  rcases hy : unpackXi y0 with _ | ⟨xi1, xi3⟩
  · simp [penaltyG1, hy] at h1
  · obtain ⟨a1, a2⟩ := hx _ _ hy
    simp [penaltyG1, penaltyG2, naturalConstraintG, hy] at h1 h2 h3
    subst h1 h2 h3
    rcases le_total 0 xi1 with h | h
    · nlinarith
    · nlinarith

/-- **C56** all three functions read the last two numbers of a vector of length 2 or 3 and refuse other lengths. -/
theorem C56_lengths (y0 : List ℝ) :
    (y0.length ≠ 2 ∧ y0.length ≠ 3 → penaltyG1 y0 = .error .unboundLocalError ∧
      penaltyG2 y0 = .error .unboundLocalError ∧ naturalConstraintG y0 = .error .unboundLocalError) ∧
    (∀ T xi1 xi3, penaltyG1 [T, xi1, xi3] = penaltyG1 [xi1, xi3] ∧ penaltyG2 [T, xi1, xi3] = penaltyG2 [xi1, xi3] ∧
      naturalConstraintG [T, xi1, xi3] = naturalConstraintG [xi1, xi3]) := by
  refine ⟨?_, fun T xi1 xi3 => ⟨rfl, rfl, rfl⟩⟩
  rintro ⟨h2, h3⟩
  have : unpackXi y0 = .error .unboundLocalError := by
    match y0, h2, h3 with
    | [], _, _ => rfl
    | [_], _, _ => rfl
    | [_, _], h, _ => exact absurd rfl h
    | [_, _, _], _, h => exact absurd rfl h
    | _ :: _ :: _ :: _ :: _, _, _ => rfl
  simp [penaltyG1, penaltyG2, naturalConstraintG, this]

/-- **C56** the lamination parameters of every real stack satisfy the natural constraint. -/
theorem C56_stack_natural (l : Lam) (hs : IsStack l) (hn : NonnegThick l.layup) (hT : 0 < height l.layup) :
    ∃ a d : Fin 4 → ℝ, l.xiAread = .ok (fun i => .fin (a i)) ∧ l.xiDread = .ok (fun i => .fin (d i)) ∧
      (∃ g, naturalConstraintG [a 0, a 2] = .ok g ∧ 0 ≤ g) ∧ (∃ g, naturalConstraintG [d 0, d 2] = .ok g ∧ 0 ≤ g) := by
  obtain ⟨a, d, h1, h2, fa, fd⟩ := C20_feasible l hs hn hT
  refine ⟨a, d, h1, h2, ⟨_, rfl, ?_⟩, ⟨_, rfl, ?_⟩⟩
  · have := fa.2.2.2.1; linarith
  · have := fd.2.2.2.1; linarith

/-- A multiple of 45 degrees. -/
def Spec.Is45 (t : ℝ) : Prop := ∃ k : ℤ, t = 45 * k

theorem xiTerm_45 {t : ℝ} (h : Is45 t) : 0 ≤ xiTerm t 2 + 2 * xiTerm t 0 + 1 ∧ 0 ≤ xiTerm t 2 - 2 * xiTerm t 0 + 1 := by
  obtain ⟨k, rfl⟩ := h
  have e2 : 2 * (45 * (k : ℝ) * (Real.pi / 180)) = k * (Real.pi / 2) := by ring
  have e4 : 4 * (45 * (k : ℝ) * (Real.pi / 180)) = 2 * (k * (Real.pi / 2)) := by ring
  simp only [xiTerm, e2, e4, Matrix.cons_val_zero, Matrix.cons_val]
  rw [Real.cos_two_mul]
  set c := Real.cos (k * (Real.pi / 2)) with hc
  have hv : c = 0 ∨ c = 1 ∨ c = -1 := by
    rcases Int.even_or_odd k with ⟨j, hj⟩ | ⟨j, hj⟩
    · have : (k : ℝ) * (Real.pi / 2) = j * Real.pi := by rw [hj]; push_cast; ring
      rw [hc, this]
      have h1 : Real.sin (j * Real.pi) = 0 := Real.sin_int_mul_pi j
      have h2 := Real.sin_sq_add_cos_sq (j * Real.pi)
      rw [h1] at h2
      right
      have : (Real.cos (j * Real.pi) - 1) * (Real.cos (j * Real.pi) + 1) = 0 := by nlinarith
      rcases mul_eq_zero.mp this with h | h
      · left; linarith
      · right; linarith
    · left
      have : (k : ℝ) * (Real.pi / 2) = (2 * (j : ℝ) + 1) * Real.pi / 2 := by rw [hj]; push_cast; ring
      rw [hc, this, Real.cos_eq_zero_iff]
      exact ⟨j, rfl⟩
  rcases hv with h | h | h <;> rw [h] <;> norm_num

theorem MixOf.triangle {A : List ℝ} {v : V4} (h : MixOf A v) (hA : ∀ t ∈ A, Is45 t) :
    0 ≤ v 2 + 2 * v 0 + 1 ∧ 0 ≤ v 2 - 2 * v 0 + 1 := by
  obtain ⟨L, h1, h2, rfl⟩ := h
  have key : ∀ L : List (ℝ × ℝ), (∀ p ∈ L, 0 ≤ p.1 ∧ p.2 ∈ A) →
      0 ≤ (L.map fun p => p.1 • xiTerm p.2).sum 2 + 2 * (L.map fun p => p.1 • xiTerm p.2).sum 0 + (L.map Prod.fst).sum ∧
      0 ≤ (L.map fun p => p.1 • xiTerm p.2).sum 2 - 2 * (L.map fun p => p.1 • xiTerm p.2).sum 0 + (L.map Prod.fst).sum := by
    intro L
    induction L with
    | nil => intro _; simp
    | cons p L ih =>
      intro hp
      obtain ⟨i1, i2⟩ := ih fun q hq => hp q (List.mem_cons_of_mem _ hq)
      obtain ⟨hp1, hp2⟩ := hp p List.mem_cons_self
      obtain ⟨x1, x2⟩ := xiTerm_45 (hA _ hp2)
      simp only [List.map_cons, List.sum_cons, Pi.add_apply, Pi.smul_apply, smul_eq_mul]
      constructor
      · nlinarith [mul_nonneg hp1 x1]
      · nlinarith [mul_nonneg hp1 x2]
  have := key L h1
  rwa [h2] at this

/-- **C56** stacks of plies at multiples of 45 degrees (0, 45, -45, 90) lie in the triangle. -/
theorem C56_stack_triangle (l : Lam) (hs : IsStack l) (hn : NonnegThick l.layup) (hT : 0 < height l.layup)
    (h45 : ∀ p ∈ l.layup, Is45 p.1) :
    ∃ a d : Fin 4 → ℝ, l.xiAread = .ok (fun i => .fin (a i)) ∧ l.xiDread = .ok (fun i => .fin (d i)) ∧
      constraintOk (a 0) (a 2) true = true ∧ constraintOk (d 0) (d 2) true = true := by
  obtain ⟨a, d, h1, h2, ma, md⟩ := xi_mix l hs hn hT
  have hA : ∀ t ∈ l.layup.map Prod.fst, Is45 t := by
    intro t ht
    obtain ⟨p, hp, rfl⟩ := List.mem_map.mp ht
    exact h45 p hp
  refine ⟨a, d, h1, h2, ?_, ?_⟩
  · obtain ⟨g1, g2⟩ := ma.triangle hA
    exact (C56_triangle _ _).mpr ⟨_, _, rfl, rfl, g1, g2⟩
  · obtain ⟨g1, g2⟩ := md.triangle hA
    exact (C56_triangle _ _).mpr ⟨_, _, rfl, rfl, g1, g2⟩

/-- The triangle excludes some real stacks: a 22.5 degree ply (`cos 45, cos 90`) is outside for the sharp constraint. -/
example : constraintOk (Real.sqrt 2 / 2) 0 true = false ∧ constraintOk (Real.sqrt 2 / 2) 0 false = true := by
  have h2 := Real.sq_sqrt (show (0 : ℝ) ≤ 2 by norm_num)
  have h3 : 1 < Real.sqrt 2 := by
    rw [show (1 : ℝ) = Real.sqrt 1 by simp]; exact Real.sqrt_lt_sqrt (by norm_num) (by norm_num)
  constructor
  · rw [Bool.eq_false_iff, Ne, C56_triangle]
    rintro ⟨u, v, h4, h5, h6, h7⟩
    cases h5
    linarith
  · rw [C56_parabola]
    exact ⟨_, rfl, by nlinarith⟩

/-! ## C57 -/

/-- **C57** each warning is issued exactly under its condition, at most once. -/
theorem C57_warnings (Nxx Nyy Nxy : ℝ) :
    (LoadWarning.notCompressive ∈ checkLoads Nxx Nyy Nxy ↔ 0 ≤ Nxx ∧ 0 ≤ Nyy ∧ Nxy = 0) ∧
    (LoadWarning.willBeNormalized ∈ checkLoads Nxx Nyy Nxy ↔ ∃ N ∈ [Nxx, Nyy, Nxy], 1 < |N|) ∧
    (checkLoads Nxx Nyy Nxy).Nodup := by
  unfold checkLoads
  refine ⟨?_, ?_, ?_⟩
  · split_ifs with h1 h2 h2 <;> simp_all
  · split_ifs with h1 h2 h2 <;> simp_all
  · split_ifs <;> decide

/-- **C57** the warnings are issued before anything can fail. -/
theorem C57_always (S : EigSolver) (g : Panel) (T Nxx Nyy Nxy : ℝ) (pen : Bool) (x0 : List ℝ) :
    (maximizeBucklingLoad S g T Nxx Nyy Nxy pen).1 = checkLoads Nxx Nyy Nxy ∧
    (minimizePanelWeight S g Nxx Nyy Nxy x0).1 = checkLoads Nxx Nyy Nxy := ⟨rfl, rfl⟩

/-- Non-vacuity: pure tension above 1 gives both warnings, unit compression none. -/
example : checkLoads 2 0 0 = [.notCompressive, .willBeNormalized] ∧ checkLoads (-1) 0 0 = [] := by
  constructor
  · unfold checkLoads
    rw [if_pos ⟨by norm_num, by norm_num, rfl⟩, if_pos (by norm_num)]; rfl
  · unfold checkLoads
    rw [if_neg (by norm_num), if_neg (by norm_num)]; rfl

/-! ## What `Ncr_from_lp` computes -/

/-- The material of the panel. -/
noncomputable def Spec.panelMat (g : Panel) : Mat := .ortho ⟨g.E1, g.E2, g.v12, g.G12, 0.1, 0, 0, 0, 0, 0⟩

/-- The bending matrix of `LaminateProperty({'xiD': [xi1, 0, xi3, 0], 'T': T}, material)`. -/
noncomputable def Spec.panelD (g : Panel) (T xi1 xi3 : ℝ) : Except PyErr M3 := do
  let l ← Lam.init (.dict ⟨none, none, some (.vec [xi1, 0, xi3, 0]), some (.num T)⟩) (.single (panelMat g))
  l.D

/-- The plate of the panel under given loads. -/
def Spec.panelPlate (g : Panel) (x y s : ℝ) : PlateNum := ⟨g.a, g.b, x, y, s, g.m, g.n⟩

/-- Arguments the constructors accept. -/
def Spec.PanelOk (g : Panel) : Prop :=
  0 < g.E1 ∧ 0 ≤ g.E2 ∧ |g.v12| ≤ 1 / 2 ∧ 0 ≤ g.G12 ∧ 0 ≤ g.a ∧ 0 ≤ g.b ∧ 1 ≤ g.m ∧ 1 ≤ g.n

theorem panel_mat_init (g : Panel) (m : OrthoMat PyFloat) :
    (OrthoMat.args (.num (.fin g.E1)) (.num (.fin g.E2)) (.num (.fin g.v12)) (.num (.fin g.G12)) (.num (.fin 0.1))).init = .ok m ↔
      m = ⟨.fin g.E1, .fin g.E2, .fin g.v12, .fin g.G12, .fin 0.1, .fin 0, .fin 0, .fin 0, .fin 0, .fin 0⟩ ∧
      0 < g.E1 ∧ 0 ≤ g.E2 ∧ |g.v12| ≤ 1 / 2 ∧ 0 ≤ g.G12 := by
  rw [C01_ortho_ok]
  constructor
  · rintro ⟨hc, hr, hz⟩
    obtain ⟨e1, e2, v12, g12, th, t1, c1, t2, c2, s⟩ := m
    simp only [OrthoConverts, OrthoMat.args, PyVal.toFloat, Option.some.injEq] at hc
    obtain ⟨rfl, rfl, rfl, rfl, rfl, rfl, rfl, rfl, rfl, rfl⟩ := hc
    simp only [OrthoRanges, InRange] at hr
    obtain ⟨r1, r2, r3, r4, -⟩ := hr
    refine ⟨rfl, lt_of_le_of_ne r1.1 fun h => hz (by rw [← h]), r2.1, abs_le.mpr ⟨by linarith [r3.1], by linarith [r3.2 _ rfl]⟩, r4.1⟩
  · rintro ⟨rfl, h1, h2, h3, h4⟩
    have h3' := abs_le.mp h3
    refine ⟨by simp [OrthoConverts, OrthoMat.args, PyVal.toFloat], ?_, ?_⟩
    · have nn : ∀ r : ℝ, 0 ≤ r → (0 ≤ r ∧ ∀ h, (none : Option ℝ) = some h → r ≤ h) := fun r hr => ⟨hr, by simp⟩
      exact ⟨nn _ h1.le, nn _ h2, ⟨by linarith [h3'.1], fun h hh => by cases hh; linarith [h3'.2]⟩, nn _ h4, nn _ (by norm_num),
        nn _ le_rfl, nn _ le_rfl, nn _ le_rfl, nn _ le_rfl, nn _ le_rfl⟩
    · intro h
      exact h1.ne' (XF.fin.inj h)

theorem panel_plate_init (g : Panel) (x y s : ℝ) (d : PlateData) :
    (PlateArgs.args true (.num (.fin g.a)) (.num (.fin g.b)) (.num (.fin x)) (.num (.fin y)) (.num (.fin s))
      (.num (.fin g.m)) (.num (.fin g.n))).init = .ok d ↔
      d = ⟨.fin g.a, .fin g.b, .fin x, .fin y, .fin s, g.m, g.n⟩ ∧ 0 ≤ g.a ∧ 0 ≤ g.b ∧ 1 ≤ g.m ∧ 1 ≤ g.n := by
  rw [C03_plate_ok]
  constructor
  · rintro ⟨-, h1, h2, h3, h4, h5, h6, h7⟩
    obtain ⟨a, b, Nxx, Nyy, Nxy, m, n⟩ := d
    simp only [PlateArgs.args, PyVal.toFloat, Option.some.injEq] at h1 h2 h3 h4 h5 h6 h7
    obtain ⟨rfl, r1⟩ := h1
    obtain ⟨rfl, r2⟩ := h2
    subst h3 h4 h5
    obtain ⟨e6, r6⟩ := h6
    obtain ⟨e7, r7⟩ := h7
    have e6' : m = (g.m : ℤ) := by have := XF.fin.inj e6; exact_mod_cast this.symm
    have e7' : n = (g.n : ℤ) := by have := XF.fin.inj e7; exact_mod_cast this.symm
    subst e6' e7'
    exact ⟨rfl, r1.1, r2.1, by omega, by omega⟩
  · rintro ⟨rfl, h1, h2, h3, h4⟩
    simp only [PlateAccepts, PlateArgs.args, PyVal.toFloat, InRange, Int.cast_natCast, true_and]
    refine ⟨⟨h1, by simp⟩, ⟨h2, by simp⟩, by omega, by omega⟩

/-- `Ncr_from_lp` on accepted arguments: the first multiplier of `buckling_analysis()` of the panel. -/
theorem ncr_eq (S : EigSolver) (g : Panel) (hg : PanelOk g) (T xi1 xi3 x y s : ℝ) :
    ncrFromLp S g T xi1 xi3 x y s =
      (bucklingAnalysis S (panelD g T xi1 xi3) g.c (panelPlate g x y s) 5 (.fresh _)).1 >>= fun r => pyIdx r.1 0 := by
  obtain ⟨h1, h2, h3, h4, h5, h6, h7, h8⟩ := hg
  unfold ncrFromLp
  rw [(panel_mat_init g _).mpr ⟨rfl, h1, h2, h3, h4⟩, (panel_plate_init g x y s _).mpr ⟨rfl, h5, h6, h7, h8⟩]
  rfl

/-- `Ncr_from_lp` succeeds only on accepted arguments. -/
theorem ncr_panelOk {S : EigSolver} {g : Panel} {T xi1 xi3 x y s : ℝ} {v : PyFloat}
    (h : ncrFromLp S g T xi1 xi3 x y s = .ok v) : PanelOk g := by
  unfold ncrFromLp at h
  rcases hm : (OrthoMat.args (.num (.fin g.E1)) (.num (.fin g.E2)) (.num (.fin g.v12)) (.num (.fin g.G12)) (.num (.fin 0.1))).init
    with e | m
  · rw [hm] at h; cases h
  obtain ⟨rfl, h1, h2, h3, h4⟩ := (panel_mat_init g m).mp hm
  rcases hp : (PlateArgs.args true (.num (.fin g.a)) (.num (.fin g.b)) (.num (.fin x)) (.num (.fin y)) (.num (.fin s))
      (.num (.fin g.m)) (.num (.fin g.n))).init with e | d
  · rw [hm, hp] at h; cases h
  obtain ⟨rfl, h5, h6, h7, h8⟩ := (panel_plate_init g x y s d).mp hp
  exact ⟨h1, h2, h3, h4, h5, h6, h7, h8⟩

theorem ncr_inv {S : EigSolver} {g : Panel} {T xi1 xi3 x y s : ℝ} {v : PyFloat}
    (h : ncrFromLp S g T xi1 xi3 x y s = .ok v) : PanelOk g ∧
      ∃ vals vecs, (bucklingAnalysis S (panelD g T xi1 xi3) g.c (panelPlate g x y s) 5 (.fresh _)).1 = .ok (vals, vecs) ∧
        vals[0]? = some v := by
  have hg := ncr_panelOk h
  refine ⟨hg, ?_⟩
  rw [ncr_eq S g hg] at h
  rcases hb : (bucklingAnalysis S (panelD g T xi1 xi3) g.c (panelPlate g x y s) 5 (.fresh _)).1 with e | ⟨vals, vecs⟩
  · rw [hb] at h; cases h
  · rw [hb] at h
    refine ⟨vals, vecs, rfl, ?_⟩
    simp only [ok_bind, pyIdx] at h
    split at h
    · cases h; assumption
    · cases h

/-! ## C58 -/

/-- Scaling the loads of the panel. -/
theorem panel_scale {g : Panel} (hg : PanelOk g) {D : Except PyErr M3} {x y s M : ℝ} (hM : 0 < M)
    {K KG' : SqMat (g.m * g.n)} (hK : calcKKGD shipped D g.c (panelPlate g x y s) = .ok (K, KG')) :
    ∃ KG : SqMat (g.m * g.n), calcKKGD shipped D g.c (panelPlate g (M * x) (M * y) (M * s)) = .ok (K, KG) ∧
      ∀ lam, PosMult K KG lam ↔ PosMult K KG' (lam * M) := by
  cases D with
  | error e => simp [calcKKGD] at hK
  | ok D =>
    obtain ⟨KG, h1, h2⟩ := C50_load_scaling D g.c (panelPlate g x y s) M hM.ne' hg.2.2.2.2.2.2.1 hg.2.2.2.2.2.2.2 K KG' hK
    refine ⟨KG, h1, fun lam => ?_⟩
    · unfold PosMult
      refine and_congr ⟨fun h => mul_pos h hM, fun h => (mul_pos_iff_of_pos_right hM).mp h⟩ (exists_congr fun v => ?_)
      have := h2 (lam * M) v
      rw [mul_div_assoc, div_self hM.ne', mul_one] at this
      exact this.symm

/-- A constraint of `scipy` is satisfied at `y`. -/
def Spec.Satisfied (c : NLCon) (y : List ℝ) : Prop :=
  ∃ v, c.f y = .ok v ∧ ((∃ r, v = .fin r ∧ c.lb ≤ r ∧ (c.ub = .pinf ∨ ∃ u, c.ub = .fin u ∧ r ≤ u)) ∨ (v = .pinf ∧ c.ub = .pinf))

/-- The value a point gets is the smallest positive multiplier of its panel (loads `x, y, s`). -/
def Spec.FirstIsCritical (S : EigSolver) (g : Panel) (T xi1 xi3 x y s : ℝ) : Prop :=
  ∀ e, ncrFromLp S g T xi1 xi3 x y s = .ok (.fin e) → ∀ K KG,
    calcKKGD shipped (panelD g T xi1 xi3) g.c (panelPlate g x y s) = .ok (K, KG) → 0 < e →
    ∀ lam, PosMult K KG lam → e ≤ lam

/-- No contract-keeping solver lets `buckling_analysis` report `+inf`. -/
theorem ncr_not_pinf {S : EigSolver} {g : Panel} {T xi1 xi3 x y s : ℝ} : ncrFromLp S g T xi1 xi3 x y s ≠ .ok .pinf := by
  intro h
  obtain ⟨hg, vals, vecs, hb, h0⟩ := ncr_inv h
  obtain ⟨_, _, _, out, _, _, _, _, hv, _, _⟩ := buckling_inv hb
  have : XF.pinf ∈ vals := List.mem_of_getElem? h0
  rw [hv] at this
  obtain ⟨q, -, hq⟩ := List.mem_map.mp this
  unfold npDiv at hq
  by_cases h0 : q.1 = 0
  · rw [if_pos h0] at hq; norm_num at hq; cases hq
  · rw [if_neg h0] at hq; cases hq

/-- **C58** a point that satisfies the critical-load constraint of `minimize_panel_weight` does not buckle under the loads
the caller gave: every positive multiplier is at least 1. -/
theorem C58_no_buckling (S : EigSolver) (g : Panel) (Nxx Nyy Nxy : ℝ) (x0 : List ℝ) (prob : MinProblem)
    (hp : (minimizePanelWeight S g Nxx Nyy Nxy x0).2 = .ok prob) (T xi1 xi3 : ℝ)
    (hsat : ∀ c ∈ prob.cons, Satisfied c [T, xi1, xi3])
    (hfirst : ∀ x y s M, normalizeCriticalLoad Nxx Nyy Nxy = .ok (x, y, s, M) → FirstIsCritical S g T xi1 xi3 x y s) :
    PanelOk g ∧ ∃ K KG, calcKKGD shipped (panelD g T xi1 xi3) g.c (panelPlate g Nxx Nyy Nxy) = .ok (K, KG) ∧
      ∀ lam, PosMult K KG lam → 1 ≤ lam := by
  unfold minimizePanelWeight at hp
  rcases hn : normalizeCriticalLoad Nxx Nyy Nxy with e | ⟨x, y, s, M⟩
  · simp [hn] at hp
  obtain ⟨hM, -, -, ex, ey, es, -⟩ := C55_normalised _ _ _ _ _ _ _ hn
  simp only [hn, ok_bind, pure_eq_ok, Except.ok.injEq] at hp
  subst hp
  obtain ⟨v, hv, hval⟩ := hsat _ List.mem_cons_self
  simp only [minCriticalLoad] at hv
  have hcases : ∃ e, ncrFromLp S g T xi1 xi3 x y s = .ok (.fin e) ∧ M ≤ e := by
    rcases hval with ⟨r, rfl, hr, -⟩ | ⟨rfl, -⟩
    · simp only at hr
      rcases hN : ncrFromLp S g T xi1 xi3 x y s with e | w
      · rw [hN] at hv
        cases e <;> simp [guardedNcr] at hv
        linarith
      · rw [hN] at hv
        simp only [guardedNcr, Except.ok.injEq] at hv
        subst hv
        exact ⟨r, rfl, hr⟩
    · rcases hN : ncrFromLp S g T xi1 xi3 x y s with e | w
      · rw [hN] at hv
        cases e <;> simp [guardedNcr] at hv
      · rw [hN] at hv
        simp only [guardedNcr, Except.ok.injEq] at hv
        subst hv
        exact absurd hN ncr_not_pinf
  obtain ⟨e, hN, hMe⟩ := hcases
  obtain ⟨hg, vals, vecs, hb, -⟩ := ncr_inv hN
  obtain ⟨_, K, KG', _, _, hK, _⟩ := buckling_inv hb
  obtain ⟨KG, h1, h2⟩ := panel_scale hg hM hK
  rw [mul_comm] at ex ey es
  rw [ex, ey, es] at h1
  refine ⟨hg, K, KG, h1, fun lam hl => ?_⟩
  have := hfirst x y s M hn e hN K KG' hK (lt_of_lt_of_le hM hMe) (lam * M) ((h2 lam).mp hl)
  by_contra hlt
  push Not at hlt
  nlinarith

/-- **C58** conversely, a point whose first reported multiplier is the critical one and which carries the caller's loads
satisfies the constraint: the constraint does not reject safe points. -/
theorem C58_safe_accepted (S : EigSolver) (g : Panel) (Nxx Nyy Nxy : ℝ) (x0 : List ℝ) (prob : MinProblem)
    (hp : (minimizePanelWeight S g Nxx Nyy Nxy x0).2 = .ok prob) (T xi1 xi3 : ℝ)
    (K KG : SqMat (g.m * g.n)) (hK : calcKKGD shipped (panelD g T xi1 xi3) g.c (panelPlate g Nxx Nyy Nxy) = .ok (K, KG))
    (hsafe : ∀ lam, PosMult K KG lam → 1 ≤ lam)
    (hfirst : ∀ x y s M, normalizeCriticalLoad Nxx Nyy Nxy = .ok (x, y, s, M) →
      ∃ e, ncrFromLp S g T xi1 xi3 x y s = .ok (.fin e) ∧ PosMult K ((1 / M) • KG) e) :
    ∃ c ∈ prob.cons, Satisfied c [T, xi1, xi3] ∧ c.ub = .pinf := by
  unfold minimizePanelWeight at hp
  rcases hn : normalizeCriticalLoad Nxx Nyy Nxy with e | ⟨x, y, s, M⟩
  · simp [hn] at hp
  obtain ⟨hM, -, -, ex, ey, es, -⟩ := C55_normalised _ _ _ _ _ _ _ hn
  simp only [hn, ok_bind, pure_eq_ok, Except.ok.injEq] at hp
  subst hp
  obtain ⟨e, he, hpos, v, hv0, hv⟩ := hfirst x y s M hn
  refine ⟨_, List.mem_cons_self, ⟨.fin e, by simp [minCriticalLoad, he, guardedNcr], Or.inl ⟨e, rfl, ?_, Or.inl rfl⟩⟩, rfl⟩
  have := hsafe (e / M) ⟨div_pos hpos hM, v, hv0, by
    rw [smul_smul] at hv
    rwa [show e / M = e * (1 / M) by ring]⟩
  rw [le_div_iff₀ hM] at this
  simpa using this

/-- **C58** the objective is `T**3`, strictly increasing in `T`; it ignores the other variables. -/
theorem C58_objective (S : EigSolver) (g : Panel) (Nxx Nyy Nxy : ℝ) (x0 : List ℝ) (prob : MinProblem)
    (hp : (minimizePanelWeight S g Nxx Nyy Nxy x0).2 = .ok prob) (T1 T2 : ℝ) (r1 r2 : List ℝ) :
    ∃ u v, prob.obj (T1 :: r1) = .ok (.fin u) ∧ prob.obj (T2 :: r2) = .ok (.fin v) ∧ (u < v ↔ T1 < T2) ∧ (u = v ↔ T1 = T2) := by
  unfold minimizePanelWeight at hp
  rcases hn : normalizeCriticalLoad Nxx Nyy Nxy with e | ⟨x, y, s, M⟩
  · simp [hn] at hp
  simp only [hn, ok_bind, pure_eq_ok, Except.ok.injEq] at hp
  subst hp
  have hodd : StrictMono fun t : ℝ => t ^ 3 := Odd.strictMono_pow (by decide)
  exact ⟨T1 ^ 3, T2 ^ 3, rfl, rfl, hodd.lt_iff_lt, hodd.injective.eq_iff⟩

/-- **C58** the box of `minimize_panel_weight` is `0.001 <= T <= 1000000`, `-1 <= xi1 <= 1`, `-1 <= xi3 <= 1` and the search
starts at the caller's `x0`; inside the box every candidate has positive thickness and the objective is at least `1e-9`. -/
theorem C58_box (S : EigSolver) (g : Panel) (Nxx Nyy Nxy : ℝ) (x0 : List ℝ) (prob : MinProblem)
    (hp : (minimizePanelWeight S g Nxx Nyy Nxy x0).2 = .ok prob) :
    prob.x0 = x0 ∧ prob.bounds = [(1 / 1000, 10 ^ 6), (-1, 1), (-1, 1)] ∧
    ∀ T xi1 xi3 : ℝ, List.Forall₂ (fun (b : ℝ × ℝ) v => b.1 ≤ v ∧ v ≤ b.2) prob.bounds [T, xi1, xi3] →
      0 < T ∧ |xi1| ≤ 1 ∧ |xi3| ≤ 1 ∧ ∃ u, prob.obj [T, xi1, xi3] = .ok (.fin u) ∧ 1 / 10 ^ 9 ≤ u := by
  unfold minimizePanelWeight at hp
  rcases hn : normalizeCriticalLoad Nxx Nyy Nxy with e | ⟨x, y, s, M⟩
  · simp [hn] at hp
  simp only [hn, ok_bind, pure_eq_ok, Except.ok.injEq] at hp
  subst hp
  refine ⟨rfl, by norm_num, fun T xi1 xi3 h => ?_⟩
  simp only [List.forall₂_cons, List.Forall₂.nil, and_true] at h
  obtain ⟨⟨h1, -⟩, h2, h3⟩ := h
  have hT : (1 / 1000 : ℝ) ≤ T := by norm_num at h1 ⊢; exact h1
  refine ⟨by linarith, abs_le.mpr h2, abs_le.mpr h3, T ^ 3, rfl, ?_⟩
  calc (1 / 10 ^ 9 : ℝ) = (1 / 1000) ^ 3 := by norm_num
    _ ≤ T ^ 3 := pow_le_pow_left₀ (by norm_num) hT 3

theorem panelD_scale (g : Panel) (T xi1 xi3 : ℝ) (D1 : M3) (h : panelD g 1 xi1 xi3 = .ok D1) :
    panelD g T xi1 xi3 = .ok (T ^ 3 • D1) := by
  unfold panelD at h ⊢
  simp only [Lam.init, ok_bind, Lam.D] at h ⊢
  unfold lpD at h ⊢
  rcases hU : (Plies.single (panelMat g)).invariants with e | U
  · rw [hU] at h; cases h
  · rw [hU] at h
    simp only [ok_bind, LPVal.unpack4, LPVal.asNum, pure_eq_ok, Option.getD_some, Except.ok.injEq] at h ⊢
    subst h
    ext i j
    fin_cases i <;> fin_cases j <;> simp <;> ring

/-- **C58** buckling multipliers grow with the cube of the thickness; the modes stay the same. -/
theorem C58_thickness_scaling (g : Panel) (hg : PanelOk g) (T xi1 xi3 x y s : ℝ) (hT : 0 < T)
    (K1 KG : SqMat (g.m * g.n)) (h : calcKKGD shipped (panelD g 1 xi1 xi3) g.c (panelPlate g x y s) = .ok (K1, KG)) :
    ∃ KT : SqMat (g.m * g.n), calcKKGD shipped (panelD g T xi1 xi3) g.c (panelPlate g x y s) = .ok (KT, KG) ∧
      ∀ lam v, Buckles K1 KG lam v ↔ Buckles KT KG (T ^ 3 * lam) v := by
  rcases hD : panelD g 1 xi1 xi3 with e | D1
  · rw [hD] at h; simp [calcKKGD] at h
  · rw [hD] at h
    rw [panelD_scale g T xi1 xi3 D1 hD]
    exact C50_stiffness_scaling D1 g.c (panelPlate g x y s) (T ^ 3) (by positivity) hg.2.2.2.2.2.2.1 hg.2.2.2.2.2.2.2 K1 KG h

/-- The hypothesis of C58 holds if the solver keeps its contract, returns the pairs in Cayley order, and every positive
multiplier under the normalised loads is at least 1. -/
theorem first_is_critical (S : EigSolver) (g : Panel) (T xi1 xi3 x y s : ℝ) (K KG : SqMat (g.m * g.n))
    (hK : calcKKGD shipped (panelD g T xi1 xi3) g.c (panelPlate g x y s) = .ok (K, KG)) (hS : Honest S KG K)
    (hsort : ∀ k out, S _ KG K k = .ok out → CayleySorted out) (h1 : ∀ lam, PosMult K KG lam → 1 ≤ lam) :
    FirstIsCritical S g T xi1 xi3 x y s := by
  intro e he K' KG' hK' hpos lam hl
  rw [hK] at hK'
  obtain ⟨rfl, rfl⟩ := Prod.mk.inj (Except.ok.inj hK')
  obtain ⟨hg, vals, vecs, hb, h0⟩ := ncr_inv he
  obtain ⟨_, K', KG', out, _, hK', _, hout, hv, _, _⟩ := buckling_inv hb
  rw [hK] at hK'
  obtain ⟨rfl, rfl⟩ := Prod.mk.inj (Except.ok.inj hK')
  have hc := hS _ _ hout
  have hso := hsort _ _ hout
  cases out with
  | nil => rw [hv] at h0; cases h0
  | cons q rest =>
    rw [hv] at h0
    simp only [List.map_cons, List.getElem?_cons_zero, Option.some.injEq] at h0
    have hq : e ≠ 0 ∧ q.1 = -1 / e := by
      obtain ⟨a, q', hq', b⟩ := reported_iff.mp (show XF.fin e ∈ [q].map (fun q => npDiv (-1) q.1) by simp [h0])
      simp only [List.mem_singleton] at hq'
      exact ⟨a, by rw [← hq']; exact b⟩
    have hlam := h1 lam hl
    have he1 := h1 e ⟨hpos, q.2, (buckles_pencil hq.1).mpr ⟨(hc.pair q List.mem_cons_self).1, by
      rw [← hq.2]; exact (hc.pair q List.mem_cons_self).2⟩⟩
    obtain ⟨hlpos, v, hv⟩ := hl
    obtain ⟨hv0, hp⟩ := (buckles_pencil hlpos.ne').mp hv
    have hkey : |q.1 + 1| * |-1 / lam - 1| ≤ |-1 / lam + 1| * |q.1 - 1| := by
      by_cases hin : ∃ q' ∈ q :: rest, q'.1 = -1 / lam
      · obtain ⟨q', hq', e'⟩ := hin
        rcases List.mem_cons.mp hq' with rfl | hr
        · rw [e', mul_comm]
        · have := (List.pairwise_cons.mp hso).1 q' hr
          rw [e'] at this
          exact this
      · push Not at hin
        exact hc.best _ v hv0 hp hin q List.mem_cons_self
    rw [hq.2] at hkey
    obtain ⟨k1, k2⟩ := cayley_key hlpos.ne'
    obtain ⟨m1, m2⟩ := cayley_key hq.1
    have hb2 : |e - 1| * |lam + 1| ≤ |lam - 1| * |e + 1| := by
      rw [← k1, ← k2, ← m1, ← m2]
      have := mul_le_mul_of_nonneg_right hkey (mul_nonneg (abs_nonneg lam) (abs_nonneg e))
      nlinarith [this]
    rw [abs_of_nonneg (by linarith : 0 ≤ e - 1), abs_of_nonneg (by linarith : 0 ≤ lam - 1),
      abs_of_pos (by linarith : 0 < lam + 1), abs_of_pos (by linarith : 0 < e + 1)] at hb2
    nlinarith

/-- A clamped square panel with `E1 = E2 = 24`, `G12 = 12`. -/
noncomputable def demoPanel : Panel := ⟨1, 1, 24, 24, 0, 12, 2, 2, .str wCLAMPED⟩

theorem demoPanel_ok : PanelOk demoPanel := by
  norm_num [PanelOk, demoPanel]

theorem demoPanel_D : panelD demoPanel 1 0 0 = .ok (demoD 2 1) := by
  have hQ : (Plies.single (panelMat demoPanel)).invariants = .ok ⟨24, 0, 0, 0, 12⟩ := by
    norm_num [Plies.invariants, panelMat, demoPanel, Mat.invariants, OrthoMat.invariants, OrthoMat.Q0, OrthoMat.v21, pyDiv, invariantsOf]
    refine ⟨?_, ?_, ?_⟩ <;> simp <;> norm_num
  unfold panelD
  simp only [Lam.init, ok_bind, Lam.D, lpD, hQ, LPVal.unpack4, LPVal.asNum, pure_eq_ok, Option.getD_some, Except.ok.injEq]
  ext i j
  fin_cases i <;> fin_cases j <;> norm_num [demoD]

/-- Non-vacuity of C58: for the clamped panel `T = 1, xi1 = xi3 = 0` under the load `(-2, 0, 0)` there is a solver for which all
hypotheses of `C58_no_buckling` hold. -/
example : ∃ (S : EigSolver) (prob : MinProblem), (minimizePanelWeight S demoPanel (-2) 0 0).2 = .ok prob ∧
    (∀ c ∈ prob.cons, Satisfied c [1, 0, 0]) ∧
    (∀ x y s M, normalizeCriticalLoad (-2) 0 0 = .ok (x, y, s, M) → FirstIsCritical S demoPanel 1 0 0 x y s) := by
  have hn : normalizeCriticalLoad (-2) 0 0 = .ok (-1, 0, 0, 2) := by
    have : max |(-2 : ℝ)| (max |0| |0|) = 2 := by norm_num
    have h := normalize_eq (-2) 0 0 (by rw [this]; norm_num)
    simp only [this] at h
    rw [h]; norm_num
  obtain ⟨K, KG, hK, hpd, hsym, hm, hpos, hinj⟩ := demo_matrices 2 1 1 (by norm_num) one_pos one_pos
  obtain ⟨S, hS⟩ := exists_honest
  obtain ⟨hon, hsort, hrun⟩ := hS _ KG K hsym hpd
  have hK' : calcKKGD shipped (panelD demoPanel 1 0 0) demoPanel.c (panelPlate demoPanel (-1) 0 0) = .ok (K, KG) := by
    rw [demoPanel_D]; exact hK
  have h1 : ∀ lam, PosMult K KG lam → 216 ≤ lam := by
    intro lam h
    obtain ⟨r, rfl⟩ := (hm lam).mp h
    fin_cases r <;> norm_num [demoLoads]
  obtain ⟨out, hout⟩ := hrun 2 (by norm_num)
  have hc := hon _ _ hout
  cases out with
  | nil => cases hc.len
  | cons q rest =>
  obtain ⟨hq0, hqp⟩ := hc.pair q List.mem_cons_self
  have hw : q.1 ≠ 0 := fun h => hq0 (hinj _ (by rw [hqp, h, zero_smul]))
  have hbk : Buckles K KG (-1 / q.1) q.2 :=
    (buckles_pencil (div_ne_zero (by norm_num) hw)).mpr ⟨hq0, by rw [hqp]; congr 1; field_simp⟩
  have hncr : ncrFromLp S demoPanel 1 0 0 (-1) 0 0 = .ok (.fin (-1 / q.1)) := by
    obtain ⟨sx, hs, -⟩ := clamped_idx 2 2
    have hs' : computeIdx demoPanel.c (panelPlate demoPanel (-1) 0 0).m (panelPlate demoPanel (-1) 0 0).n = .ok sx := hs
    have hk : min (5 : ℤ) (((panelPlate demoPanel (-1) 0 0).m * (panelPlate demoPanel (-1) 0 0).n : ℕ) - 2 : ℤ) = 2 := by
      norm_num [panelPlate, demoPanel]
    have hout' : S ((panelPlate demoPanel (-1) 0 0).m * (panelPlate demoPanel (-1) 0 0).n) KG K 2 = .ok (q :: rest) := hout
    rw [ncr_eq S demoPanel demoPanel_ok]
    rw [demoPanel_D] at hK' ⊢
    unfold bucklingAnalysis
    simp only [hs', hK', hk, eigshCall]
    rw [if_neg (by norm_num), show (2 : ℤ).toNat = 2 from rfl, hout']
    show Except.ok (npDiv (-1) q.1) = _
    simp [npDiv, hw]
  have hge := h1 _ ⟨hpos _ _ hbk, _, hbk⟩
  refine ⟨S, _, by simp only [minimizePanelWeight, hn]; rfl, ?_, ?_⟩
  · intro c hcm
    simp only [List.mem_cons, List.not_mem_nil, or_false] at hcm
    rcases hcm with rfl | rfl | rfl
    · exact ⟨.fin (-1 / q.1), by simp only [minCriticalLoad, hncr, guardedNcr], Or.inl ⟨_, rfl, by simp only; linarith, Or.inl rfl⟩⟩
    · exact ⟨.fin 1, by simp [penaltyG1, unpackXi]; rfl, Or.inl ⟨1, rfl, by norm_num, Or.inr ⟨_, rfl, by norm_num⟩⟩⟩
    · exact ⟨.fin 1, by simp [penaltyG2, unpackXi]; rfl, Or.inl ⟨1, rfl, by norm_num, Or.inr ⟨_, rfl, by norm_num⟩⟩⟩
  · intro x y s M hxy
    rw [hn] at hxy
    simp only [Except.ok.injEq, Prod.mk.injEq] at hxy
    obtain ⟨rfl, rfl, rfl, rfl⟩ := hxy
    exact first_is_critical S demoPanel 1 0 0 (-1) 0 0 K KG hK' hon hsort fun lam h => by linarith [h1 lam h]

/-! ## C59 -/

/-- **C59** the objective of `maximize_buckling_load` at `(xi1, xi3)`: minus the first multiplier of the panel under the
normalised loads; `+1` after an `ArpackError`; any other exception passes through. -/
theorem C59_objective (S : EigSolver) (g : Panel) (T Nxx Nyy Nxy : ℝ) (pen : Bool) (prob : MinProblem)
    (hp : (maximizeBucklingLoad S g T Nxx Nyy Nxy pen).2 = .ok prob) (xi1 xi3 : ℝ) :
    ∃ x y s M, normalizeCriticalLoad Nxx Nyy Nxy = .ok (x, y, s, M) ∧
      (∀ e, ncrFromLp S g T xi1 xi3 x y s = .ok (.fin e) → prob.obj [xi1, xi3] = .ok (.fin (-e))) ∧
      (ncrFromLp S g T xi1 xi3 x y s = .error .arpackError → prob.obj [xi1, xi3] = .ok (.fin 1)) ∧
      (∀ e, e ≠ .arpackError → ncrFromLp S g T xi1 xi3 x y s = .error e → prob.obj [xi1, xi3] = .error e) := by
  unfold maximizeBucklingLoad at hp
  rcases hn : normalizeCriticalLoad Nxx Nyy Nxy with e | ⟨x, y, s, M⟩
  · simp [hn] at hp
  simp only [hn, ok_bind, pure_eq_ok, Except.ok.injEq] at hp
  subst hp
  refine ⟨x, y, s, M, rfl, ?_, ?_, ?_⟩
  · intro e h
    simp [maxCriticalLoad, h, guardedNcr, negF]
  · intro h
    simp [maxCriticalLoad, h, guardedNcr, negF]
  · intro e he h
    simp only [maxCriticalLoad, h]
    cases e <;> first | rfl | exact absurd rfl he

/-- **C59** a smaller objective is a larger multiplier. -/
theorem C59_minimising_maximises (S : EigSolver) (g : Panel) (T Nxx Nyy Nxy : ℝ) (pen : Bool) (prob : MinProblem)
    (hp : (maximizeBucklingLoad S g T Nxx Nyy Nxy pen).2 = .ok prob) (p q p' q' x y s M e e' : ℝ)
    (hn : normalizeCriticalLoad Nxx Nyy Nxy = .ok (x, y, s, M))
    (h : ncrFromLp S g T p q x y s = .ok (.fin e)) (h' : ncrFromLp S g T p' q' x y s = .ok (.fin e')) :
    ∃ o o', prob.obj [p, q] = .ok (.fin o) ∧ prob.obj [p', q'] = .ok (.fin o') ∧ (o ≤ o' ↔ e' ≤ e) := by
  obtain ⟨x1, y1, s1, M1, hn1, h1, -⟩ := C59_objective S g T Nxx Nyy Nxy pen prob hp p q
  obtain ⟨x2, y2, s2, M2, hn2, h2, -⟩ := C59_objective S g T Nxx Nyy Nxy pen prob hp p' q'
  rw [hn] at hn1 hn2
  cases hn1; cases hn2
  exact ⟨-e, -e', h1 e h, h2 e' h', neg_le_neg_iff⟩

/-- A point lies within the bounds. -/
def Spec.InBounds (b : List (ℝ × ℝ)) (y : List ℝ) : Prop := List.Forall₂ (fun b t => b.1 ≤ t ∧ t ≤ b.2) b y

/-- **C59** start point: within the bounds and satisfying all constraints, for both choices of the constraint. -/
theorem C59_start_feasible (S : EigSolver) (g : Panel) (T Nxx Nyy Nxy : ℝ) (pen : Bool) (prob : MinProblem)
    (hp : (maximizeBucklingLoad S g T Nxx Nyy Nxy pen).2 = .ok prob) :
    InBounds prob.bounds prob.x0 ∧ ∀ c ∈ prob.cons, Satisfied c prob.x0 := by
  unfold maximizeBucklingLoad at hp
  rcases hn : normalizeCriticalLoad Nxx Nyy Nxy with e | ⟨x, y, s, M⟩
  · simp [hn] at hp
  simp only [hn, ok_bind, pure_eq_ok, Except.ok.injEq] at hp
  subst hp
  refine ⟨by simp [InBounds], ?_⟩
  cases pen
  · intro c hc
    simp only [Bool.false_eq_true, if_false, List.mem_singleton] at hc
    subst hc
    exact ⟨.fin 1, by simp [naturalConstraintG, unpackXi]; rfl, Or.inl ⟨1, rfl, by norm_num, Or.inr ⟨_, rfl, by norm_num⟩⟩⟩
  · intro c hc
    simp only [if_true, List.mem_cons, List.not_mem_nil, or_false] at hc
    rcases hc with rfl | rfl
    · exact ⟨.fin 1, by simp [penaltyG1, unpackXi]; rfl, Or.inl ⟨1, rfl, by norm_num, Or.inr ⟨_, rfl, by norm_num⟩⟩⟩
    · exact ⟨.fin 1, by simp [penaltyG2, unpackXi]; rfl, Or.inl ⟨1, rfl, by norm_num, Or.inr ⟨_, rfl, by norm_num⟩⟩⟩

/-- **C59** within the bounds the constraint set is the (slightly enlarged) triangle or natural region: the upper limit 10000
is never active. -/
theorem C59_feasible_set (S : EigSolver) (g : Panel) (T Nxx Nyy Nxy : ℝ) (pen : Bool) (prob : MinProblem)
    (hp : (maximizeBucklingLoad S g T Nxx Nyy Nxy pen).2 = .ok prob) (xi1 xi3 : ℝ) (hb : InBounds prob.bounds [xi1, xi3]) :
    (∀ c ∈ prob.cons, Satisfied c [xi1, xi3]) ↔
      if pen then -0.0001 ≤ xi3 + 2 * xi1 + 1 ∧ -0.0001 ≤ xi3 - 2 * xi1 + 1 else -0.0001 ≤ xi3 - 2 * xi1 ^ 2 + 1 := by
  unfold maximizeBucklingLoad at hp
  rcases hn : normalizeCriticalLoad Nxx Nyy Nxy with e | ⟨x, y, s, M⟩
  · simp [hn] at hp
  simp only [hn, ok_bind, pure_eq_ok, Except.ok.injEq] at hp
  subst hp
  simp only [InBounds, List.forall₂_cons, List.Forall₂.nil, and_true] at hb
  obtain ⟨⟨a1, a2⟩, a3, a4⟩ := hb
  have key : ∀ (f : List ℝ → Except PyErr ℝ) (r : ℝ), f [xi1, xi3] = .ok r → r ≤ 10000 →
      (Satisfied ⟨fun v => (f v).map .fin, -0.0001, .fin 10000⟩ [xi1, xi3] ↔ -0.0001 ≤ r) := by
    intro f r hf hr
    constructor
    · rintro ⟨v, hv, ⟨t, rfl, ht, -⟩ | ⟨-, hh⟩⟩
      · simp only [hf] at hv
        cases hv
        exact ht
      · cases hh
    · intro h
      exact ⟨.fin r, by simp only [hf]; rfl, Or.inl ⟨r, rfl, h, Or.inr ⟨_, rfl, hr⟩⟩⟩
  cases pen
  · simp only [Bool.false_eq_true, if_false, List.forall_mem_singleton]
    exact key naturalConstraintG _ rfl (by nlinarith)
  · simp only [if_true, List.forall_mem_cons, List.not_mem_nil, false_imp_iff, implies_true, and_true]
    exact and_congr (key penaltyG1 _ rfl (by linarith)) (key penaltyG2 _ rfl (by linarith))

/-- **C59** the default start point of `minimize_panel_weight` is within the bounds and satisfies the lamination-parameter
constraints. -/
theorem C59_weight_start (S : EigSolver) (g : Panel) (Nxx Nyy Nxy : ℝ) (prob : MinProblem)
    (hp : (minimizePanelWeight S g Nxx Nyy Nxy).2 = .ok prob) :
    InBounds prob.bounds prob.x0 ∧ ∀ c ∈ prob.cons, c.ub ≠ .pinf → Satisfied c prob.x0 := by
  unfold minimizePanelWeight at hp
  rcases hn : normalizeCriticalLoad Nxx Nyy Nxy with e | ⟨x, y, s, M⟩
  · simp [hn] at hp
  simp only [hn, ok_bind, pure_eq_ok, Except.ok.injEq] at hp
  subst hp
  refine ⟨by simp [InBounds]; norm_num, ?_⟩
  intro c hc hub
  simp only [List.mem_cons, List.not_mem_nil, or_false] at hc
  rcases hc with rfl | rfl | rfl
  · exact absurd rfl hub
  · exact ⟨.fin 1, by simp [penaltyG1, unpackXi]; rfl, Or.inl ⟨1, rfl, by norm_num, Or.inr ⟨_, rfl, by norm_num⟩⟩⟩
  · exact ⟨.fin 1, by simp [penaltyG2, unpackXi]; rfl, Or.inl ⟨1, rfl, by norm_num, Or.inr ⟨_, rfl, by norm_num⟩⟩⟩

end Composipy
