import Verif.Model.Theoretical
import Verif.Props.TestLoads

/-!
# C116: the scripts in `theoretical`
-/

namespace Composipy
open Spec Polynomial Matrix

/-- The factor of function number `i`. -/
def Spec.flagOf {R : Type} [One R] (t1 r1 t2 r2 : R) : ℕ → R
  | 0 => t1
  | 1 => r1
  | 2 => t2
  | 3 => r2
  | _ => 1

/-- **C116** `write_bardell_terms.py`: the dictionary has the keys 0 to 9 in order, and under each key the shape function of that number times its flag. -/
theorem C116_terms {R : Type} [CommRing R] [Algebra ℚ R] (t1 r1 t2 r2 : R) :
    bardellTerms t1 r1 t2 r2 = (List.range 10).map fun i => (i, C (flagOf t1 r1 t2 r2 i) * (bardell i).map (algebraMap ℚ R)) := by
  have h1 : List.range 10 = [0, 1, 2, 3] ++ List.range' 4 (10 - 4) := rfl
  rw [h1, List.map_append, bardellTerms]
  congr 1
  refine List.map_congr_left fun i hi => ?_
  have h4 : 4 ≤ i := (List.mem_range'_1.mp hi).1
  obtain ⟨j, rfl⟩ := Nat.exists_eq_add_of_le' h4
  simp only [flagOf, C_1, one_mul, bardell]

theorem terms_real (t1 r1 t2 r2 : ℝ) : bardellTerms t1 r1 t2 r2 = (List.range 10).map fun i => (i, C (flagOf t1 r1 t2 r2 i) * shape i) := by
  rw [C116_terms]
  rfl

/-- The displacement with the given amplitudes of the functions of a dictionary. -/
noncomputable def Spec.termCombine (f : List (ℕ × ℝ[X])) (c : ℕ → ℝ) : ℝ[X] := (f.map fun p => C (c p.1) * p.2).sum

/-- **C116** the flags hold the edges: a displacement made of the functions of the dictionary has, at the two ends, the displacements and slopes
`t1 c0`, `t2 c2`, `r1 c1 / 2` and `r2 c3 / 2`. -/
theorem C116_edges (t1 r1 t2 r2 : ℝ) (c : ℕ → ℝ) :
    let f := termCombine (bardellTerms t1 r1 t2 r2) c
    f.eval (-1) = t1 * c 0 ∧ f.eval 1 = t2 * c 2 ∧ (derivative f).eval (-1) = r1 * c 1 / 2 ∧ (derivative f).eval 1 = r2 * c 3 / 2 := by
  obtain ⟨⟨a1, a2, a3, a4⟩, ⟨b1, b2, b3, b4⟩, ⟨c1, c2, c3, c4⟩, ⟨d1, d2, d3, d4⟩⟩ := C45_low_values
  obtain ⟨e4, f4, g4, h4⟩ := C45_bubble 4 (by norm_num)
  obtain ⟨e5, f5, g5, h5⟩ := C45_bubble 5 (by norm_num)
  obtain ⟨e6, f6, g6, h6⟩ := C45_bubble 6 (by norm_num)
  obtain ⟨e7, f7, g7, h7⟩ := C45_bubble 7 (by norm_num)
  obtain ⟨e8, f8, g8, h8⟩ := C45_bubble 8 (by norm_num)
  obtain ⟨e9, f9, g9, h9⟩ := C45_bubble 9 (by norm_num)
  simp only [terms_real, termCombine, List.range_succ, List.range_zero, List.nil_append, List.cons_append, List.map_cons, List.map_nil, List.sum_cons, List.sum_nil, eval_add,
    eval_mul, eval_C, derivative_add, derivative_C_mul, derivative_zero, eval_zero, flagOf, *]
  refine ⟨?_, ?_, ?_, ?_⟩ <;> ring

theorem shape_ne_zero (i : ℕ) : shape i ≠ 0 := by
  intro h
  obtain ⟨⟨a1, -⟩, ⟨-, -, b3, -⟩, ⟨-, c2, -⟩, ⟨-, -, -, d4⟩⟩ := C45_low_values
  match i, h with
  | 0, h => rw [h] at a1; norm_num at a1
  | 1, h => rw [h] at b3; norm_num at b3
  | 2, h => rw [h] at c2; norm_num at c2
  | 3, h => rw [h] at d4; norm_num at d4
  | i + 4, h =>
    have := C45_orthogonal (i + 4) (i + 4) (by omega) (by omega)
    rw [h, if_pos rfl] at this
    simp [pint] at this
    have h2 : (0 : ℝ) ≤ i := Nat.cast_nonneg i
    have h3 : (0 : ℝ) < 2 / (2 * (i + 4) - 3) := div_pos two_pos (by linarith)
    linarith

/-- A flag that is zero where the edge is held. -/
noncomputable def Spec.flagIf (held : Bool) : ℝ := if held then 0 else 1

/-- The function of a dictionary under a key does not vanish. -/
def Spec.Present (f : List (ℕ × ℝ[X])) (i : ℕ) : Prop := ∃ q, (i, q) ∈ f ∧ q ≠ 0

theorem present_iff (t0 r0 t1 r1 : Bool) (i : ℕ) :
    Present (bardellTerms (flagIf t0) (flagIf r0) (flagIf t1) (flagIf r1)) i ↔ i < 10 ∧ Kept (t0 = true) (r0 = true) (t1 = true) (r1 = true) i := by
  have h : ∀ x : ℝ, C x * shape i ≠ 0 ↔ x ≠ 0 := fun x => by simp [shape_ne_zero]
  have key : flagOf (flagIf t0) (flagIf r0) (flagIf t1) (flagIf r1) i ≠ 0 ↔ Kept (t0 = true) (r0 = true) (t1 = true) (r1 = true) i := by
    match i with
    | 0 => cases t0 <;> simp [flagOf, flagIf, Kept]
    | 1 => cases r0 <;> simp [flagOf, flagIf, Kept]
    | 2 => cases t1 <;> simp [flagOf, flagIf, Kept]
    | 3 => cases r1 <;> simp [flagOf, flagIf, Kept]
    | i + 4 => simp [flagOf, Kept]
  rw [terms_real, ← key, ← h]
  constructor
  · rintro ⟨q, hq, h0⟩
    obtain ⟨j, hj, he⟩ := List.mem_map.mp hq
    cases he
    exact ⟨List.mem_range.mp hj, h0⟩
  · rintro ⟨h1, h2⟩
    exact ⟨_, List.mem_map.mpr ⟨i, List.mem_range.mpr h1, rfl⟩, h2⟩

/-- **C116** the plate uses the functions of the script: with up to six terms, the deflection functions chosen by `_compute_constraints` in x are the first `m` of the
dictionary that do not vanish when the flags of the held edge motions are zero and the others one; in y the same with the flags read there. -/
theorem C116_selected (cs : Constraints) (m n : ℕ) (hm : m ≤ 6) (hn : n ≤ 6) (s : ShapeIdx) (hs : computeIdx cs m n = .ok s) :
    ∃ e xs ys, chooseEdges cs = .ok e ∧ s.w = xs.product ys ∧
      IsFirst m (Present (bardellTerms (flagIf (e.x0.has TZ)) (flagIf (e.x0.has RZ)) (flagIf (e.xa.has TZ)) (flagIf (e.xa.has RZ)))) xs ∧
      IsFirst n (Present (bardellTerms (flagIf (e.y0.has TX)) (flagIf (e.y0.has RX)) (flagIf (e.yb.has TX)) (flagIf (e.yb.has RX)))) ys := by
  obtain ⟨e, xs, ys, he, hw, hx, hy⟩ := w_lists hs
  have key : ∀ (t0 r0 t1 r1 : Bool) (k : ℕ) (l : List ℕ), k ≤ 6 → IsFirst k (Kept (t0 = true) (r0 = true) (t1 = true) (r1 = true)) l →
      IsFirst k (Present (bardellTerms (flagIf t0) (flagIf r0) (flagIf t1) (flagIf r1))) l := by
    intro t0 r0 t1 r1 k l hk h
    obtain rfl := h.unique (keptList_isFirst t0 r0 t1 r1 k)
    refine ⟨h.len, h.sorted, fun i hi => ?_, fun i hi j hj hp => h.complete i hi j hj ((present_iff _ _ _ _ _).mp hp).2⟩
    have hi' : i ∈ List.range (k + 4) := List.mem_of_mem_filter (List.mem_of_mem_take hi)
    have := List.mem_range.mp hi'
    exact (present_iff _ _ _ _ _).mpr ⟨by omega, h.sound i hi⟩
  exact ⟨e, xs, ys, he, hw, key _ _ _ _ m xs hm hx, key _ _ _ _ n ys hn hy⟩

/-- Non-vacuity for C116_selected: a pinned plate with six terms; the functions 0 and 2 are missing. -/
example : ∃ s, computeIdx (.str wPINNED) 6 6 = .ok s ∧ s.w = [1, 3, 4, 5, 6, 7].product [1, 3, 4, 5, 6, 7] := by
  refine ⟨_, rfl, ?_⟩
  decide +kernel

/-! ## LP_test_composipy.py -/

/-- The laminate of the script in exact numbers. -/
def scriptPlies : List ExactPly :=
  ((List.replicate 25 [1, -1]).flatten ++ (List.replicate 25 [1, -1]).flatten.reverse).map fun k => (k, mat 60000 7000 (3/10) 400 (1/100))

theorem scriptPlies_box : Box ((exactD scriptPlies).map ((↑) : ℚ → ℝ)) 1532.4 1532.5 1465.7 33.5 1322.2 1322.3 := by
  have := box_of scriptPlies (d := 15324 / 10) (d' := 15325 / 10) (c := 14657 / 10) (e := 335 / 10) (g := 13222 / 10) (g' := 13223 / 10) (by decide +kernel)
  norm_num at this ⊢
  exact this

/-- **C116** `LP_test_composipy.py`: the laminate and the plate are built, and for every solver that keeps the contract of `eigsh` and returns the pairs in
Cayley order the first printed value is between 2.69 and 2.79. -/
theorem C116_script (S : EigSolver) :
    let p : PlateNum := ⟨200, 200, -1, 0, 0, 10, 10⟩
    ∃ l K KG, Lam.init (.angles scriptStack) (.single (Spec.realMat (mat 60000 7000 (3/10) 400 (1/100)))) = .ok l ∧
    calcKKGD shipped l.D (.str wPINNED) p = .ok (K, KG) ∧ K.PosDef ∧ KG.IsSymm ∧
    (Honest S KG K → (∀ k out, S _ KG K k = .ok out → CayleySorted out) → ∀ numEig st vals vecs,
      (bucklingAnalysis S l.D (.str wPINNED) p numEig st).1 = .ok (vals, vecs) →
      ∃ lam : ℝ, vals[0]? = some (.fin lam) ∧ 2.69 ≤ lam ∧ lam ≤ 2.79) := by
  intro p
  obtain ⟨l, hl, hs, hlay⟩ := (C101_built ((List.replicate 25 [1, -1]).flatten ++ (List.replicate 25 [1, -1]).flatten.reverse)
    (mat 60000 7000 (3/10) 400 (1/100)) []).1
  have hp : ∀ p ∈ scriptPlies, poisson p.2 ≠ 0 := fun p hp => by
    obtain ⟨k, -, rfl⟩ := List.mem_map.mp hp
    norm_num [poisson, mat]
  have hD := ((C101_stiffness l hs scriptPlies (by rw [scriptPlies]; exact hlay)).1 hp).2.2
  have hbox := scriptPlies_box
  set D : M3 := (exactD scriptPlies).map (↑)
  obtain ⟨K, KG, hK⟩ := runs_ten D p (by norm_num [p]) (by norm_num [p]) rfl rfl wPINNED (.inl rfl)
  have hbt : Between D 30 2000 := hbox.between (by norm_num) (by norm_num) (by norm_num) (by norm_num) (by norm_num) (by norm_num)
    (by norm_num) (by norm_num)
  have hacc : tableAcc p.m p.n = 3e-9 := by simp [tableAcc, p]
  have herr : bendErr p 30 2000 = 6e-7 := by rw [bendErr, hacc]; norm_num
  have hpd := C100_posDef D _ _ hbt (.str wPINNED) p (by norm_num [p]) (by norm_num [p]) (by norm_num [p]) (by norm_num [p]) _ rfl
    ⟨by decide, by decide, by decide, by decide⟩ (by rw [herr]; norm_num) K KG hK
  refine ⟨l, K, KG, ?_, by rw [hD]; exact hK, hpd, (C48_symmetric _ _ p (by norm_num [p]) (by norm_num [p]) K KG hK).2, ?_⟩
  · rw [← hl]
    have e : (List.replicate 25 [(1 : ℤ), -1]).flatten.map (fun k : ℤ => 45 * (k : ℝ)) = (List.replicate 25 [45, -45]).flatten := by
      rw [List.map_flatten, List.map_replicate]
      simp
    rw [List.map_append, List.map_reverse, e]
    rfl
  rw [hD]
  intro hS hsort numEig st vals vecs hrun
  obtain ⟨q1, q2⟩ := pi_sq_bounds
  obtain ⟨lam, h1, h2, h3⟩ := C102_pinned_reported S D (evenD 1497.9 1465.7 1255.2) _ _ hbt
    (evenD_noTwist (by norm_num) (by norm_num) (by norm_num)) (hbox.even (by norm_num) (by norm_num)) p (by norm_num [p])
    (by norm_num [p]) (by norm_num [p]) (by norm_num [p]) (by norm_num [p]) (by norm_num [p]) rfl (by norm_num [p])
    (by rw [herr]; norm_num) K KG hK hS hsort 2.7 (fun t ht => by
      have := square_one (by norm_num) (by norm_num) (by norm_num) _ _ t ht
      norm_num at this ⊢
      linarith) (by rw [herr, hacc]; norm_num) numEig st vals vecs hrun
  refine ⟨lam, h1, ?_, ?_⟩
  · rw [herr, hacc] at h2
    norm_num at h2 ⊢
    linarith
  · rw [herr, hacc] at h3
    have hq : rayleighQuart D p.a p.b (-p.Nxx) (-p.Nyy) ≤ 2.789 := by
      have u1 := hbox.d0'
      have u2 := hbox.d1'
      have u3 := hbox.g'
      have u4 := (abs_le.mp hbox.c).2
      simp only [rayleighQuart, p]
      norm_num at u1 u2 u3 u4 ⊢
      rw [div_le_iff₀ (by norm_num)]
      linarith
    norm_num at h3 hq ⊢
    linarith

/-- Non-vacuity of C116_script: there is a solver that meets its hypotheses. -/
example : ∃ S : EigSolver, let p : PlateNum := ⟨200, 200, -1, 0, 0, 10, 10⟩
    ∃ l K KG, calcKKGD shipped (Lam.D l) (.str wPINNED) p = .ok (K, KG) ∧ Honest S KG K ∧ ∀ k out, S _ KG K k = .ok out → CayleySorted out := by
  obtain ⟨S, hS⟩ := exists_honest
  obtain ⟨l, K, KG, hl, hK, hpd, hsym, -⟩ := C116_script S
  obtain ⟨h1, h2, -⟩ := hS _ KG K hsym hpd
  exact ⟨S, l, K, KG, hK, h1, h2⟩

end Composipy
