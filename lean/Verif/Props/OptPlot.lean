import Verif.Model.OptPlot
import Verif.Props.Optimize
import Verif.Props.Plot

/-!
# C78: the contour plot of `maximize_buckling_load`
-/

namespace Composipy
open Spec

/-- Grid coordinate number `i` of `n` on `[-1, 1]`. -/
noncomputable def Spec.gridAt (n i : ℕ) : ℝ := if n = 1 then -1 else -1 + 2 * (i : ℝ) / ((n : ℝ) - 1)

theorem linspace_grid (n i : ℕ) (h : i < n) : (linspace (-1) 1 n)[i]? = some (gridAt n i) := by
  rw [linspace_getElem? _ _ _ _ h, gridAt]
  split_ifs
  · rfl
  · congr 1
    ring

theorem flat_length {α β : Type} (x : List α) (f : α → List β) (c : ℕ) (h : ∀ a ∈ x, (f a).length = c) :
    (x.flatMap f).length = x.length * c := by
  induction x with
  | nil => simp
  | cons a x ih =>
    simp only [List.flatMap_cons, List.length_append, List.length_cons, h a (by simp), ih fun b hb => h b (by simp [hb])]
    ring

theorem flat_get {α β : Type} (x : List α) (f : α → List β) (c : ℕ) (h : ∀ a ∈ x, (f a).length = c) (i j : ℕ) (a : α)
    (hi : x[i]? = some a) (hj : j < c) : (x.flatMap f)[i * c + j]? = (f a)[j]? := by
  induction x generalizing i with
  | nil => simp at hi
  | cons b x ih =>
    have hb : (f b).length = c := h b (by simp)
    cases i with
    | zero =>
      simp only [List.getElem?_cons_zero, Option.some.injEq] at hi
      subst hi
      rw [List.flatMap_cons, Nat.zero_mul, Nat.zero_add, List.getElem?_append_left (by omega)]
    | succ i =>
      simp only [List.getElem?_cons_succ] at hi
      rw [List.flatMap_cons, List.getElem?_append_right (by rw [hb, Nat.succ_mul]; omega), hb,
        show (i + 1) * c + j - c = i * c + j by rw [Nat.succ_mul]; omega]
      exact ih (fun a ha => h a (by simp [ha])) i hi

theorem reshape2_get {α : Type} (l : List α) (r c : ℕ) (h : l.length = r * c) :
    ∃ m, reshape2 l r c = .ok m ∧ m.length = r ∧ ∀ i < r, ∃ row, m[i]? = some row ∧ row.length = c ∧
      ∀ j < c, row[j]? = l[i * c + j]? := by
  refine ⟨_, by rw [reshape2, if_pos h], by simp, ?_⟩
  intro i hi
  refine ⟨(l.drop (i * c)).take c, by simp [hi], ?_, ?_⟩
  · rw [List.length_take, List.length_drop, h]
    have : (i + 1) * c ≤ r * c := Nat.mul_le_mul_right c hi
    rw [Nat.succ_mul] at this
    omega
  · intro j hj
    rw [List.getElem?_take_of_lt hj, List.getElem?_drop]

theorem mapM_get {α β : Type} (L : List α) (f : α → Except PyErr β) (ys : List β) (h : L.mapM f = .ok ys) :
    ys.length = L.length ∧ ∀ (k : ℕ) a, L[k]? = some a → ∃ y, ys[k]? = some y ∧ f a = .ok y := by
  induction L generalizing ys with
  | nil => cases h; simp
  | cons a L ih =>
    rw [List.mapM_cons] at h
    cases ha : f a with
    | error e => rw [ha] at h; cases h
    | ok y =>
      rw [ha] at h
      cases hr : L.mapM f with
      | error e => rw [hr] at h; cases h
      | ok zs =>
        rw [hr] at h
        simp only [ok_bind, pure_eq_ok, Except.ok.injEq] at h
        subst h
        obtain ⟨h1, h2⟩ := ih zs hr
        refine ⟨by simp [h1], ?_⟩
        intro k b hk
        cases k with
        | zero =>
          simp only [List.getElem?_cons_zero, Option.some.injEq] at hk
          subst hk
          exact ⟨y, by simp, ha⟩
        | succ k => simpa using h2 k b (by simpa using hk)

/-- The value plotted at a point of the plane. -/
noncomputable def plotValue (S : EigSolver) (g : Panel) (T Nxx Nyy Nxy : ℝ) (penalty : Bool) (p : ℝ × ℝ) : Except PyErr PyFloat :=
  if constraintOk p.1 p.2 penalty then ncrFromLp S g T p.1 p.2 Nxx Nyy Nxy else .ok .nan

/-- The grid points in the order they are visited. -/
noncomputable def gridPts (n : ℕ) : List (ℝ × ℝ) :=
  (linspace (-1) 1 n).flatMap fun xi1 => (linspace (-1) 1 n).map fun xi3 => (xi1, xi3)

theorem gridPts_length (n : ℕ) : (gridPts n).length = n * n := by
  rw [gridPts, flat_length _ _ n (by intro a _; simp [linspace_length]), linspace_length]

theorem gridPts_get (n i j : ℕ) (hi : i < n) (hj : j < n) : (gridPts n)[i * n + j]? = some (gridAt n i, gridAt n j) := by
  rw [gridPts, flat_get _ _ n (by intro a _; simp [linspace_length]) i j _ (linspace_grid n i hi) hj]
  simp [linspace_grid n j hj]

/-- **C78** the arrays drawn are `points` by `points`; entry `(i, j)` is at the grid point `(x_i, x_j)`, its value is
`Ncr_from_lp` there when the point is inside the region and NaN otherwise. -/
theorem C78_grid (S : EigSolver) (g : Panel) (T Nxx Nyy Nxy : ℝ) (n : ℕ) (resX : List ℝ) (penalty : Bool) (P : OptPlot)
    (h : maximizePlot S g T Nxx Nyy Nxy n resX penalty = .ok P) :
    P.xi1.length = n ∧ P.xi3.length = n ∧ P.nx.length = n ∧ P.optimum = resX ∧
    ∀ i < n, ∃ r1 r3 rn, P.xi1[i]? = some r1 ∧ P.xi3[i]? = some r3 ∧ P.nx[i]? = some rn ∧
      r1.length = n ∧ r3.length = n ∧ rn.length = n ∧
      ∀ j < n, r1[j]? = some (gridAt n i) ∧ r3[j]? = some (gridAt n j) ∧ ∃ v, rn[j]? = some v ∧
        (constraintOk (gridAt n i) (gridAt n j) penalty = true → ncrFromLp S g T (gridAt n i) (gridAt n j) Nxx Nyy Nxy = .ok v) ∧
        (constraintOk (gridAt n i) (gridAt n j) penalty = false → v = .nan) := by
  unfold maximizePlot plotOptimization at h
  change ((gridPts n).mapM (plotValue S g T Nxx Nyy Nxy penalty) >>= _) = _ at h
  rcases hv : (gridPts n).mapM (plotValue S g T Nxx Nyy Nxy penalty) with e | vs
  · rw [hv] at h; cases h
  rw [hv] at h
  obtain ⟨hlen, hget⟩ := mapM_get _ _ _ hv
  rw [gridPts_length] at hlen
  have hk : vs.length.sqrt = n := by rw [hlen]; exact Nat.sqrt_eq n
  obtain ⟨m, hm, m1, m2⟩ := reshape2_get vs n n hlen
  obtain ⟨m', hm', m1', m2'⟩ := reshape2_get ((gridPts n).map Prod.fst) n n (by rw [List.length_map, gridPts_length])
  obtain ⟨m'', hm'', m1'', m2''⟩ := reshape2_get ((gridPts n).map Prod.snd) n n (by rw [List.length_map, gridPts_length])
  simp only [ok_bind, hk] at h
  change ((reshape2 vs n n) >>= fun nx => (reshape2 ((gridPts n).map Prod.fst) n n) >>= fun xi1 =>
    (reshape2 ((gridPts n).map Prod.snd) n n) >>= _) = _ at h
  rw [hm, hm', hm''] at h
  simp only [ok_bind, pure_eq_ok, Except.ok.injEq] at h
  subst h
  refine ⟨m1', m1'', m1, rfl, ?_⟩
  intro i hi
  obtain ⟨rn, a1, a2, a3⟩ := m2 i hi
  obtain ⟨r1, b1, b2, b3⟩ := m2' i hi
  obtain ⟨r3, c1, c2, c3⟩ := m2'' i hi
  refine ⟨r1, r3, rn, b1, c1, a1, b2, c2, a2, ?_⟩
  intro j hj
  have hp := gridPts_get n i j hi hj
  obtain ⟨v, v1, v2⟩ := hget _ _ hp
  refine ⟨by rw [b3 j hj]; simp [hp], by rw [c3 j hj]; simp [hp], v, by rw [a3 j hj, v1], ?_, ?_⟩
  · intro hc
    simpa only [plotValue, hc, if_true] using v2
  · intro hc
    simp only [plotValue, hc, Bool.false_eq_true, if_false, Except.ok.injEq] at v2
    exact v2.symm

/-- **C78** drawing fails exactly when some grid point inside the region fails: there is no handler for `ArpackError`. -/
theorem C78_fails_iff (S : EigSolver) (g : Panel) (T Nxx Nyy Nxy : ℝ) (n : ℕ) (resX : List ℝ) (penalty : Bool) :
    (∃ e, maximizePlot S g T Nxx Nyy Nxy n resX penalty = .error e) ↔
      ∃ i < n, ∃ j < n, constraintOk (gridAt n i) (gridAt n j) penalty = true ∧
        ∃ e, ncrFromLp S g T (gridAt n i) (gridAt n j) Nxx Nyy Nxy = .error e := by
  constructor
  · rintro ⟨e, he⟩
    by_contra hno
    push Not at hno
    have hall : ∀ p ∈ gridPts n, ∃ v, plotValue S g T Nxx Nyy Nxy penalty p = .ok v := by
      intro p hp
      obtain ⟨k, hk, hkp⟩ := List.getElem_of_mem hp
      rw [gridPts_length] at hk
      have hn : 0 < n := by
        rcases Nat.eq_zero_or_pos n with h0 | h0
        · subst h0; simp at hk
        · exact h0
      have hi : k / n < n := Nat.div_lt_of_lt_mul hk
      have hj : k % n < n := Nat.mod_lt _ hn
      have := gridPts_get n (k / n) (k % n) hi hj
      rw [Nat.div_add_mod'] at this
      rw [List.getElem?_eq_getElem (by rw [gridPts_length]; exact hk), hkp] at this
      simp only [Option.some.injEq] at this
      subst this
      unfold plotValue
      split_ifs with hc
      · have := hno _ hi _ hj hc
        cases hv : ncrFromLp S g T (gridAt n (k / n)) (gridAt n (k % n)) Nxx Nyy Nxy with
        | ok v => exact ⟨v, rfl⟩
        | error e => exact absurd hv (this e)
      · exact ⟨_, rfl⟩
    haveI : Nonempty PyFloat := ⟨.nan⟩
    choose! f hf using hall
    have hv := mapM_all_ok (f := plotValue S g T Nxx Nyy Nxy penalty) (g := f) (gridPts n) hf
    unfold maximizePlot plotOptimization at he
    change ((gridPts n).mapM (plotValue S g T Nxx Nyy Nxy penalty) >>= _) = _ at he
    rw [hv] at he
    have hlen : ((gridPts n).map f).length = n * n := by rw [List.length_map, gridPts_length]
    obtain ⟨m, hm, -⟩ := reshape2_get _ n n hlen
    obtain ⟨m', hm', -⟩ := reshape2_get ((gridPts n).map Prod.fst) n n (by rw [List.length_map, gridPts_length])
    obtain ⟨m'', hm'', -⟩ := reshape2_get ((gridPts n).map Prod.snd) n n (by rw [List.length_map, gridPts_length])
    have hk : ((gridPts n).map f).length.sqrt = n := by rw [hlen]; exact Nat.sqrt_eq n
    simp only [ok_bind, hk] at he
    change ((reshape2 ((gridPts n).map f) n n) >>= fun nx => (reshape2 ((gridPts n).map Prod.fst) n n) >>= fun xi1 =>
      (reshape2 ((gridPts n).map Prod.snd) n n) >>= _) = _ at he
    rw [hm, hm', hm''] at he
    cases he
  · rintro ⟨i, hi, j, hj, hc, e, he⟩
    rcases hP : maximizePlot S g T Nxx Nyy Nxy n resX penalty with e' | P
    · exact ⟨e', rfl⟩
    · obtain ⟨-, -, -, -, hall⟩ := C78_grid S g T Nxx Nyy Nxy n resX penalty P hP
      obtain ⟨_, _, _, -, -, -, -, -, -, hall⟩ := hall i hi
      obtain ⟨-, -, v, -, hv, -⟩ := hall j hj
      rw [hv hc] at he
      cases he

/-- **C78** the two black curves are the edge of the region: every point drawn has constraint value 0 and moving it down
leaves the region. -/
theorem C78_curves (S : EigSolver) (g : Panel) (T Nxx Nyy Nxy : ℝ) (n : ℕ) (resX : List ℝ) (penalty : Bool) (P : OptPlot)
    (h : maximizePlot S g T Nxx Nyy Nxy n resX penalty = .ok P) :
    P.curve1.length = n ∧ P.curve2.length = n ∧
    ∀ q ∈ P.curve1 ++ P.curve2, -1 ≤ q.1 ∧ q.1 ≤ 1 ∧ ∀ d, constraintOk q.1 (q.2 + d) penalty = true ↔ 0 ≤ d := by
  unfold maximizePlot plotOptimization at h
  change ((gridPts n).mapM (plotValue S g T Nxx Nyy Nxy penalty) >>= fun vs => reshape2 vs vs.length.sqrt vs.length.sqrt >>= fun nx =>
    reshape2 ((gridPts n).map Prod.fst) vs.length.sqrt vs.length.sqrt >>= fun xi1 =>
    reshape2 ((gridPts n).map Prod.snd) vs.length.sqrt vs.length.sqrt >>= fun xi3 => _) = _ at h
  rcases hv : (gridPts n).mapM (plotValue S g T Nxx Nyy Nxy penalty) with e | vs
  · rw [hv] at h; cases h
  rw [hv, ok_bind] at h
  rcases h1 : reshape2 vs vs.length.sqrt vs.length.sqrt with e | a
  · rw [h1] at h; cases h
  rw [h1, ok_bind] at h
  rcases h2 : reshape2 ((gridPts n).map Prod.fst) vs.length.sqrt vs.length.sqrt with e | b
  · rw [h2] at h; cases h
  rw [h2, ok_bind] at h
  rcases h3 : reshape2 ((gridPts n).map Prod.snd) vs.length.sqrt vs.length.sqrt with e | c
  · rw [h3] at h; cases h
  rw [h3, ok_bind] at h
  simp only [pure_eq_ok, Except.ok.injEq] at h
  subst h
  refine ⟨by simp [linspace_length], by simp [linspace_length], ?_⟩
  have hrange : ∀ lo hi t, lo ≤ hi → t ∈ linspace lo hi n → lo ≤ t ∧ t ≤ hi := by
    intro lo hi t hlh ht
    simp only [linspace, List.mem_map, List.mem_range] at ht
    obtain ⟨i, hi', rfl⟩ := ht
    split_ifs with h1
    · exact ⟨le_rfl, hlh⟩
    · have hn : (2 : ℝ) ≤ n := by
        have : 2 ≤ n := by omega
        exact_mod_cast this
      have hi2 : (i : ℝ) ≤ n - 1 := by
        have : i + 1 ≤ n := hi'
        have : (i : ℝ) + 1 ≤ n := by exact_mod_cast this
        linarith
      have h3 : 0 ≤ (i : ℝ) * ((hi - lo) / ((n : ℝ) - 1)) :=
        mul_nonneg (Nat.cast_nonneg i) (div_nonneg (by linarith) (by linarith))
      have h4 : (i : ℝ) * ((hi - lo) / ((n : ℝ) - 1)) ≤ hi - lo := by
        rw [← mul_div_assoc, div_le_iff₀ (by linarith), mul_comm]
        exact mul_le_mul_of_nonneg_left hi2 (by linarith)
      constructor <;> linarith
  intro q hq
  rcases List.mem_append.mp hq with hq | hq
  · obtain ⟨t, ht, rfl⟩ := List.mem_map.mp hq
    obtain ⟨t1, t2⟩ := hrange _ _ _ (by norm_num) ht
    refine ⟨t1, by simp only; linarith, fun d => ?_⟩
    cases penalty with
    | false =>
      simp only [Bool.false_eq_true, if_false, constraintOk, Bool.not_false, if_true]
      split_ifs with hd <;> simp <;> linarith
    | true =>
      simp only [if_true, constraintOk, Bool.not_true, Bool.false_eq_true, if_false]
      split_ifs with h1 h2 h2 <;> simp <;> linarith
  · obtain ⟨t, ht, rfl⟩ := List.mem_map.mp hq
    obtain ⟨t1, t2⟩ := hrange _ _ _ (by norm_num) ht
    refine ⟨by simp only; linarith, t2, fun d => ?_⟩
    cases penalty with
    | false =>
      simp only [Bool.false_eq_true, if_false, constraintOk, Bool.not_false, if_true]
      split_ifs with hd <;> simp <;> linarith
    | true =>
      simp only [if_true, constraintOk, Bool.not_true, Bool.false_eq_true, if_false]
      rw [if_neg (not_lt.mpr t1)]
      split_ifs with h2 <;> simp <;> linarith

/-- The value is the smallest positive multiplier. -/
def Spec.IsCritical {N : ℕ} (K KG : SqMat N) (e : ℝ) : Prop := PosMult K KG e ∧ ∀ lam, PosMult K KG lam → e ≤ lam

/-- **C78** the contour values are the negated objective when the largest load is 1 in absolute value.  Missing: other loads,
for which it is false. -/
theorem C78_contour_is_objective_partial (S : EigSolver) (g : Panel) (T Nxx Nyy Nxy : ℝ) (pen : Bool) (prob : MinProblem)
    (hp : (maximizeBucklingLoad S g T Nxx Nyy Nxy pen).2 = .ok prob) (hM : max |Nxx| (max |Nyy| |Nxy|) = 1) (xi1 xi3 e : ℝ) :
    ncrFromLp S g T xi1 xi3 Nxx Nyy Nxy = .ok (.fin e) → prob.obj [xi1, xi3] = .ok (.fin (-e)) := by
  intro h
  obtain ⟨x, y, s, M, hn, h1, -⟩ := C59_objective S g T Nxx Nyy Nxy pen prob hp xi1 xi3
  have h2 := normalize_eq Nxx Nyy Nxy (by rw [hM]; norm_num)
  rw [hn, hM] at h2
  simp only [div_one, Except.ok.injEq, Prod.mk.injEq] at h2
  obtain ⟨rfl, rfl, rfl, rfl⟩ := h2
  exact h1 e h

/-- **C78** in general, when both calls return the critical multiplier, the contour value times the largest load is the negated
objective. -/
theorem C78_contour_scaled (S : EigSolver) (g : Panel) (T Nxx Nyy Nxy : ℝ) (pen : Bool) (prob : MinProblem)
    (hp : (maximizeBucklingLoad S g T Nxx Nyy Nxy pen).2 = .ok prob) (xi1 xi3 x y s M e e' : ℝ)
    (hn : normalizeCriticalLoad Nxx Nyy Nxy = .ok (x, y, s, M))
    (h : ncrFromLp S g T xi1 xi3 Nxx Nyy Nxy = .ok (.fin e)) (h' : ncrFromLp S g T xi1 xi3 x y s = .ok (.fin e'))
    (hc : ∀ K KG, calcKKGD shipped (panelD g T xi1 xi3) g.c (panelPlate g Nxx Nyy Nxy) = .ok (K, KG) → IsCritical K KG e)
    (hc' : ∀ K KG, calcKKGD shipped (panelD g T xi1 xi3) g.c (panelPlate g x y s) = .ok (K, KG) → IsCritical K KG e') :
    prob.obj [xi1, xi3] = .ok (.fin (-(e * M))) := by
  obtain ⟨x1, y1, s1, M1, hn1, h1, -⟩ := C59_objective S g T Nxx Nyy Nxy pen prob hp xi1 xi3
  rw [hn] at hn1
  simp only [Except.ok.injEq, Prod.mk.injEq] at hn1
  obtain ⟨rfl, rfl, rfl, rfl⟩ := hn1
  obtain ⟨hMp, -, -, e1, e2, e3, -⟩ := C55_normalised _ _ _ _ _ _ _ hn
  obtain ⟨hg, vals, vecs, hb, -⟩ := ncr_inv h'
  obtain ⟨_, K, KG, _, _, hK, _⟩ := buckling_inv hb
  obtain ⟨KG2, hK2, hiff⟩ := panel_scale hg hMp hK
  rw [mul_comm M x, mul_comm M y, mul_comm M s, e1, e2, e3] at hK2
  obtain ⟨p1, p2⟩ := hc _ _ hK2
  obtain ⟨q1, q2⟩ := hc' _ _ hK
  have a1 := q2 _ ((hiff e).mp p1)
  have a2 := p2 (e' / M) ((hiff _).mpr (by rwa [div_mul_cancel₀ _ hMp.ne']))
  rw [le_div_iff₀ hMp] at a2
  rw [h1 e' h', le_antisymm a2 a1]

theorem demo_ncr : ∃ S : EigSolver, ∀ t : ℝ, 0 < t → t ≤ 2 → ∃ e, ncrFromLp S demoPanel 1 0 0 (-t) 0 0 = .ok (.fin e) ∧ 0 < e ∧
    ∀ K KG, calcKKGD shipped (panelD demoPanel 1 0 0) demoPanel.c (panelPlate demoPanel (-t) 0 0) = .ok (K, KG) →
      IsCritical K KG e := by
  obtain ⟨S, hS⟩ := exists_honest
  refine ⟨S, fun t ht ht2 => ?_⟩
  obtain ⟨K, KG, hK, hpd, hsym, hm, hpos, hinj⟩ := demo_matrices 2 1 t (by norm_num) one_pos ht
  obtain ⟨hon, hsort, hrun⟩ := hS _ KG K hsym hpd
  have hK' : calcKKGD shipped (panelD demoPanel 1 0 0) demoPanel.c (panelPlate demoPanel (-t) 0 0) = .ok (K, KG) := by
    rw [demoPanel_D]; exact hK
  have h1 : ∀ lam, PosMult K KG lam → 1 ≤ lam := by
    intro lam h
    obtain ⟨r, rfl⟩ := (hm lam).mp h
    rw [le_div_iff₀ ht]
    have : 216 ≤ demoLoads 2 1 r := by fin_cases r <;> norm_num [demoLoads]
    linarith
  obtain ⟨out, hout⟩ := hrun 2 (by norm_num)
  have hc := hon _ _ hout
  cases out with
  | nil => cases hc.len
  | cons q rest =>
  obtain ⟨hq0, hqp⟩ := hc.pair q List.mem_cons_self
  have hw : q.1 ≠ 0 := fun h => hq0 (hinj _ (by rw [hqp, h, zero_smul]))
  have hbk : Buckles K KG (-1 / q.1) q.2 :=
    (buckles_pencil (div_ne_zero (by norm_num) hw)).mpr ⟨hq0, by rw [hqp]; congr 1; field_simp⟩
  have hncr : ncrFromLp S demoPanel 1 0 0 (-t) 0 0 = .ok (.fin (-1 / q.1)) := by
    obtain ⟨sx, hs, -⟩ := clamped_idx 2 2
    have hs' : computeIdx demoPanel.c (panelPlate demoPanel (-t) 0 0).m (panelPlate demoPanel (-t) 0 0).n = .ok sx := hs
    have hk : min (5 : ℤ) (((panelPlate demoPanel (-t) 0 0).m * (panelPlate demoPanel (-t) 0 0).n : ℕ) - 2 : ℤ) = 2 := by
      norm_num [panelPlate, demoPanel]
    have hout' : S ((panelPlate demoPanel (-t) 0 0).m * (panelPlate demoPanel (-t) 0 0).n) KG K 2 = .ok (q :: rest) := hout
    rw [ncr_eq S demoPanel demoPanel_ok]
    have hK'' := hK'
    rw [demoPanel_D] at hK'' ⊢
    unfold bucklingAnalysis
    simp only [hs', hK'', hk, eigshCall]
    rw [if_neg (by norm_num), show (2 : ℤ).toNat = 2 from rfl, hout']
    show Except.ok (npDiv (-1) q.1) = _
    simp [npDiv, hw]
  have hpe := hpos _ _ hbk
  refine ⟨_, hncr, hpe, ?_⟩
  intro K2 KG2 hK2
  have hfc := first_is_critical S demoPanel 1 0 0 (-t) 0 0 K KG hK' hon hsort h1 _ hncr K2 KG2 hK2 hpe
  rw [hK'] at hK2
  obtain ⟨rfl, rfl⟩ := Prod.mk.inj (Except.ok.inj hK2)
  exact ⟨⟨hpe, _, hbk⟩, hfc⟩

/-- **C78** the contour does not show the function that is optimised: for the load -2 the contour value at the start point is
half of the negated objective. -/
theorem C78_contour_false : ¬ ∀ (S : EigSolver) (g : Panel) (T Nxx Nyy Nxy : ℝ) (pen : Bool) (prob : MinProblem)
    (xi1 xi3 e : ℝ), (maximizeBucklingLoad S g T Nxx Nyy Nxy pen).2 = .ok prob →
    ncrFromLp S g T xi1 xi3 Nxx Nyy Nxy = .ok (.fin e) → prob.obj [xi1, xi3] = .ok (.fin (-e)) := by
  intro hall
  obtain ⟨S, hS⟩ := demo_ncr
  obtain ⟨e, h, he, hc⟩ := hS 2 (by norm_num) (by norm_num)
  obtain ⟨e', h', he', hc'⟩ := hS 1 (by norm_num) (by norm_num)
  have hn : normalizeCriticalLoad (-2) 0 0 = .ok (-1, 0, 0, 2) := by
    have : max |(-2 : ℝ)| (max |0| |0|) = 2 := by norm_num
    have h := normalize_eq (-2) 0 0 (by rw [this]; norm_num)
    simp only [this] at h
    rw [h]; norm_num
  obtain ⟨prob, hp⟩ : ∃ prob, (maximizeBucklingLoad S demoPanel 1 (-2) 0 0 true).2 = .ok prob := by
    simp only [maximizeBucklingLoad, hn]; exact ⟨_, rfl⟩
  have h1 := hall S demoPanel 1 (-2) 0 0 true _ 0 0 e hp h
  have h2 := C78_contour_scaled S demoPanel 1 (-2) 0 0 true _ hp 0 0 (-1) 0 0 2 e e' hn h h' hc hc'
  rw [h1] at h2
  have := XF.fin.inj (Except.ok.inj h2)
  linarith

/-- Non-vacuity for C78: with a solver that always answers, the demo panel can be drawn with any number of points, and the grid
with 3 points per axis has points inside and outside of the region. -/
example : ∃ S : EigSolver, (∀ n resX pen, ∃ P, maximizePlot S demoPanel 1 (-1) 0 0 n resX pen = .ok P) ∧
    constraintOk (gridAt 3 1) (gridAt 3 1) true = true ∧ constraintOk (gridAt 3 0) (gridAt 3 0) true = false := by
  refine ⟨fun N A M k => .ok [(-1, 0)], fun n resX pen => ?_, ?_, ?_⟩
  · rcases hP : maximizePlot (fun N A M k => .ok [(-1, 0)]) demoPanel 1 (-1) 0 0 n resX pen with e | P
    · exfalso
      obtain ⟨i, -, j, -, -, e', he'⟩ := (C78_fails_iff _ _ _ _ _ _ _ resX _).mp ⟨e, hP⟩
      have hQ : (Plies.single (panelMat demoPanel)).invariants = .ok ⟨24, 0, 0, 0, 12⟩ := by
        norm_num [Plies.invariants, panelMat, demoPanel, Mat.invariants, OrthoMat.invariants, OrthoMat.Q0, OrthoMat.v21, pyDiv,
          invariantsOf]
        refine ⟨?_, ?_, ?_⟩ <;> simp <;> norm_num
      obtain ⟨D, hD⟩ : ∃ D, panelD demoPanel 1 (gridAt n i) (gridAt n j) = .ok D := by
        unfold panelD
        simp only [Lam.init, ok_bind, Lam.D, lpD, hQ, LPVal.unpack4, LPVal.asNum, pure_eq_ok]
        exact ⟨_, rfl⟩
      obtain ⟨sx, hs, hw⟩ := clamped_idx 2 2
      have hK := calcKKGD_ok shipped_exact D (.str wCLAMPED) (demoPlate 1) sx hs one_ne_zero one_ne_zero (by
        have hw' : sx.w = [(4, 4), (4, 5), (5, 4), (5, 5)] := by rw [hw]; rfl
        rw [hw']; simp)
      have hs' : computeIdx demoPanel.c (panelPlate demoPanel (-1) 0 0).m (panelPlate demoPanel (-1) 0 0).n = .ok sx := hs
      have hk : min (5 : ℤ) (((panelPlate demoPanel (-1) 0 0).m * (panelPlate demoPanel (-1) 0 0).n : ℕ) - 2 : ℤ) = 2 := by
        norm_num [panelPlate, demoPanel]
      have hK' : calcKKGD shipped (.ok D) demoPanel.c (panelPlate demoPanel (-1) 0 0) = _ := hK
      rw [ncr_eq _ demoPanel demoPanel_ok, hD] at he'
      unfold bucklingAnalysis at he'
      simp only [hs', hK', hk, eigshCall] at he'
      rw [if_neg (by norm_num)] at he'
      cases he'
    · exact ⟨P, rfl⟩
  · norm_num [gridAt, constraintOk]
  · norm_num [gridAt, constraintOk]

end Composipy
