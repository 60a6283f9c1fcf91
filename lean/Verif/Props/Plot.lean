import Verif.Model.Plot
import Verif.Props.Buckling
import Verif.Props.EdgeConditions
import Verif.Props.ShapeTables

/-!
# C65, C66: the surface drawn by `plot_eigenvalue`
-/

namespace Composipy
open Polynomial Spec

/-- Entry `[i][j]` of a list of rows. -/
def Spec.at2 (l : List (List ℝ)) (i j : ℕ) : Option ℝ := (l[i]?).bind fun row => row[j]?

/-- Python's reading of a column number: `k` from the front, or `k - len` from the back. -/
def Spec.Column {α : Type} (l : List α) (nth : ℤ) (v : α) : Prop :=
  ∃ k : ℕ, l[k]? = some v ∧ (nth = k ∨ nth = (k : ℤ) - l.length)

theorem pyIdxI_column {α : Type} {l : List α} {nth : ℤ} {v : α} (h : Column l nth v) : pyIdxI l nth = .ok v := by
  obtain ⟨k, hk, h⟩ := h
  have hlt : k < l.length := (List.getElem?_eq_some_iff.mp hk).1
  unfold pyIdxI
  rcases h with rfl | rfl
  · rw [if_pos (by omega)]
    simp [pyIdx, hk]
  · rw [if_neg (by omega), if_pos (by omega)]
    have : ((k : ℤ) - l.length + l.length).toNat = k := by omega
    rw [this]
    simp [pyIdx, hk]

theorem pyIdxI_bad {α : Type} {l : List α} {nth : ℤ} (h : nth < -(l.length : ℤ) ∨ (l.length : ℤ) ≤ nth) :
    pyIdxI l nth = .error .indexError := by
  unfold pyIdxI
  split_ifs with h1 h2
  · exact pyIdx_of_ge _ _ (by omega)
  · omega
  · rfl

theorem mapM_all_ok {α β : Type} {f : α → Except PyErr β} {g : α → β} (l : List α) (h : ∀ x ∈ l, f x = .ok (g x)) :
    l.mapM f = .ok (l.map g) := by
  induction l with
  | nil => rfl
  | cons x xs ih =>
    rw [List.mapM_cons, h x (by simp), ih fun y hy => h y (by simp [hy])]
    rfl

theorem linspace_getElem? (lo hi : ℝ) (n i : ℕ) (h : i < n) :
    (linspace lo hi n)[i]? = some (if n = 1 then lo else lo + i * ((hi - lo) / ((n : ℝ) - 1))) := by
  simp [linspace, h]

theorem linspace_length (lo hi : ℝ) (n : ℕ) : (linspace lo hi n).length = n := by simp [linspace]

/-- Entry of the two mesh arrays. -/
theorem mesh_at (xs ys : List ℝ) (i j : ℕ) (hi : i < ys.length) (hj : j < xs.length) :
    idx2 (meshgrid xs ys).1 i j = .ok xs[j] ∧ idx2 (meshgrid xs ys).2 i j = .ok ys[i] := by
  constructor <;> simp [idx2, meshgrid, pyIdx, hi, hj]

theorem mesh_fail (xs ys : List ℝ) (i j : ℕ) (h : ys.length ≤ i ∨ xs.length ≤ j) :
    idx2 (meshgrid xs ys).1 i j = .error .indexError := by
  by_cases hi : ys.length ≤ i
  · have : pyIdx (meshgrid xs ys).1 i = .error .indexError := pyIdx_of_ge _ _ (by simpa [meshgrid] using hi)
    rw [idx2, this, error_bind]
  · have hj := h.resolve_left hi
    push Not at hi
    simp [idx2, meshgrid, pyIdx, hi, List.getElem?_eq_none hj]

theorem zip_sum {N : ℕ} (w : List (ℕ × ℕ)) (hw : w.length = N) (c : Fin N → ℝ) (f : ℕ × ℕ → ℝ) :
    (List.zipWith (· * ·) (w.map f) (List.ofFn c)).sum = ∑ r : Fin N, c r * f (w.getD r (0, 0)) := by
  subst hw
  rw [← List.sum_ofFn]
  congr 1
  apply List.ext_getElem
  · simp
  · intro i h1 h2
    have hi : i < w.length := by simpa using h2
    rw [List.getElem_zipWith, List.getElem_map, List.getElem_ofFn, List.getElem_ofFn, mul_comm]
    congr 2
    exact (List.getD_eq_getElem _ _ hi).symm

/-- The loop body at an interior index. -/
theorem body_ok {N : ℕ} (w : List (ℕ × ℕ)) (hw : w.length = N) (h50 : ∀ q ∈ w, q.1 < 50 ∧ q.2 < 50) (c : Fin N → ℝ)
    (xi eta : ℝ) :
    (do let sw ← sxieta w xi eta
        dotList sw (pySliceFrom (List.ofFn c) (((List.ofFn c).length : ℤ) - w.length))) =
      .ok (∑ r : Fin N, c r * ((shape (w.getD r (0, 0)).1).eval xi * (shape (w.getD r (0, 0)).2).eval eta)) := by
  rw [C46_sxieta_vector w h50, ok_bind]
  have : pySliceFrom (List.ofFn c) (((List.ofFn c).length : ℤ) - w.length) = List.ofFn c := by
    simp [pySliceFrom, hw]
  rw [this, dotList, if_pos (by simp [hw]), zip_sum w hw c]

/-- **C65** the slice `c[len(c)-k:len(c)]` of line 418 is the last `k` entries when there are that many; a negative start counts from
the end. -/
theorem C65_slice {α : Type} (c : List α) (k : ℕ) :
    (k ≤ c.length → pySliceFrom c ((c.length : ℤ) - k) <:+ c ∧ (pySliceFrom c ((c.length : ℤ) - k)).length = k) ∧
    (0 < k → k ≤ c.length → pySliceFrom c (-(k : ℤ)) <:+ c ∧ (pySliceFrom c (-(k : ℤ))).length = k) := by
  refine ⟨fun h => ⟨List.drop_suffix _ _, ?_⟩, fun h0 h => ⟨List.drop_suffix _ _, ?_⟩⟩
  · rw [pySliceFrom, if_pos (by omega), List.length_drop]
    omega
  · rw [pySliceFrom, if_neg (by omega), List.length_drop]
    omega

/-- What the stored state of an analysed plate looks like. -/
theorem analysed {S : EigSolver} {D : Except PyErr M3} {c : Constraints} {p : PlateNum} {numEig : ℤ}
    {st : PlateState (p.m * p.n)} {vals : List PyFloat} {vecs : List (Fin (p.m * p.n) → ℝ)}
    (hm : 1 ≤ p.m) (hn : 1 ≤ p.n) (h : (bucklingAnalysis S D c p numEig st).1 = .ok (vals, vecs)) :
    ∃ s, computeIdx c p.m p.n = .ok s ∧ p.a ≠ 0 ∧ p.b ≠ 0 ∧ s.w.length = p.m * p.n ∧
      (∀ q ∈ s.w, q.1 < 50 ∧ q.2 < 50) ∧ (bucklingAnalysis S D c p numEig st).2 = ⟨some s, some (vals, vecs)⟩ := by
  obtain ⟨s, K, KG, out, hs, hK, -, -, -, -, hst⟩ := buckling_inv h
  obtain ⟨M, s', -, hs', ha, hb, h30, -, -⟩ := calcKKGD_inv hm hn hK
  rw [hs] at hs'
  cases hs'
  exact ⟨s, hs, ha, hb, (C40_sizes c _ _ s hs).2.2.len, fun q hq => ⟨(h30 q hq).1.trans (by norm_num),
    (h30 q hq).2.trans (by norm_num)⟩, hst⟩

/-- **C65 (partial: equal grids)** after a successful analysis, on a square grid of at least two points per side,
`plot_eigenvalue` draws the deflection of the requested mode: row `i`, column `j` lies at `x = a*j/(g-1)`,
`y = b*i/(g-1)` and its height is the Ritz deflection there.  Stored results are not changed.
Missing: unequal grids, which raise (`C65_unequal_raises`). -/
theorem C65_surface_partial (S : EigSolver) (D : Except PyErr M3) (c : Constraints) (p : PlateNum) (numEig : ℤ)
    (st : PlateState (p.m * p.n)) (vals : List PyFloat) (vecs : List (Fin (p.m * p.n) → ℝ)) (hm : 1 ≤ p.m) (hn : 1 ≤ p.n)
    (h : (bucklingAnalysis S D c p numEig st).1 = .ok (vals, vecs)) (nth : ℤ) (v : Fin (p.m * p.n) → ℝ)
    (hv : Column vecs nth v) (g : ℕ) (hg : 2 ≤ g) :
    ∃ s surf, computeIdx c p.m p.n = .ok s ∧
      plotEigenvalue S D c p nth g g (bucklingAnalysis S D c p numEig st).2 =
        (.ok surf, (bucklingAnalysis S D c p numEig st).2) ∧
      ∀ i < g, ∀ j < g,
        at2 surf.x i j = some (p.a * j / ((g : ℝ) - 1)) ∧ at2 surf.y i j = some (p.b * i / ((g : ℝ) - 1)) ∧
        at2 surf.z i j = some (ritz p.a p.b s.w v (p.a * j / ((g : ℝ) - 1)) (p.b * i / ((g : ℝ) - 1))) := by
  obtain ⟨s, hs, ha, hb, hlen, h50, hst⟩ := analysed hm hn h
  have hg1 : g ≠ 1 := by omega
  have hgr : ((g : ℝ) - 1) ≠ 0 := by
    have : (2 : ℝ) ≤ g := by exact_mod_cast hg
    linarith
  have hl := linspace_length (-1) 1 g
  let t : ℕ → ℝ := fun i => -1 + i * ((1 - (-1)) / ((g : ℝ) - 1))
  have ht : ∀ i (hi : i < g), (linspace (-1) 1 g)[i]'(by omega) = t i := by
    intro i hi
    have := linspace_getElem? (-1) 1 g i hi
    rw [List.getElem?_eq_getElem (by omega), if_neg hg1] at this
    exact Option.some.inj this
  let val : ℝ → ℝ → ℝ := fun xi eta =>
    ∑ r : Fin (p.m * p.n), v r * ((shape (s.w.getD r (0, 0)).1).eval xi * (shape (s.w.getD r (0, 0)).2).eval eta)
  have hz : (List.range g).mapM (fun i => (List.range g).mapM fun j => do
      let xi ← idx2 (meshgrid (linspace (-1) 1 g) (linspace (-1) 1 g)).1 i j
      let eta ← idx2 (meshgrid (linspace (-1) 1 g) (linspace (-1) 1 g)).2 i j
      let sw ← sxieta s.w xi eta
      dotList sw (pySliceFrom (List.ofFn v) (((List.ofFn v).length : ℤ) - s.w.length))) =
        .ok ((List.range g).map fun i => (List.range g).map fun j => val (t j) (t i)) := by
    refine mapM_all_ok _ fun i hi => mapM_all_ok _ fun j hj => ?_
    rw [List.mem_range] at hi hj
    obtain ⟨e1, e2⟩ := mesh_at (linspace (-1) 1 g) (linspace (-1) 1 g) i j (by omega) (by omega)
    rw [e1, e2, ok_bind, ok_bind, ht i hi, ht j hj]
    exact body_ok s.w hlen h50 v _ _
  let mesh := meshgrid (linspace (-1) 1 g) (linspace (-1) 1 g)
  refine ⟨s, ⟨mesh.1.map fun row => row.map fun xi => p.a / 2 * (xi + 1),
    mesh.2.map fun row => row.map fun eta => p.b / 2 * (eta + 1),
    (List.range g).map fun i => (List.range g).map fun j => val (t j) (t i)⟩, hs, ?_, ?_⟩
  · rw [hst]
    simp only [plotEigenvalue, surfaceOf, pyIdxI_column hv, ok_bind, hz, pure_eq_ok]
    rfl
  · intro i hi j hj
    have hx : ∀ (a : ℝ) (k : ℕ), a / 2 * (t k + 1) = a * k / ((g : ℝ) - 1) := by
      intro a k
      simp only [t]
      field_simp
      ring
    have hli : i < (linspace (-1) 1 g).length := by omega
    have hlj : j < (linspace (-1) 1 g).length := by omega
    have hback : ∀ (a : ℝ) (k : ℕ), a ≠ 0 → 2 / a * (a * k / ((g : ℝ) - 1)) - 1 = t k := by
      intro a k ha
      rw [← hx a k]
      field_simp
      ring
    refine ⟨?_, ?_, ?_⟩
    · simp [at2, mesh, meshgrid, hli, hlj, ht j hj, hx]
    · simp [at2, mesh, meshgrid, hli, hlj, ht i hi, hx]
    · simp only [at2, List.getElem?_map, List.getElem?_range hi, Option.map_some, Option.bind_some,
        List.getElem?_range hj, ritz, hback _ _ ha, hback _ _ hb, val]

/-- **C65** the border of the drawn surface: where an edge was declared pinned or clamped the drawn height is 0. -/
theorem C65_border (S : EigSolver) (D : Except PyErr M3) (w0 wa v0 vb : Str) (p : PlateNum) (numEig : ℤ)
    (st : PlateState (p.m * p.n)) (vals : List PyFloat) (vecs : List (Fin (p.m * p.n) → ℝ)) (hm : 1 ≤ p.m) (hn : 1 ≤ p.n)
    (c : Constraints) (hc : c = .dict (some (.word w0)) (some (.word wa)) (some (.word v0)) (some (.word vb)))
    (h : (bucklingAnalysis S D c p numEig st).1 = .ok (vals, vecs)) (nth : ℤ) (v : Fin (p.m * p.n) → ℝ)
    (hv : Column vecs nth v) (g : ℕ) (hg : 2 ≤ g) :
    ∃ surf, (plotEigenvalue S D c p nth g g (bucklingAnalysis S D c p numEig st).2).1 = .ok surf ∧
      (IsPinnedWord w0 ∨ IsClampedWord w0 → ∀ i < g, at2 surf.z i 0 = some 0) ∧
      (IsPinnedWord wa ∨ IsClampedWord wa → ∀ i < g, at2 surf.z i (g - 1) = some 0) ∧
      (IsPinnedWord v0 ∨ IsClampedWord v0 → ∀ j < g, at2 surf.z 0 j = some 0) ∧
      (IsPinnedWord vb ∨ IsClampedWord vb → ∀ j < g, at2 surf.z (g - 1) j = some 0) := by
  obtain ⟨s, hs, ha, hb, hlen, -, -⟩ := analysed hm hn h
  obtain ⟨s', surf, hs', hsurf, hat⟩ := C65_surface_partial S D c p numEig st vals vecs hm hn h nth v hv g hg
  rw [hs] at hs'
  cases hs'
  refine ⟨surf, by rw [hsurf], ?_⟩
  have hedge : ∀ q ∈ s.w, _ := fun q hq => C44_edge_conditions w0 wa v0 vb p.m p.n s (by rw [← hc]; exact hs) q hq
  have hmem : ∀ r : Fin (p.m * p.n), s.w.getD r (0, 0) ∈ s.w := by
    intro r
    have : (r : ℕ) < s.w.length := by rw [hlen]; exact r.2
    rw [List.getD_eq_getElem _ _ this]
    exact List.getElem_mem this
  have hgr : ((g : ℝ) - 1) ≠ 0 := by
    have : (2 : ℝ) ≤ g := by exact_mod_cast hg
    linarith
  have hlast : ((g - 1 : ℕ) : ℝ) = (g : ℝ) - 1 := by
    rw [Nat.cast_sub (by omega)]
    simp
  have low : ∀ a : ℝ, 2 / a * (a * ((0 : ℕ) : ℝ) / ((g : ℝ) - 1)) - 1 = -1 := by intro a; simp
  have high : ∀ a : ℝ, a ≠ 0 → 2 / a * (a * ((g - 1 : ℕ) : ℝ) / ((g : ℝ) - 1)) - 1 = 1 := by
    intro a ha
    rw [hlast]
    field_simp
    norm_num
  refine ⟨fun hw i hi => ?_, fun hw i hi => ?_, fun hw j hj => ?_, fun hw j hj => ?_⟩
  · rw [(hat i hi 0 (by omega)).2.2, ritz, low]
    congr 1
    refine Finset.sum_eq_zero fun r _ => ?_
    have := (hedge _ (hmem r)).1 hw
    rw [show (_ : ℝ) * _ = deflection (s.w.getD r (0, 0)) (-1) _ from rfl, this, mul_zero]
  · rw [(hat i hi (g - 1) (by omega)).2.2, ritz, high _ ha]
    congr 1
    refine Finset.sum_eq_zero fun r _ => ?_
    have := (hedge _ (hmem r)).2.2.1 hw
    rw [show (_ : ℝ) * _ = deflection (s.w.getD r (0, 0)) 1 _ from rfl, this, mul_zero]
  · rw [(hat 0 (by omega) j hj).2.2, ritz, low]
    congr 1
    refine Finset.sum_eq_zero fun r _ => ?_
    have := (hedge _ (hmem r)).2.2.2.2.1 hw
    rw [show (_ : ℝ) * _ = deflection (s.w.getD r (0, 0)) _ (-1) from rfl, this, mul_zero]
  · rw [(hat (g - 1) (by omega) j hj).2.2, ritz, high _ hb]
    congr 1
    refine Finset.sum_eq_zero fun r _ => ?_
    have := (hedge _ (hmem r)).2.2.2.2.2.2.1 hw
    rw [show (_ : ℝ) * _ = deflection (s.w.getD r (0, 0)) _ 1 from rfl, this, mul_zero]

/-- **C65** the stated property fails for every unequal grid: `plot_eigenvalue` raises `IndexError` whenever
`ngridx ≠ ngridy` (both at least 1), although the mode exists. -/
theorem C65_unequal_raises (S : EigSolver) (D : Except PyErr M3) (c : Constraints) (p : PlateNum) (numEig : ℤ)
    (st : PlateState (p.m * p.n)) (vals : List PyFloat) (vecs : List (Fin (p.m * p.n) → ℝ)) (hm : 1 ≤ p.m) (hn : 1 ≤ p.n)
    (h : (bucklingAnalysis S D c p numEig st).1 = .ok (vals, vecs)) (nth : ℤ) (v : Fin (p.m * p.n) → ℝ)
    (hv : Column vecs nth v) (gx gy : ℕ) (hx : 1 ≤ gx) (hy : 1 ≤ gy) (hne : gx ≠ gy) :
    plotEigenvalue S D c p nth gx gy (bucklingAnalysis S D c p numEig st).2 =
      (.error .indexError, (bucklingAnalysis S D c p numEig st).2) := by
  obtain ⟨s, hs, ha, hb, hlen, h50, hst⟩ := analysed hm hn h
  have hlx := linspace_length (-1) 1 gx
  have hly := linspace_length (-1) 1 gy
  let body : ℕ → ℕ → Except PyErr ℝ := fun i j => do
      let xi ← idx2 (meshgrid (linspace (-1) 1 gx) (linspace (-1) 1 gy)).1 i j
      let eta ← idx2 (meshgrid (linspace (-1) 1 gx) (linspace (-1) 1 gy)).2 i j
      let sw ← sxieta s.w xi eta
      dotList sw (pySliceFrom (List.ofFn v) (((List.ofFn v).length : ℤ) - s.w.length))
  have hin : ∀ i j, i < gy → j < gx → ∃ r, body i j = .ok r := by
    intro i j hi hj
    obtain ⟨e1, e2⟩ := mesh_at (linspace (-1) 1 gx) (linspace (-1) 1 gy) i j (by omega) (by omega)
    exact ⟨_, by simp only [body]; rw [e1, e2, ok_bind, ok_bind]; exact body_ok s.w hlen h50 v _ _⟩
  have hout : ∀ i j, (gy ≤ i ∨ gx ≤ j) → body i j = .error .indexError := by
    intro i j hij
    simp only [body]
    rw [mesh_fail _ _ i j (by omega), error_bind]
  have hz : (List.range gx).mapM (fun i => (List.range gy).mapM (body i)) = .error .indexError := by
    have hbody : ∀ i j, (∃ r, body i j = .ok r) ∨ body i j = .error .indexError := fun i j => by
      by_cases hij : i < gy ∧ j < gx
      · exact Or.inl (hin i j hij.1 hij.2)
      · exact Or.inr (hout i j (by omega))
    have hrow : ∀ i, (∃ j < gy, body i j = .error .indexError) →
        (List.range gy).mapM (body i) = .error .indexError := by
      rintro i ⟨j, hj, hb⟩
      exact mapM_err _ _ _ (fun x _ => hbody i x) ⟨j, List.mem_range.mpr hj, hb⟩
    refine mapM_err _ _ _ (fun i _ => ?_) ?_
    · by_cases hb : ∃ j < gy, body i j = .error .indexError
      · exact Or.inr (hrow i hb)
      · push Not at hb
        have : ∀ j ∈ List.range gy, ∃ r, body i j = .ok r := fun j hj =>
          (hbody i j).resolve_right (hb j (List.mem_range.mp hj))
        choose! r hr using this
        exact Or.inl ⟨_, mapM_all_ok _ hr⟩
    · rcases Nat.lt_or_gt_of_ne hne with hlt | hgt
      · exact ⟨0, List.mem_range.mpr hx, hrow 0 ⟨gx, hlt, hout 0 gx (Or.inr le_rfl)⟩⟩
      · exact ⟨gy, List.mem_range.mpr hgt, hrow gy ⟨0, hy, hout gy 0 (Or.inl le_rfl)⟩⟩
  rw [hst]
  simp only [plotEigenvalue, surfaceOf, pyIdxI_column hv, ok_bind]
  have : (List.range gx).mapM (fun i => (List.range gy).mapM fun j => do
      let xi ← idx2 (meshgrid (linspace (-1) 1 gx) (linspace (-1) 1 gy)).1 i j
      let eta ← idx2 (meshgrid (linspace (-1) 1 gx) (linspace (-1) 1 gy)).2 i j
      let sw ← sxieta s.w xi eta
      dotList sw (pySliceFrom (List.ofFn v) (((List.ofFn v).length : ℤ) - s.w.length))) = .error .indexError := hz
  rw [this, error_bind]

/-- **C66** a mode number outside `-len .. len-1` raises `IndexError`. -/
theorem C66_bad_mode (S : EigSolver) (D : Except PyErr M3) (c : Constraints) (p : PlateNum) (st : PlateState (p.m * p.n))
    (vals : List PyFloat) (vecs : List (Fin (p.m * p.n) → ℝ)) (he : st.eig = some (vals, vecs)) (nth : ℤ) (gx gy : ℕ)
    (h : nth < -(vecs.length : ℤ) ∨ (vecs.length : ℤ) ≤ nth) :
    plotEigenvalue S D c p nth gx gy st = (.error .indexError, st) := by
  simp only [plotEigenvalue, he, surfaceOf, pyIdxI_bad h, error_bind]

/-- **C66** plotting a plate that has not been analysed runs `buckling_analysis()` (5 multipliers) first: outcome and
object state are those of the analysis followed by the plot, and an exception of the analysis is passed on. -/
theorem C66_fresh (S : EigSolver) (D : Except PyErr M3) (c : Constraints) (p : PlateNum) (nth : ℤ) (gx gy : ℕ)
    (st : PlateState (p.m * p.n)) (h0 : st.eig = none) :
    (∀ r, (bucklingAnalysis S D c p 5 st).1 = .ok r →
      plotEigenvalue S D c p nth gx gy st = plotEigenvalue S D c p nth gx gy (bucklingAnalysis S D c p 5 st).2) ∧
    (∀ e, (bucklingAnalysis S D c p 5 st).1 = .error e →
      plotEigenvalue S D c p nth gx gy st = (.error e, (bucklingAnalysis S D c p 5 st).2)) := by
  constructor
  · rintro ⟨vals, vecs⟩ hr
    obtain ⟨s, K, KG, out, -, -, -, -, -, -, hst⟩ := buckling_inv hr
    have hpair : bucklingAnalysis S D c p 5 st = (.ok (vals, vecs), ⟨some s, some (vals, vecs)⟩) := by
      rw [← hr, ← hst]
    simp only [plotEigenvalue, h0, hpair]
  · intro e he
    have hpair : bucklingAnalysis S D c p 5 st = (.error e, (bucklingAnalysis S D c p 5 st).2) := by rw [← he]
    simp only [plotEigenvalue, h0]
    rw [hpair]

/-- **C66** plotting never changes stored results: once a plate is analysed every plot leaves the object as it is, so
that any number of plots of any modes and grids in any order show the same analysis. -/
theorem C66_plots_keep_state (S : EigSolver) (D : Except PyErr M3) (c : Constraints) (p : PlateNum)
    (st : PlateState (p.m * p.n)) (h : st.eig ≠ none) (calls : List (ℤ × ℕ × ℕ)) :
    calls.foldl (fun s q => (plotEigenvalue S D c p q.1 q.2.1 q.2.2 s).2) st = st := by
  induction calls with
  | nil => rfl
  | cons q qs ih =>
    rw [List.foldl_cons]
    have : (plotEigenvalue S D c p q.1 q.2.1 q.2.2 st).2 = st := by
      unfold plotEigenvalue
      cases he : st.eig with
      | none => exact absurd he h
      | some r => rfl
    rw [this, ih]

/-- **C66** plotting a plate right after its construction is the same as `buckling_analysis()` and then plotting: the
same surface and the same object; if the analysis raises, so does the plot. -/
theorem C66_new_plate (S : EigSolver) (D : Except PyErr M3) (c : Constraints) (p : PlateNum) (nth : ℤ) (gx gy : ℕ) :
    (∀ vals vecs, (bucklingAnalysis S D c p 5 (.fresh _)).1 = .ok (vals, vecs) →
      plotEigenvalue S D c p nth gx gy (.fresh _) = plotEigenvalue S D c p nth gx gy (bucklingAnalysis S D c p 5 (.fresh _)).2 ∧
      (plotEigenvalue S D c p nth gx gy (.fresh _)).2.eig = some (vals, vecs) ∧
      (nth < -(vecs.length : ℤ) ∨ (vecs.length : ℤ) ≤ nth → (plotEigenvalue S D c p nth gx gy (.fresh _)).1 = .error .indexError)) ∧
    (∀ e, (bucklingAnalysis S D c p 5 (.fresh _)).1 = .error e → (plotEigenvalue S D c p nth gx gy (.fresh _)).1 = .error e) := by
  obtain ⟨h1, h2⟩ := C66_fresh S D c p nth gx gy (.fresh _) rfl
  refine ⟨fun vals vecs hr => ?_, fun e he => by rw [h2 e he]⟩
  obtain ⟨s, K, KG, out, -, -, -, -, -, -, hst⟩ := buckling_inv hr
  have hk := C66_plots_keep_state S D c p (bucklingAnalysis S D c p 5 (.fresh _)).2 (by rw [hst]; simp) [(nth, gx, gy)]
  simp only [List.foldl_cons, List.foldl_nil] at hk
  refine ⟨h1 _ hr, ?_, fun hb => ?_⟩
  · rw [h1 _ hr, hk, hst]
  · rw [h1 _ hr, C66_bad_mode S D c p _ vals vecs (by rw [hst]) nth gx gy hb]

/-- Non-vacuity for C65 and C66: a clamped 2 by 2 plate is analysed; mode 0 exists, as does mode -1. -/
example : ∃ (S : EigSolver) (vals : List PyFloat) (vecs : List (Fin (2 * 2) → ℝ)) (v v' : Fin (2 * 2) → ℝ),
    (bucklingAnalysis S (.ok (demoD 1 1)) (.str wCLAMPED) (demoPlate 1) 5 (.fresh _)).1 = .ok (vals, vecs) ∧
    Column vecs 0 v ∧ Column vecs (-1) v' := by
  obtain ⟨K, KG, hK, hpd, hsym, -⟩ := demo_matrices 1 1 1 one_pos one_pos one_pos
  obtain ⟨S, h1, vals, vecs, h⟩ := demo_runs 1 1 1 K KG hK hpd hsym
  obtain ⟨-, -, -, hlen, hl2, -⟩ := C53_solves S _ _ _ _ _ vals vecs h (fun K' KG' h' => by
    rw [hK] at h'
    obtain ⟨rfl, rfl⟩ := Prod.mk.inj (Except.ok.inj h')
    exact h1)
  have hlen2 : vecs.length = 2 := by
    norm_num [demoPlate] at hlen
    omega
  have e0 : vecs[0]? = some vecs[0] := List.getElem?_eq_getElem _
  have e1 : vecs[1]? = some vecs[1] := List.getElem?_eq_getElem _
  refine ⟨S, vals, vecs, vecs[0], vecs[1], h, ⟨0, e0, Or.inl rfl⟩, ⟨1, e1, Or.inr ?_⟩⟩
  have : ((vecs.length : ℕ) : ℤ) = 2 := by rw [hlen2]; rfl
  exact (show (-1 : ℤ) = ((1 : ℕ) : ℤ) - (vecs.length : ℤ) by omega)

end Composipy
