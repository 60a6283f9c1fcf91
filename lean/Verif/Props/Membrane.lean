import Verif.Props.Coupled

/-!
# C88: which blocks of the coupled stiffness matrix are the laminated plate energy
-/

namespace Composipy
open Polynomial Spec MeasureTheory

/-! ## Specification: the energy of a laminated plate -/

/-- Displacements of the mid-plane. -/
structure Spec.Disp where
  u : ℝ → ℝ → ℝ
  v : ℝ → ℝ → ℝ
  w : ℝ → ℝ → ℝ

/-- Membrane strains and curvatures `(u_x, v_y, u_y + v_x, -w_xx, -w_yy, -2 w_xy)`. -/
noncomputable def Spec.strain6 (d : Disp) (x y : ℝ) : Fin 6 → ℝ :=
  ![dX d.u x y, dY d.v x y, dY d.u x y + dX d.v x y, -dX (dX d.w) x y, -dY (dY d.w) x y, -(2 * dY (dX d.w) x y)]

/-- Mixed energy of two displacements of the plate `[0, a] x [0, b]` with laminate matrix `M`; for `d = d'` it is twice the
strain energy. -/
noncomputable def Spec.mixedEnergy (M : Matrix (Fin 6) (Fin 6) ℝ) (a b : ℝ) (d d' : Disp) : ℝ :=
  ∫ x in (0 : ℝ)..a, ∫ y in (0 : ℝ)..b, strain6 d x y ⬝ᵥ M.mulVec (strain6 d' x y)

/-- The shape function with numbers `q` on the physical plate. -/
noncomputable def Spec.shapeFn (a b : ℝ) (q : ℕ × ℕ) (x y : ℝ) : ℝ :=
  (shape q.1).eval (2 / a * x - 1) * (shape q.2).eval (2 / b * y - 1)

/-- The field `f` in one displacement. -/
def Spec.alongU (f : ℝ → ℝ → ℝ) : Disp := ⟨f, fun _ _ => 0, fun _ _ => 0⟩
@[inherit_doc Spec.alongU] def Spec.alongV (f : ℝ → ℝ → ℝ) : Disp := ⟨fun _ _ => 0, f, fun _ _ => 0⟩
@[inherit_doc Spec.alongU] def Spec.alongW (f : ℝ → ℝ → ℝ) : Disp := ⟨fun _ _ => 0, fun _ _ => 0, f⟩

/-- `[[A, B], [B, D]]` with symmetric 3x3 blocks. -/
def Spec.LamSymm (M : Matrix (Fin 6) (Fin 6) ℝ) : Prop :=
  M.IsSymm ∧ ∀ i j : Fin 3, M (Fin.natAdd 3 i) (Fin.castAdd 3 j) = M (Fin.natAdd 3 j) (Fin.castAdd 3 i)

/-- Integral of a product over the plate. -/
noncomputable def Spec.overlap (a b : ℝ) (f g : ℝ → ℝ → ℝ) : ℝ :=
  ∫ x in (0 : ℝ)..a, ∫ y in (0 : ℝ)..b, f x y * g x y

/-! ## Integrals of products of shapes -/

variable {a b : ℝ}

/-- A product of two polynomials of the local coordinates. -/
noncomputable def pq (a b : ℝ) (p q : ℝ[X]) (x y : ℝ) : ℝ := (phys a p).eval x * (phys b q).eval y

theorem shapeFn_pq (a b : ℝ) (q : ℕ × ℕ) : shapeFn a b q = pq a b (shape q.1) (shape q.2) := by
  funext x y
  simp [shapeFn, pq, phys_eval]

theorem dX_cmul (c : ℝ) (p q : ℝ[X]) :
    dX (fun x y => c * pq a b p q x y) = fun x y => c * (2 / a) * pq a b (derivative p) q x y := by
  funext x y
  unfold dX pq
  have h : HasDerivAt (fun t => c * ((phys a p).eval t * (phys b q).eval y))
      (c * ((derivative (phys a p)).eval x * (phys b q).eval y)) x := (((phys a p).hasDerivAt x).mul_const _).const_mul _
  rw [h.deriv, derivative_phys, eval_mul, eval_C]
  ring

theorem dY_cmul (c : ℝ) (p q : ℝ[X]) :
    dY (fun x y => c * pq a b p q x y) = fun x y => c * (2 / b) * pq a b p (derivative q) x y := by
  funext x y
  unfold dY pq
  have h : HasDerivAt (fun t => c * ((phys a p).eval x * (phys b q).eval t))
      (c * ((phys a p).eval x * (derivative (phys b q)).eval y)) y := (((phys b q).hasDerivAt y).const_mul _).const_mul _
  rw [h.deriv, derivative_phys, eval_mul, eval_C]
  ring

theorem shape_derivs (a b : ℝ) (q : ℕ × ℕ) :
    dX (shapeFn a b q) = (fun x y => 2 / a * pq a b (derivative (shape q.1)) (shape q.2) x y) ∧
    dY (shapeFn a b q) = (fun x y => 2 / b * pq a b (shape q.1) (derivative (shape q.2)) x y) ∧
    dX (dX (shapeFn a b q)) = (fun x y => 2 / a * (2 / a) * pq a b (derivative (derivative (shape q.1))) (shape q.2) x y) ∧
    dY (dY (shapeFn a b q)) = (fun x y => 2 / b * (2 / b) * pq a b (shape q.1) (derivative (derivative (shape q.2))) x y) ∧
    dY (dX (shapeFn a b q)) = (fun x y => 2 / a * (2 / b) * pq a b (derivative (shape q.1)) (derivative (shape q.2)) x y) := by
  have e : shapeFn a b q = fun x y => 1 * pq a b (shape q.1) (shape q.2) x y := by
    rw [shapeFn_pq]; funext x y; rw [one_mul]
  have h1 := dX_cmul (a := a) (b := b) 1 (shape q.1) (shape q.2)
  have h2 := dY_cmul (a := a) (b := b) 1 (shape q.1) (shape q.2)
  rw [← e, one_mul] at h1 h2
  refine ⟨h1, h2, ?_, ?_, ?_⟩
  · rw [h1, dX_cmul]
  · rw [h2, dY_cmul]
  · rw [h1, dY_cmul]

theorem d_zero : dX (fun _ _ => (0 : ℝ)) = (fun _ _ => 0) ∧ dY (fun _ _ => (0 : ℝ)) = (fun _ _ => 0) := by
  constructor <;> funext x y <;> simp [dX, dY]

/-- Double integral of two products. -/
theorem DI.pp (ha : a ≠ 0) (hb : b ≠ 0) (p q p' q' : ℝ[X]) : DI a b (fun x y => pq a b p q x y * pq a b p' q' x y)
    (a * b / 4 * ((∫ x in (-1 : ℝ)..1, p.eval x * p'.eval x) * ∫ y in (-1 : ℝ)..1, q.eval y * q'.eval y)) := by
  have h := DI.base (a := a) (b := b) (phys a p * phys a p') (phys b q * phys b q')
  simp only [eval_mul, int_phys ha, int_phys hb] at h
  have e : (fun x y => pq a b p q x y * pq a b p' q' x y) = fun x y =>
      (phys a p).eval x * (phys a p').eval x * ((phys b q).eval y * (phys b q').eval y) := by
    funext x y; unfold pq; ring
  rw [e]
  refine ⟨h.inner, h.outer, ?_⟩
  rw [h.val]
  ring

theorem overlap_pq (ha : a ≠ 0) (hb : b ≠ 0) (c c' : ℝ) (p q p' q' : ℝ[X]) :
    overlap a b (fun x y => c * pq a b p q x y) (fun x y => c' * pq a b p' q' x y) =
      c * c' * (a * b / 4 * ((∫ x in (-1 : ℝ)..1, p.eval x * p'.eval x) * ∫ y in (-1 : ℝ)..1, q.eval y * q'.eval y)) := by
  have h := (DI.pp ha hb p q p' q').smul (c * c')
  rw [← h.val]
  unfold overlap
  congr 1; funext x; congr 1; funext y
  ring

/-- The mixed energy of two fields, as a double sum. -/
theorem mixed_sum (M : Matrix (Fin 6) (Fin 6) ℝ) (d d' : Disp) (v : Fin 6 → Fin 6 → ℝ)
    (h : ∀ i j, DI a b (fun x y => strain6 d x y i * strain6 d' x y j) (v i j)) :
    DI a b (fun x y => strain6 d x y ⬝ᵥ M.mulVec (strain6 d' x y)) (∑ i, ∑ j, M i j * v i j) := by
  have e : (fun x y => strain6 d x y ⬝ᵥ M.mulVec (strain6 d' x y)) =
      fun x y => ∑ i, ∑ j, M i j * (strain6 d x y i * strain6 d' x y j) := by
    funext x y
    simp only [dotProduct, Matrix.mulVec, Finset.mul_sum]
    exact Finset.sum_congr rfl fun i _ => Finset.sum_congr rfl fun j _ => by ring
  rw [e]
  exact DI.sum _ fun i _ => DI.sum _ fun j _ => (h i j).smul _

/-- Strains that are multiples of products. -/
theorem mixed_products (ha : a ≠ 0) (hb : b ≠ 0) (M : Matrix (Fin 6) (Fin 6) ℝ) (d d' : Disp) (c c' : Fin 6 → ℝ)
    (p q p' q' : Fin 6 → ℝ[X]) (h : ∀ x y, strain6 d x y = fun i => c i * pq a b (p i) (q i) x y)
    (h' : ∀ x y, strain6 d' x y = fun i => c' i * pq a b (p' i) (q' i) x y) :
    DI a b (fun x y => strain6 d x y ⬝ᵥ M.mulVec (strain6 d' x y)) (∑ i, ∑ j, M i j * (c i * c' j * (a * b / 4 *
      ((∫ x in (-1 : ℝ)..1, (p i).eval x * (p' j).eval x) * ∫ y in (-1 : ℝ)..1, (q i).eval y * (q' j).eval y)))) := by
  refine mixed_sum M d d' _ fun i j => ?_
  have h2 := (DI.pp ha hb (p i) (q i) (p' j) (q' j)).smul (c i * c' j)
  have e : (fun x y => strain6 d x y i * strain6 d' x y j) =
      fun x y => c i * c' j * (pq a b (p i) (q i) x y * pq a b (p' j) (q' j) x y) := by
    funext x y
    rw [h, h']
    ring
  rw [e]
  exact h2

/-- The factors and the derivatives in the strains of the three elementary fields. -/
noncomputable def cU (a b : ℝ) : Fin 6 → ℝ := ![2 / a, 0, 2 / b, 0, 0, 0]
@[inherit_doc cU] noncomputable def cV (a b : ℝ) : Fin 6 → ℝ := ![0, 2 / b, 2 / a, 0, 0, 0]
@[inherit_doc cU] noncomputable def cW (a b : ℝ) : Fin 6 → ℝ :=
  ![0, 0, 0, -(2 / a * (2 / a)), -(2 / b * (2 / b)), -(2 * (2 / a * (2 / b)))]
@[inherit_doc cU] noncomputable def pU (f : ℝ[X]) : Fin 6 → ℝ[X] := ![derivative f, 0, f, 0, 0, 0]
@[inherit_doc cU] noncomputable def qU (f : ℝ[X]) : Fin 6 → ℝ[X] := ![f, 0, derivative f, 0, 0, 0]
@[inherit_doc cU] noncomputable def pV (f : ℝ[X]) : Fin 6 → ℝ[X] := ![0, f, derivative f, 0, 0, 0]
@[inherit_doc cU] noncomputable def qV (f : ℝ[X]) : Fin 6 → ℝ[X] := ![0, derivative f, f, 0, 0, 0]
@[inherit_doc cU] noncomputable def pW (f : ℝ[X]) : Fin 6 → ℝ[X] := ![0, 0, 0, derivative (derivative f), f, derivative f]
@[inherit_doc cU] noncomputable def qW (f : ℝ[X]) : Fin 6 → ℝ[X] := ![0, 0, 0, f, derivative (derivative f), derivative f]

theorem strain_U (q : ℕ × ℕ) (x y : ℝ) : strain6 (alongU (shapeFn a b q)) x y =
    fun i => cU a b i * pq a b (pU (shape q.1) i) (qU (shape q.2) i) x y := by
  obtain ⟨h1, h2, -⟩ := shape_derivs a b q
  funext i
  fin_cases i <;> simp [strain6, alongU, h1, h2, d_zero, cU, pU, qU]

theorem strain_V (q : ℕ × ℕ) (x y : ℝ) : strain6 (alongV (shapeFn a b q)) x y =
    fun i => cV a b i * pq a b (pV (shape q.1) i) (qV (shape q.2) i) x y := by
  obtain ⟨h1, h2, -⟩ := shape_derivs a b q
  funext i
  fin_cases i <;> simp [strain6, alongV, h1, h2, d_zero, cV, pV, qV]

theorem strain_W (q : ℕ × ℕ) (x y : ℝ) : strain6 (alongW (shapeFn a b q)) x y =
    fun i => cW a b i * pq a b (pW (shape q.1) i) (qW (shape q.2) i) x y := by
  obtain ⟨h1, h2, h3, h4, h5⟩ := shape_derivs a b q
  funext i
  fin_cases i <;> simp [strain6, alongW, h3, h4, h5, d_zero, cW, pW, qW]; ring

/-- The nine entries against the mixed energies; `t` are the entries computed from exact integrals. -/
theorem ten_mixed (ha : a ≠ 0) (hb : b ≠ 0) (M : Matrix (Fin 6) (Fin 6) ℝ) (hM : LamSymm M) (Nxx Nyy Nxy : ℝ)
    (u v w u' v' w' : ℕ × ℕ) :
    let t := tenV exactV a b M Nxx Nyy Nxy u v w u' v' w'
    let F := shapeFn a b
    t.k11 = mixedEnergy M a b (alongU (F u)) (alongU (F u')) + M 2 2 * ((b / a) ^ 2 - 1) * overlap a b (dY (F u)) (dY (F u')) ∧
    t.k12 = mixedEnergy M a b (alongU (F u)) (alongV (F v')) ∧
    t.k13 = mixedEnergy M a b (alongU (F u)) (alongW (F w')) - M 3 0 * (a - 1) * overlap a b (dX (F u)) (dX (dX (F w')))
      - M 5 1 * (1 / a - 1) * overlap a b (dY (F u)) (dY (dY (F w'))) ∧
    t.k21 = mixedEnergy M a b (alongV (F v)) (alongU (F u')) + M 2 0 * ((a / b) ^ 2 - 1) * overlap a b (dX (F v)) (dX (F u')) ∧
    t.k22 = mixedEnergy M a b (alongV (F v)) (alongV (F v')) ∧
    t.k23 = mixedEnergy M a b (alongV (F v)) (alongW (F w')) ∧
    t.k31 = mixedEnergy M a b (alongW (F w)) (alongU (F u')) + M 3 0 * (overlap a b (dX (dX (F w))) (dX (F u'))
      - overlap a b (dX (F w)) (dX (dX (F u')))) ∧
    t.k32 = mixedEnergy M a b (alongW (F w)) (alongV (F v')) ∧
    t.k33 = mixedEnergy M a b (alongW (F w)) (alongW (F w')) := by
  intro t F
  have hs : ∀ i j, M i j = M j i := fun i j => hM.1.apply j i
  have UU := (mixed_products ha hb M _ _ _ _ _ _ _ _ (strain_U (a := a) (b := b) u) (strain_U u')).val
  have UV := (mixed_products ha hb M _ _ _ _ _ _ _ _ (strain_U (a := a) (b := b) u) (strain_V v')).val
  have UW := (mixed_products ha hb M _ _ _ _ _ _ _ _ (strain_U (a := a) (b := b) u) (strain_W w')).val
  have VU := (mixed_products ha hb M _ _ _ _ _ _ _ _ (strain_V (a := a) (b := b) v) (strain_U u')).val
  have VV := (mixed_products ha hb M _ _ _ _ _ _ _ _ (strain_V (a := a) (b := b) v) (strain_V v')).val
  have VW := (mixed_products ha hb M _ _ _ _ _ _ _ _ (strain_V (a := a) (b := b) v) (strain_W w')).val
  have WU := (mixed_products ha hb M _ _ _ _ _ _ _ _ (strain_W (a := a) (b := b) w) (strain_U u')).val
  have WV := (mixed_products ha hb M _ _ _ _ _ _ _ _ (strain_W (a := a) (b := b) w) (strain_V v')).val
  have WW := (mixed_products ha hb M _ _ _ _ _ _ _ _ (strain_W (a := a) (b := b) w) (strain_W w')).val
  have z1 := hs 0 1
  have z2 := hs 0 2
  have z3 := hs 1 2
  have z4 := hs 0 3
  have z5 := hs 0 4
  have z6 := hs 0 5
  have z7 := hs 1 3
  have z8 := hs 1 4
  have z9 := hs 1 5
  have y1 := hs 2 3
  have y2 := hs 2 4
  have y3 := hs 2 5
  have y4 := hs 3 4
  have y5 := hs 3 5
  have y6 := hs 4 5
  have b1 : M 3 1 = M 4 0 := hM.2 0 1
  have b2 : M 3 2 = M 5 0 := hM.2 0 2
  have b3 : M 4 2 = M 5 1 := hM.2 1 2
  simp only [Fin.sum_univ_six, cU, cV, cW, pU, qU, pV, qV, pW, qW, Matrix.cons_val_zero, Matrix.cons_val_one, Matrix.cons_val,
    mul_zero, zero_mul, add_zero, zero_add] at UU UV UW VU VV VW WU WV WW
  simp only [mixedEnergy, F, UU, UV, UW, VU, VV, VW, WU, WV, WW, t, tenV, k33v, exactV, (shape_derivs _ _ _).1,
    (shape_derivs _ _ _).2.1, dX_cmul, dY_cmul, overlap_pq ha hb]
  simp only [Matrix.of_apply, Matrix.cons_val_zero, Matrix.cons_val_one, Matrix.cons_val, z1, z2, z3, z4, z5, z6, z7, z8, z9,
    y1, y2, y3, y4, y5, y6, b1, b2, b3]
  clear UU UV UW VU VV VW WU WV WW
  refine ⟨?_, ?_, ?_, ?_, ?_, ?_, ?_, ?_, ?_⟩ <;> (field_simp; ring)

/-! ## C88: block by block -/

/-- What each block of `K` is, for displacements spanned by the shapes `U`, `V`, `W`: four blocks are the energy, four differ
from it by the terms shown, and block (2,3) repeats block (3,1). -/
structure Spec.BlocksOf (M : Matrix (Fin 6) (Fin 6) ℝ) (a b : ℝ) {N : ℕ} (U V W : ℕ → ℝ → ℝ → ℝ)
    (K : Matrix (I3 N) (I3 N) ℝ) : Prop where
  b11 : ∀ r s : Fin N, K (.inl r) (.inl s) = mixedEnergy M a b (alongU (U r)) (alongU (U s))
    + M 2 2 * ((b / a) ^ 2 - 1) * overlap a b (dY (U r)) (dY (U s))
  b12 : ∀ r s : Fin N, K (.inl r) (.inr (.inl s)) = mixedEnergy M a b (alongU (U r)) (alongV (V s))
  b13 : ∀ r s : Fin N, K (.inl r) (.inr (.inr s)) = mixedEnergy M a b (alongU (U r)) (alongW (W s))
    - M 3 0 * (a - 1) * overlap a b (dX (U r)) (dX (dX (W s)))
    - M 5 1 * (1 / a - 1) * overlap a b (dY (U r)) (dY (dY (W s)))
  b21 : ∀ r s : Fin N, K (.inr (.inl r)) (.inl s) = mixedEnergy M a b (alongV (V r)) (alongU (U s))
    + M 2 0 * ((a / b) ^ 2 - 1) * overlap a b (dX (V r)) (dX (U s))
  b22 : ∀ r s : Fin N, K (.inr (.inl r)) (.inr (.inl s)) = mixedEnergy M a b (alongV (V r)) (alongV (V s))
  b23 : ∀ r s : Fin N, K (.inr (.inl r)) (.inr (.inr s)) = K (.inr (.inr r)) (.inl s)
  b31 : ∀ r s : Fin N, K (.inr (.inr r)) (.inl s) = mixedEnergy M a b (alongW (W r)) (alongU (U s))
    + M 3 0 * (overlap a b (dX (dX (W r))) (dX (U s)) - overlap a b (dX (W r)) (dX (dX (U s))))
  b32 : ∀ r s : Fin N, K (.inr (.inr r)) (.inr (.inl s)) = mixedEnergy M a b (alongW (W r)) (alongV (V s))
  b33 : ∀ r s : Fin N, K (.inr (.inr r)) (.inr (.inr s)) = mixedEnergy M a b (alongW (W r)) (alongW (W s))

/-- The blocks of the closed form. -/
theorem kABD_blocks (M : Matrix (Fin 6) (Fin 6) ℝ) (hM : LamSymm M) (p : PlateNum) (ha : p.a ≠ 0) (hb : p.b ≠ 0) (s : ShapeIdx) :
    BlocksOf M p.a p.b (fun r => shapeFn p.a p.b (s.u.getD r (0, 0))) (fun r => shapeFn p.a p.b (s.v.getD r (0, 0)))
      (fun r => shapeFn p.a p.b (s.w.getD r (0, 0))) (kABD exactV p M s) := by
  have t := fun r c : Fin (p.m * p.n) => ten_mixed ha hb M hM p.Nxx p.Nyy p.Nxy (s.u.getD r (0, 0)) (s.v.getD r (0, 0))
    (s.w.getD r (0, 0)) (s.u.getD c (0, 0)) (s.v.getD c (0, 0)) (s.w.getD c (0, 0))
  exact ⟨fun r c => (t r c).1, fun r c => (t r c).2.1, fun r c => (t r c).2.2.1, fun r c => (t r c).2.2.2.1,
    fun r c => (t r c).2.2.2.2.1, fun r c => rfl, fun r c => (t r c).2.2.2.2.2.2.1, fun r c => (t r c).2.2.2.2.2.2.2.1,
    fun r c => (t r c).2.2.2.2.2.2.2.2⟩

/-- **C88** with exactly integrated tables, for all supports: the blocks of the matrix returned by `calc_K_KG_ABD`. -/
theorem C88_blocks (M : Matrix (Fin 6) (Fin 6) ℝ) (hM : LamSymm M) (c : Constraints) (p : PlateNum) (ha : p.a ≠ 0) (hb : p.b ≠ 0)
    (s : ShapeIdx) (hs : computeIdx c p.m p.n = .ok s) :
    ∃ K KG, calcKKGABD exactReaders (.ok M) c p = .ok (K, KG) ∧
      BlocksOf M p.a p.b (fun r => shapeFn p.a p.b (s.u.getD r (0, 0))) (fun r => shapeFn p.a p.b (s.v.getD r (0, 0)))
        (fun r => shapeFn p.a p.b (s.w.getD r (0, 0))) K :=
  ⟨_, _, calcKKGABD_ok exact_ok M c p s hs ha hb (fun _ _ => ⟨trivial, trivial⟩) (fun _ _ => ⟨trivial, trivial⟩)
    (fun _ _ => ⟨trivial, trivial⟩), kABD_blocks M hM p ha hb s⟩

/-- The `r`-th shape of a clamped plate with `n` terms along `y`. -/
noncomputable def Spec.clampedShape (a b : ℝ) (n r : ℕ) : ℝ → ℝ → ℝ := shapeFn a b (4 + r / n, 4 + r % n)

theorem clamped_getD (m n : ℕ) (r : Fin (m * n)) :
    ((List.range' 4 m).product (List.range' 4 n)).getD r (0, 0) = (4 + r / n, 4 + r % n) := by
  have hn : 0 < n := by
    rcases Nat.eq_zero_or_pos n with h | h
    · exact absurd r.2 (by simp [h])
    · exact h
  have h1 : (r : ℕ) / n < (List.range' 4 m).length := by
    rw [List.length_range']; exact (Nat.div_lt_iff_lt_mul hn).mpr r.2
  have h2 : (r : ℕ) % n < (List.range' 4 n).length := by
    rw [List.length_range']; exact Nat.mod_lt _ hn
  have h := flatMap_map_get (List.range' 4 m) (List.range' 4 n) (fun i j => (i, j)) _ _ h1 h2
  have e : (r : ℕ) / n * (List.range' 4 n).length + r % n = r := by
    rw [List.length_range', Nat.mul_comm]; exact Nat.div_add_mod _ _
  rw [e] at h
  have h' : ((List.range' 4 m).product (List.range' 4 n))[(r : ℕ)]? = some (4 + r / n, 4 + r % n) := by
    refine Eq.trans h ?_
    simp
  simp [List.getD, h']

/-- **C88** clamped plate, shipped tables. -/
theorem C88_clamped (M : Matrix (Fin 6) (Fin 6) ℝ) (hM : LamSymm M) (p : PlateNum) (ha : p.a ≠ 0) (hb : p.b ≠ 0)
    (hm : p.m ≤ 26) (hn : p.n ≤ 26) :
    ∃ K KG, calcKKGABD shipped (.ok M) (.str wCLAMPED) p = .ok (K, KG) ∧
      BlocksOf M p.a p.b (clampedShape p.a p.b p.n) (clampedShape p.a p.b p.n) (clampedShape p.a p.b p.n) K := by
  obtain ⟨s, KG, hK, hs, hu, hv, hw⟩ := clamped_ABD M p ha hb hm hn
  have h := kABD_blocks M hM p ha hb s
  refine ⟨_, KG, hK, ?_⟩
  have e : ∀ r : Fin (p.m * p.n), shapeFn p.a p.b (((List.range' 4 p.m).product (List.range' 4 p.n)).getD r (0, 0)) =
      clampedShape p.a p.b p.n r := fun r => by rw [clamped_getD]; rfl
  obtain ⟨b11, b12, b13, b21, b22, b23, b31, b32, b33⟩ := h
  simp only [hu, hv, hw, e] at b11 b12 b13 b21 b22 b23 b31 b32 b33
  exact ⟨b11, b12, b13, b21, b22, b23, b31, b32, b33⟩

/-! ## When the blocks are right -/

theorem overlap_shape (ha : a ≠ 0) (hb : b ≠ 0) (q q' : ℕ × ℕ) :
    overlap a b (dY (shapeFn a b q)) (dY (shapeFn a b q')) = a / b * (exactV.ff q.1 q'.1 * exactV.fxi_fxi q.2 q'.2) ∧
    overlap a b (dX (shapeFn a b q)) (dX (shapeFn a b q')) = b / a * (exactV.fxi_fxi q.1 q'.1 * exactV.ff q.2 q'.2) ∧
    overlap a b (dX (shapeFn a b q)) (dX (dX (shapeFn a b q'))) =
      2 * b / a ^ 2 * (exactV.fxi_fxixi q.1 q'.1 * exactV.ff q.2 q'.2) ∧
    overlap a b (dX (dX (shapeFn a b q))) (dX (shapeFn a b q')) =
      2 * b / a ^ 2 * (exactV.fxixi_fxi q.1 q'.1 * exactV.ff q.2 q'.2) ∧
    overlap a b (dY (shapeFn a b q)) (dY (dY (shapeFn a b q'))) =
      2 * a / b ^ 2 * (exactV.ff q.1 q'.1 * exactV.fxi_fxixi q.2 q'.2) := by
  simp only [(shape_derivs _ _ _).1, (shape_derivs _ _ _).2.1, dX_cmul, dY_cmul, overlap_pq ha hb, exactV]
  refine ⟨?_, ?_, ?_, ?_, ?_⟩ <;> (field_simp; try ring)

/-- By parts, for shapes whose slope vanishes at both ends. -/
theorem bubble_parts (i k : ℕ) (hi : 4 ≤ i) : exactV.fxixi_fxi i k = -exactV.fxi_fxixi i k := by
  have e1 : exactV.fxixi_fxi i k = pint (derivative (shape k) * derivative (derivative (shape i))) := by
    simp only [exactV, pint, eval_mul, mul_comm]
  have e2 : exactV.fxi_fxixi i k = pint (derivative (derivative (shape k)) * derivative (shape i)) := by
    simp only [exactV, pint, eval_mul, mul_comm]
  obtain ⟨-, -, h1, h2⟩ := C45_bubble i hi
  rw [e1, e2, pint_by_parts, eval_mul, eval_mul, h1, h2]
  simp

theorem ff45 : exactV.ff 4 5 = 0 := by
  have : exactV.ff 4 5 = pint (shape 4 * shape 5) := by simp [exactV, pint]
  rw [this, shape4, shape5]
  have : ((C (1 / 8) * X ^ 4 - C (1 / 4) * X ^ 2 + C (1 / 8)) * (C (1 / 8) * X ^ 5 - C (1 / 4) * X ^ 3 + C (1 / 8) * X) : ℝ[X])
      = C (1 / 8) * (C (1 / 8) * X ^ 9) - C (1 / 8) * (C (1 / 2) * X ^ 7) + C (1 / 8) * (C (3 / 4) * X ^ 5)
        - C (1 / 8) * (C (1 / 2) * X ^ 3) + C (1 / 8) * (C (1 / 8) * X ^ 1) := by
    have e : (C (1 / 4) : ℝ[X]) = C (1 / 8) * 2 := by
      rw [show (2 : ℝ[X]) = C 2 from rfl, ← C_mul]; norm_num
    have e2 : (C (1 / 2) : ℝ[X]) = C (1 / 8) * 4 := by
      rw [show (4 : ℝ[X]) = C 4 from rfl, ← C_mul]; norm_num
    have e3 : (C (3 / 4) : ℝ[X]) = C (1 / 8) * 6 := by
      rw [show (6 : ℝ[X]) = C 6 from rfl, ← C_mul]; norm_num
    rw [e, e2, e3]; ring
  rw [this, pint_add, pint_sub, pint_add, pint_sub]
  simp only [pint_C_mul, pint_X_pow]
  norm_num

/-- **C88** for a clamped plate the four other blocks are the energy only in special cases: block (1,1) iff the plate is square or
`A66 = 0`; block (2,1) iff it is square or `A16 = 0`; block (1,3) iff `a = 1` or `B11 = B26 = 0`; block (3,1) iff `B11 = 0`. -/
theorem C88_iff (M : Matrix (Fin 6) (Fin 6) ℝ) (hM : LamSymm M) (p : PlateNum) (ha : 0 < p.a) (hb : 0 < p.b)
    (hm : 2 ≤ p.m ∧ p.m ≤ 26) (hn : 2 ≤ p.n ∧ p.n ≤ 26) :
    ∃ K KG, calcKKGABD shipped (.ok M) (.str wCLAMPED) p = .ok (K, KG) ∧
      let F := fun r : Fin (p.m * p.n) => clampedShape p.a p.b p.n r
      let E := mixedEnergy M p.a p.b
      ((∀ r s, K (.inl r) (.inl s) = E (alongU (F r)) (alongU (F s))) ↔ p.a = p.b ∨ M 2 2 = 0) ∧
      ((∀ r s, K (.inr (.inl r)) (.inl s) = E (alongV (F r)) (alongU (F s))) ↔ p.a = p.b ∨ M 2 0 = 0) ∧
      ((∀ r s, K (.inl r) (.inr (.inr s)) = E (alongU (F r)) (alongW (F s))) ↔ p.a = 1 ∨ (M 3 0 = 0 ∧ M 5 1 = 0)) ∧
      ((∀ r s, K (.inr (.inr r)) (.inl s) = E (alongW (F r)) (alongU (F s))) ↔ M 3 0 = 0) := by
  obtain ⟨K, KG, hK, h⟩ := C88_clamped M hM p ha.ne' hb.ne' hm.2 hn.2
  have ha' := ha.ne'
  have hb' := hb.ne'
  refine ⟨K, KG, hK, ?_⟩
  intro F E
  have hlt : ∀ i j : ℕ, i < 2 → j < 2 → i * p.n + j < p.m * p.n := by
    intro i j hi hj
    calc i * p.n + j < i * p.n + p.n := by omega
      _ = (i + 1) * p.n := by ring
      _ ≤ p.m * p.n := Nat.mul_le_mul_right _ (by omega)
  have hF : ∀ (i j : ℕ) (hi : i < 2) (hj : j < 2), F ⟨i * p.n + j, hlt i j hi hj⟩ = shapeFn p.a p.b (4 + i, 4 + j) := by
    intro i j hi hj
    have h1 : (i * p.n + j) / p.n = i := by
      rw [Nat.add_comm, Nat.add_mul_div_right _ _ (by omega), Nat.div_eq_of_lt (by omega), zero_add]
    have h2 : (i * p.n + j) % p.n = j := by
      rw [Nat.add_comm, Nat.add_mul_mod_self_right, Nat.mod_eq_of_lt (by omega)]
    simp only [F, clampedShape, h1, h2]
  have ov := fun q q' => overlap_shape ha' hb' (a := p.a) (b := p.b) q q'
  obtain ⟨e1, e2, e3⟩ := entry44
  have e4 := bubble_parts 4 5 (by norm_num)
  have sq : ∀ x y : ℝ, 0 < x → 0 < y → (y / x) ^ 2 = 1 → x = y := by
    intro x y hx hy hxy
    have h1 : y ^ 2 = x ^ 2 := by rw [div_pow, div_eq_one_iff_eq (by positivity)] at hxy; exact hxy
    nlinarith
  refine ⟨⟨fun hall => ?_, fun hc r s => ?_⟩, ⟨fun hall => ?_, fun hc r s => ?_⟩, ⟨fun hall => ?_, fun hc r s => ?_⟩,
    ⟨fun hall => ?_, fun hc r s => ?_⟩⟩
  · have h1 := h.b11 ⟨0 * p.n + 0, hlt 0 0 (by omega) (by omega)⟩ ⟨0 * p.n + 0, hlt 0 0 (by omega) (by omega)⟩
    rw [hall] at h1
    have hf := hF 0 0 (by omega) (by omega)
    simp only [F] at hf
    simp only [F, E, hf, (ov _ _).1, e1, e2] at h1
    have h2 : M 2 2 * ((p.b / p.a) ^ 2 - 1) * (p.a / p.b * (4 / 315 * (4 / 105))) = 0 := by linarith
    have h3 : p.a / p.b * (4 / 315 * (4 / 105)) ≠ 0 := by positivity
    rcases mul_eq_zero.mp ((mul_eq_zero.mp h2).resolve_right h3) with h4 | h4
    · exact Or.inr h4
    · exact Or.inl (sq _ _ ha hb (by linarith))
  · rw [h.b11]
    rcases hc with hc | hc
    · have : (p.b / p.a) ^ 2 - 1 = 0 := by rw [hc, div_self hb']; ring
      rw [this]; simp [F, E]
    · rw [hc]; simp [F, E]
  · have h1 := h.b21 ⟨0 * p.n + 0, hlt 0 0 (by omega) (by omega)⟩ ⟨0 * p.n + 0, hlt 0 0 (by omega) (by omega)⟩
    rw [hall] at h1
    have hf := hF 0 0 (by omega) (by omega)
    simp only [F] at hf
    simp only [F, E, hf, (ov _ _).2.1, e1, e2] at h1
    have h2 : M 2 0 * ((p.a / p.b) ^ 2 - 1) * (p.b / p.a * (4 / 105 * (4 / 315))) = 0 := by linarith
    have h3 : p.b / p.a * (4 / 105 * (4 / 315)) ≠ 0 := by positivity
    rcases mul_eq_zero.mp ((mul_eq_zero.mp h2).resolve_right h3) with h4 | h4
    · exact Or.inr h4
    · exact Or.inl (sq _ _ hb ha (by linarith)).symm
  · rw [h.b21]
    rcases hc with hc | hc
    · have : (p.a / p.b) ^ 2 - 1 = 0 := by rw [hc, div_self hb']; ring
      rw [this]; simp [F, E]
    · rw [hc]; simp [F, E]
  · have h1 := h.b13 ⟨0 * p.n + 0, hlt 0 0 (by omega) (by omega)⟩ ⟨1 * p.n + 0, hlt 1 0 (by omega) (by omega)⟩
    have h2 := h.b13 ⟨0 * p.n + 0, hlt 0 0 (by omega) (by omega)⟩ ⟨0 * p.n + 1, hlt 0 1 (by omega) (by omega)⟩
    rw [hall] at h1 h2
    have f00 := hF 0 0 (by omega) (by omega)
    have f10 := hF 1 0 (by omega) (by omega)
    have f01 := hF 0 1 (by omega) (by omega)
    simp only [F] at f00 f10 f01
    simp only [F, E, f00, f10] at h1
    simp only [F, E, f00, f01] at h2
    simp only [(ov _ _).2.2.1, (ov _ _).2.2.2.2, Nat.reduceAdd, e2, e3, ff45, zero_mul, mul_zero] at h1 h2
    have h3 : (M 3 0 * (p.a - 1)) * (2 * p.b / p.a ^ 2 * (2 / 35 * (4 / 315))) = 0 := by linarith
    have h4 : (M 5 1 * (1 / p.a - 1)) * (2 * p.a / p.b ^ 2 * (4 / 315 * (2 / 35))) = 0 := by linarith
    have h5 := (mul_eq_zero.mp h3).resolve_right (by positivity)
    have h6 := (mul_eq_zero.mp h4).resolve_right (by positivity)
    by_cases h1' : p.a = 1
    · exact Or.inl h1'
    · refine Or.inr ⟨(mul_eq_zero.mp h5).resolve_right (sub_ne_zero.mpr h1'), (mul_eq_zero.mp h6).resolve_right ?_⟩
      intro h
      rw [sub_eq_zero, div_eq_one_iff_eq ha'] at h
      exact h1' h.symm
  · rw [h.b13]
    rcases hc with hc | ⟨h1, h2⟩
    · have h1 : p.a - 1 = 0 := by rw [hc]; ring
      have h2 : 1 / p.a - 1 = 0 := by rw [hc]; ring
      rw [h1, h2]; simp [F, E]
    · rw [h1, h2]; simp [F, E]
  · have h1 := h.b31 ⟨0 * p.n + 0, hlt 0 0 (by omega) (by omega)⟩ ⟨1 * p.n + 0, hlt 1 0 (by omega) (by omega)⟩
    rw [hall] at h1
    have f00 := hF 0 0 (by omega) (by omega)
    have f10 := hF 1 0 (by omega) (by omega)
    simp only [F] at f00 f10
    simp only [F, E, f00, f10] at h1
    simp only [(ov _ _).2.2.1, (ov _ _).2.2.2.1, Nat.reduceAdd, e2, e3, e4] at h1
    have h3 : M 3 0 * (4 * p.b / p.a ^ 2 * (2 / 35 * (4 / 315))) = 0 := by
      have : 4 * p.b / p.a ^ 2 = 2 * (2 * p.b / p.a ^ 2) := by ring
      rw [this]; linarith
    exact (mul_eq_zero.mp h3).resolve_right (by positivity)
  · rw [h.b31, hc]; simp [F, E]

/-! ## The quadratic form -/

/-- A combination of fields. -/
noncomputable def Spec.span {N : ℕ} (F : ℕ → ℝ → ℝ → ℝ) (c : Fin N → ℝ) (x y : ℝ) : ℝ := ∑ r, c r * F r x y

/-- The displacement with coefficients `c`. -/
noncomputable def Spec.spanDisp {N : ℕ} (U V W : ℕ → ℝ → ℝ → ℝ) (c : I3 N → ℝ) : Disp :=
  ⟨span U fun r => c (.inl r), span V fun r => c (.inr (.inl r)), span W fun r => c (.inr (.inr r))⟩

/-- The field of one degree of freedom. -/
def basis {N : ℕ} (U V W : ℕ → ℝ → ℝ → ℝ) : I3 N → Disp
  | .inl r => alongU (U r)
  | .inr (.inl r) => alongV (V r)
  | .inr (.inr r) => alongW (W r)

/-- Fields that are multiples of products of polynomials. -/
def IsPQ (a b : ℝ) (f : ℝ → ℝ → ℝ) : Prop := ∃ c p q, f = fun x y => c * pq a b p q x y

theorem IsPQ.shape (q : ℕ × ℕ) : IsPQ a b (shapeFn a b q) :=
  ⟨1, Composipy.shape q.1, Composipy.shape q.2, by rw [shapeFn_pq]; funext x y; rw [one_mul]⟩

theorem IsPQ.dX {f : ℝ → ℝ → ℝ} (h : IsPQ a b f) : IsPQ a b (dX f) := by
  obtain ⟨c, p, q, rfl⟩ := h
  exact ⟨_, _, _, dX_cmul c p q⟩

theorem IsPQ.dY {f : ℝ → ℝ → ℝ} (h : IsPQ a b f) : IsPQ a b (dY f) := by
  obtain ⟨c, p, q, rfl⟩ := h
  exact ⟨_, _, _, dY_cmul c p q⟩

theorem dX_span {N : ℕ} (F : ℕ → ℝ → ℝ → ℝ) (h : ∀ r, IsPQ a b (F r)) (c : Fin N → ℝ) :
    dX (span F c) = span (fun r => dX (F r)) c := by
  funext x y
  have : HasDerivAt (fun t => ∑ r, c r * F r t y) (∑ r, c r * dX (F r) x y) x := by
    refine HasDerivAt.fun_sum fun r _ => HasDerivAt.const_mul _ ?_
    obtain ⟨k, p, q, e⟩ := h r
    have h1 : HasDerivAt (fun t => k * ((phys a p).eval t * (phys b q).eval y))
      (k * ((derivative (phys a p)).eval x * (phys b q).eval y)) x := (((phys a p).hasDerivAt x).mul_const _).const_mul _
    have h2 : DifferentiableAt ℝ (fun t => F r t y) x := by rw [e]; exact h1.differentiableAt
    exact h2.hasDerivAt
  exact this.deriv

theorem dY_span {N : ℕ} (F : ℕ → ℝ → ℝ → ℝ) (h : ∀ r, IsPQ a b (F r)) (c : Fin N → ℝ) :
    dY (span F c) = span (fun r => dY (F r)) c := by
  funext x y
  have : HasDerivAt (fun t => ∑ r, c r * F r x t) (∑ r, c r * dY (F r) x y) y := by
    refine HasDerivAt.fun_sum fun r _ => HasDerivAt.const_mul _ ?_
    obtain ⟨k, p, q, e⟩ := h r
    have h1 : HasDerivAt (fun t => k * ((phys a p).eval x * (phys b q).eval t))
      (k * ((phys a p).eval x * (derivative (phys b q)).eval y)) y := (((phys b q).hasDerivAt y).const_mul _).const_mul _
    have h2 : DifferentiableAt ℝ (fun t => F r x t) y := by rw [e]; exact h1.differentiableAt
    exact h2.hasDerivAt
  exact this.deriv

theorem strain_span {N : ℕ} (U V W : ℕ → ℝ → ℝ → ℝ) (hU : ∀ r, IsPQ a b (U r)) (hV : ∀ r, IsPQ a b (V r))
    (hW : ∀ r, IsPQ a b (W r)) (c : I3 N → ℝ) (x y : ℝ) :
    strain6 (spanDisp U V W c) x y = ∑ i, c i • strain6 (basis U V W i) x y := by
  have e1 := dX_span U hU fun r => c (.inl r)
  have e2 := dY_span U hU fun r => c (.inl r)
  have e3 := dX_span V hV fun r => c (.inr (.inl r))
  have e4 := dY_span V hV fun r => c (.inr (.inl r))
  have e5 := dX_span W hW fun r => c (.inr (.inr r))
  have e6 := dY_span W hW fun r => c (.inr (.inr r))
  have e7 := dX_span (fun r => dX (W r)) (fun r => (hW r).dX) fun r => c (.inr (.inr r))
  have e8 := dY_span (fun r => dY (W r)) (fun r => (hW r).dY) fun r => c (.inr (.inr r))
  have e9 := dY_span (fun r => dX (W r)) (fun r => (hW r).dX) fun r => c (.inr (.inr r))
  funext i
  simp only [Fintype.sum_sum_type, basis, Finset.sum_apply, Pi.smul_apply, smul_eq_mul]
  fin_cases i <;>
    simp [strain6, spanDisp, alongU, alongV, alongW, e1, e2, e3, e4, e5, e6, e7, e8, e9, d_zero, span, Finset.mul_sum,
      mul_left_comm]

/-- The mixed energies of two elementary fields, as double integrals. -/
theorem basis_DI (ha : a ≠ 0) (hb : b ≠ 0) {N : ℕ} (M : Matrix (Fin 6) (Fin 6) ℝ) (qu qv qw : ℕ → ℕ × ℕ) (i j : I3 N) :
    let B := basis (N := N) (fun r => shapeFn a b (qu r)) (fun r => shapeFn a b (qv r)) (fun r => shapeFn a b (qw r))
    DI a b (fun x y => strain6 (B i) x y ⬝ᵥ M.mulVec (strain6 (B j) x y)) (mixedEnergy M a b (B i) (B j)) := by
  have key : ∀ i : I3 N, ∃ (c : Fin 6 → ℝ) (p q : Fin 6 → ℝ[X]), ∀ x y,
      strain6 (basis (N := N) (fun r => shapeFn a b (qu r)) (fun r => shapeFn a b (qv r)) (fun r => shapeFn a b (qw r)) i) x y
        = fun k => c k * pq a b (p k) (q k) x y := by
    intro i
    rcases i with r | r | r
    · exact ⟨_, _, _, strain_U (qu r)⟩
    · exact ⟨_, _, _, strain_V (qv r)⟩
    · exact ⟨_, _, _, strain_W (qw r)⟩
  obtain ⟨c, p, q, h⟩ := key i
  obtain ⟨c', p', q', h'⟩ := key j
  have := mixed_products ha hb M _ _ _ _ _ _ _ _ h h'
  exact ⟨this.inner, this.outer, rfl⟩

/-- The energy of a combination is the quadratic form of the mixed energies. -/
theorem energy_span (ha : a ≠ 0) (hb : b ≠ 0) {N : ℕ} (M : Matrix (Fin 6) (Fin 6) ℝ) (qu qv qw : ℕ → ℕ × ℕ) (c : I3 N → ℝ) :
    let U := fun r => shapeFn a b (qu r)
    let V := fun r => shapeFn a b (qv r)
    let W := fun r => shapeFn a b (qw r)
    mixedEnergy M a b (spanDisp U V W c) (spanDisp U V W c) =
      ∑ i, ∑ j, c i * c j * mixedEnergy M a b (basis U V W i) (basis U V W j) := by
  intro U V W
  have h : DI a b (fun x y => ∑ i, ∑ j, c i * c j * (strain6 (basis (N := N) U V W i) x y ⬝ᵥ M.mulVec (strain6 (basis U V W j) x y)))
      (∑ i, ∑ j, c i * c j * mixedEnergy M a b (basis U V W i) (basis U V W j)) :=
    DI.sum _ fun i _ => DI.sum _ fun j _ => (basis_DI ha hb M qu qv qw i j).smul _
  rw [← h.val]
  unfold mixedEnergy
  congr 1; funext x; congr 1; funext y
  rw [strain_span U V W (fun r => .shape _) (fun r => .shape _) (fun r => .shape _), sum_dotProduct]
  refine Finset.sum_congr rfl fun i _ => ?_
  rw [← Matrix.mulVecLin_apply, map_sum, dotProduct_sum]
  refine Finset.sum_congr rfl fun j _ => ?_
  rw [map_smul, Matrix.mulVecLin_apply, smul_dotProduct, dotProduct_smul, smul_eq_mul, smul_eq_mul]
  ring

theorem overlap_span (ha : a ≠ 0) (hb : b ≠ 0) {N : ℕ} (F G : ℕ → ℝ → ℝ → ℝ) (hF : ∀ r, IsPQ a b (F r)) (hG : ∀ r, IsPQ a b (G r))
    (c c' : Fin N → ℝ) : overlap a b (span F c) (span G c') = ∑ r, ∑ s, c r * c' s * overlap a b (F r) (G s) := by
  have h : DI a b (fun x y => ∑ r, ∑ s, c r * c' s * (F (r : Fin N) x y * G (s : Fin N) x y))
      (∑ r : Fin N, ∑ s : Fin N, c r * c' s * overlap a b (F r) (G s)) := by
    refine DI.sum _ fun r _ => DI.sum _ fun s _ => DI.smul _ ?_
    obtain ⟨k, p, q, e⟩ := hF r
    obtain ⟨k', p', q', e'⟩ := hG s
    have h1 := (DI.pp ha hb p q p' q').smul (k * k')
    have e2 : (fun x y => F (r : ℕ) x y * G (s : ℕ) x y) = fun x y => k * k' * (pq a b p q x y * pq a b p' q' x y) := by
      funext x y; rw [e, e']; ring
    have : DI a b (fun x y => F (r : ℕ) x y * G (s : ℕ) x y) _ := e2 ▸ h1
    exact ⟨this.inner, this.outer, rfl⟩
  rw [← h.val]
  unfold overlap span
  congr 1; funext x; congr 1; funext y
  rw [Finset.sum_mul_sum]
  refine Finset.sum_congr rfl fun r _ => Finset.sum_congr rfl fun s _ => by ring

/-- **C88** the energy that `K` measures for a clamped laminate without bending-extension coupling: the strain energy plus an error
in the shear term of `u` and an error in the `A16` term, both of which vanish for square plates. -/
theorem C88_energy (M : Matrix (Fin 6) (Fin 6) ℝ) (hM : LamSymm M) (h0 : Uncoupled M) (p : PlateNum) (ha : p.a ≠ 0) (hb : p.b ≠ 0)
    (hm : p.m ≤ 26) (hn : p.n ≤ 26) :
    ∃ K KG, calcKKGABD shipped (.ok M) (.str wCLAMPED) p = .ok (K, KG) ∧ ∀ c,
      let F := clampedShape p.a p.b p.n
      let d := spanDisp F F F c
      c ⬝ᵥ K.mulVec c = mixedEnergy M p.a p.b d d
        + M 2 2 * ((p.b / p.a) ^ 2 - 1) * overlap p.a p.b (dY d.u) (dY d.u)
        + M 2 0 * ((p.a / p.b) ^ 2 - 1) * overlap p.a p.b (dX d.v) (dX d.u) := by
  obtain ⟨K, KG, hK, h⟩ := C88_clamped M hM p ha hb hm hn
  refine ⟨K, KG, hK, ?_⟩
  intro c F d
  have hF : ∀ r, IsPQ p.a p.b (F r) := fun r => .shape _
  have z : M 3 0 = 0 ∧ M 3 1 = 0 ∧ M 3 2 = 0 ∧ M 4 0 = 0 ∧ M 4 1 = 0 ∧ M 4 2 = 0 ∧ M 5 0 = 0 ∧ M 5 1 = 0 ∧ M 5 2 = 0 :=
    ⟨h0 0 0, h0 0 1, h0 0 2, h0 1 0, h0 1 1, h0 1 2, h0 2 0, h0 2 1, h0 2 2⟩
  obtain ⟨z1, z2, z3, z4, z5, z6, z7, z8, z9⟩ := z
  have hs : ∀ i j, M i j = M j i := fun i j => hM.1.apply j i
  -- no coupling: the mixed energies of in-plane and transverse fields vanish
  have zVW : ∀ r s : ℕ, mixedEnergy M p.a p.b (alongV (F r)) (alongW (F s)) = 0 := by
    intro r s
    unfold mixedEnergy
    have : ∀ x y, strain6 (alongV (F r)) x y ⬝ᵥ M.mulVec (strain6 (alongW (F s)) x y) = 0 := by
      intro x y
      simp [strain6, alongV, alongW, d_zero, Matrix.mulVec, dotProduct, Fin.sum_univ_six, hs 1 3, hs 1 4, hs 1 5, hs 2 3, hs 2 4,
        hs 2 5, z2, z3, z5, z6, z8, z9]
    simp [this]
  have zWU : ∀ r s : ℕ, mixedEnergy M p.a p.b (alongW (F r)) (alongU (F s)) = 0 := by
    intro r s
    unfold mixedEnergy
    have : ∀ x y, strain6 (alongW (F r)) x y ⬝ᵥ M.mulVec (strain6 (alongU (F s)) x y) = 0 := by
      intro x y
      simp [strain6, alongU, alongW, d_zero, Matrix.mulVec, dotProduct, Fin.sum_univ_six, z1, z3, z4, z6, z7, z9]
    simp [this]
  have hq := energy_span ha hb M (fun r => (4 + r / p.n, 4 + r % p.n)) (fun r => (4 + r / p.n, 4 + r % p.n))
    (fun r => (4 + r / p.n, 4 + r % p.n)) c
  have hd : mixedEnergy M p.a p.b d d = ∑ i, ∑ j, c i * c j * mixedEnergy M p.a p.b (basis F F F i) (basis F F F j) := hq
  have o1 : overlap p.a p.b (dY d.u) (dY d.u) = ∑ r, ∑ s, c (.inl r) * c (.inl s) * overlap p.a p.b (dY (F r)) (dY (F s)) := by
    have : dY d.u = span (fun r => dY (F r)) fun r => c (.inl r) := dY_span F hF _
    rw [this, overlap_span ha hb _ _ (fun r => (hF r).dY) (fun r => (hF r).dY)]
  have o2 : overlap p.a p.b (dX d.v) (dX d.u) =
      ∑ r, ∑ s, c (.inr (.inl r)) * c (.inl s) * overlap p.a p.b (dX (F r)) (dX (F s)) := by
    have e1 : dX d.u = span (fun r => dX (F r)) fun r => c (.inl r) := dX_span F hF _
    have e2 : dX d.v = span (fun r => dX (F r)) fun r => c (.inr (.inl r)) := dX_span F hF _
    rw [e1, e2, overlap_span ha hb _ _ (fun r => (hF r).dX) (fun r => (hF r).dX)]
  have hK2 : c ⬝ᵥ K.mulVec c = ∑ i, ∑ j, c i * c j * K i j := by
    simp only [dotProduct, Matrix.mulVec, Finset.mul_sum]
    exact Finset.sum_congr rfl fun r _ => Finset.sum_congr rfl fun s _ => by ring
  rw [hK2, hd, o1, o2]
  simp only [Fintype.sum_sum_type, h.b11, h.b12, h.b13, h.b21, h.b22, h.b23, h.b31, h.b32, h.b33, basis, z1, z8, zero_mul, sub_zero,
    add_zero, Finset.mul_sum]
  simp only [show clampedShape p.a p.b p.n = F from rfl, zVW, zWU, mul_zero]
  simp only [mul_add, Finset.sum_add_distrib, Finset.sum_const_zero]
  have r1 : ∑ r : Fin (p.m * p.n), ∑ s : Fin (p.m * p.n), c (.inl r) * c (.inl s) * (M 2 2 * ((p.b / p.a) ^ 2 - 1) * overlap p.a p.b (dY (F r)) (dY (F s)))
      = ∑ r : Fin (p.m * p.n), ∑ s : Fin (p.m * p.n), M 2 2 * ((p.b / p.a) ^ 2 - 1) * (c (.inl r) * c (.inl s) * overlap p.a p.b (dY (F r)) (dY (F s))) :=
    Finset.sum_congr rfl fun r _ => Finset.sum_congr rfl fun s _ => by ring
  have r2 : ∑ r : Fin (p.m * p.n), ∑ s : Fin (p.m * p.n), c (.inr (.inl r)) * c (.inl s) * (M 2 0 * ((p.a / p.b) ^ 2 - 1) * overlap p.a p.b (dX (F r)) (dX (F s)))
      = ∑ r : Fin (p.m * p.n), ∑ s : Fin (p.m * p.n), M 2 0 * ((p.a / p.b) ^ 2 - 1) * (c (.inr (.inl r)) * c (.inl s) * overlap p.a p.b (dX (F r)) (dX (F s))) :=
    Finset.sum_congr rfl fun r _ => Finset.sum_congr rfl fun s _ => by ring
  rw [r1, r2]
  ring

/-- **C88** for a square clamped plate without coupling `K` is exactly the matrix of the strain energy. -/
theorem C88_square (M : Matrix (Fin 6) (Fin 6) ℝ) (hM : LamSymm M) (h0 : Uncoupled M) (p : PlateNum) (ha : p.a ≠ 0) (hab : p.a = p.b)
    (hm : p.m ≤ 26) (hn : p.n ≤ 26) :
    ∃ K KG, calcKKGABD shipped (.ok M) (.str wCLAMPED) p = .ok (K, KG) ∧ ∀ c,
      c ⬝ᵥ K.mulVec c = mixedEnergy M p.a p.b (spanDisp (clampedShape p.a p.b p.n) (clampedShape p.a p.b p.n) (clampedShape p.a p.b p.n) c)
        (spanDisp (clampedShape p.a p.b p.n) (clampedShape p.a p.b p.n) (clampedShape p.a p.b p.n) c) := by
  have hb : p.b ≠ 0 := hab ▸ ha
  obtain ⟨K, KG, hK, h⟩ := C88_energy M hM h0 p ha hb hm hn
  refine ⟨K, KG, hK, fun c => ?_⟩
  have e1 : (p.b / p.a) ^ 2 - 1 = 0 := by rw [hab, div_self hb]; ring
  have e2 : (p.a / p.b) ^ 2 - 1 = 0 := by rw [hab, div_self hb]; ring
  have := h c
  simp only [e1, e2, mul_zero, zero_mul, add_zero] at this
  exact this

/-- The hypotheses hold for an isotropic square plate of unit thickness. -/
example : ∃ K KG, calcKKGABD shipped (.ok (Matrix.diagonal ![1, 1, 1, 1, 1, 1])) (.str wCLAMPED) ⟨2, 2, 1, 0, 0, 3, 3⟩ = .ok (K, KG) ∧
    ∀ c, c ⬝ᵥ K.mulVec c = mixedEnergy (Matrix.diagonal ![1, 1, 1, 1, 1, 1]) 2 2
      (spanDisp (clampedShape 2 2 3) (clampedShape 2 2 3) (clampedShape 2 2 3) c)
      (spanDisp (clampedShape 2 2 3) (clampedShape 2 2 3) (clampedShape 2 2 3) c) := by
  refine C88_square _ ⟨Matrix.isSymm_diagonal _, ?_⟩ ?_ ⟨2, 2, 1, 0, 0, 3, 3⟩ (by norm_num) rfl (by norm_num) (by norm_num)
  · intro i j; fin_cases i <;> fin_cases j <;> simp [Matrix.diagonal]
  · intro i j; fin_cases i <;> fin_cases j <;> simp [Matrix.diagonal]

end Composipy
