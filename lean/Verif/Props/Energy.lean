import Verif.Props.Stiffness
import Mathlib.Analysis.Calculus.Deriv.Polynomial
import Mathlib.Analysis.Calculus.Deriv.Add
import Mathlib.MeasureTheory.Integral.IntervalIntegral.Basic
import Mathlib.LinearAlgebra.Matrix.PosDef
import Mathlib.Algebra.Order.Star.Real
import Mathlib.Data.List.GetD
import Mathlib.MeasureTheory.Integral.DominatedConvergence

/-!
# C49: `K` and `KG` discretise the plate energies
-/

namespace Composipy
open Polynomial Spec MeasureTheory

/-! ## Specification: energies of a deflection of the physical plate `[0, a] x [0, b]` -/

/-- The deflection with Ritz coefficients `c` over the shapes `w`. -/
noncomputable def Spec.ritz (a b : ℝ) (w : List (ℕ × ℕ)) {N : ℕ} (c : Fin N → ℝ) (x y : ℝ) : ℝ :=
  ∑ r, c r * ((shape (w.getD r (0, 0)).1).eval (2 / a * x - 1) * (shape (w.getD r (0, 0)).2).eval (2 / b * y - 1))

/-- Partial derivative in `x`. -/
noncomputable def Spec.dX (w : ℝ → ℝ → ℝ) (x y : ℝ) : ℝ := deriv (fun t => w t y) x
/-- Partial derivative in `y`. -/
noncomputable def Spec.dY (w : ℝ → ℝ → ℝ) (x y : ℝ) : ℝ := deriv (fun t => w x t) y

/-- Density of (twice) the bending energy: `kappa^T D kappa` with `kappa = (w_xx, w_yy, 2 w_xy)`. -/
noncomputable def Spec.bendDensity (D : Matrix (Fin 3) (Fin 3) ℝ) (w : ℝ → ℝ → ℝ) (x y : ℝ) : ℝ :=
  let k := ![dX (dX w) x y, dY (dY w) x y, 2 * dY (dX w) x y]
  k ⬝ᵥ D.mulVec k

/-- (Twice) the bending energy of the plate. -/
noncomputable def Spec.bendEnergy (D : Matrix (Fin 3) (Fin 3) ℝ) (a b : ℝ) (w : ℝ → ℝ → ℝ) : ℝ :=
  ∫ x in (0 : ℝ)..a, ∫ y in (0 : ℝ)..b, bendDensity D w x y

/-- (Twice) the work of the in-plane loads. -/
noncomputable def Spec.loadWork (Nxx Nyy Nxy a b : ℝ) (w : ℝ → ℝ → ℝ) : ℝ :=
  ∫ x in (0 : ℝ)..a, ∫ y in (0 : ℝ)..b, (Nxx * dX w x y ^ 2 + Nyy * dY w x y ^ 2 + 2 * Nxy * (dX w x y * dY w x y))

/-- The exact integrals over `[-1, 1]`. -/
noncomputable def exactV : RTables :=
  { ff := fun i k => ∫ x in (-1 : ℝ)..1, (shape i).eval x * (shape k).eval x
    fxi_f := fun i k => ∫ x in (-1 : ℝ)..1, (derivative (shape i)).eval x * (shape k).eval x
    f_fxi := fun i k => ∫ x in (-1 : ℝ)..1, (shape i).eval x * (derivative (shape k)).eval x
    fxi_fxi := fun i k => ∫ x in (-1 : ℝ)..1, (derivative (shape i)).eval x * (derivative (shape k)).eval x
    fxixi_f := fun i k => ∫ x in (-1 : ℝ)..1, (derivative (derivative (shape i))).eval x * (shape k).eval x
    f_fxixi := fun i k => ∫ x in (-1 : ℝ)..1, (shape i).eval x * (derivative (derivative (shape k))).eval x
    fxixi_fxi := fun i k => ∫ x in (-1 : ℝ)..1, (derivative (derivative (shape i))).eval x * (derivative (shape k)).eval x
    fxi_fxixi := fun i k => ∫ x in (-1 : ℝ)..1, (derivative (shape i)).eval x * (derivative (derivative (shape k))).eval x
    fxixi_fxixi := fun i k => ∫ x in (-1 : ℝ)..1,
      (derivative (derivative (shape i))).eval x * (derivative (derivative (shape k))).eval x }

/-- Readers that never fail and return the exact integrals. -/
noncomputable def exactReaders : Readers :=
  { ff := fun q => .ok (exactV.ff q.1 q.2), fxi_f := fun q => .ok (exactV.fxi_f q.1 q.2)
    f_fxi := fun q => .ok (exactV.f_fxi q.1 q.2), fxi_fxi := fun q => .ok (exactV.fxi_fxi q.1 q.2)
    fxixi_f := fun q => .ok (exactV.fxixi_f q.1 q.2), f_fxixi := fun q => .ok (exactV.f_fxixi q.1 q.2)
    fxixi_fxi := fun q => .ok (exactV.fxixi_fxi q.1 q.2), fxi_fxixi := fun q => .ok (exactV.fxi_fxixi q.1 q.2)
    fxixi_fxixi := fun q => .ok (exactV.fxixi_fxixi q.1 q.2) }

theorem exact_ok : exactReaders.OkOn exactV fun _ => True :=
  ⟨fun _ _ _ _ => rfl, fun _ _ _ _ => rfl, fun _ _ _ _ => rfl, fun _ _ _ _ => rfl, fun _ _ _ _ => rfl,
   fun _ _ _ _ => rfl, fun _ _ _ _ => rfl, fun _ _ _ _ => rfl, fun _ _ _ _ => rfl⟩

theorem near_exact {r : Except PyErr ℝ} {e : Prop} {I : ℝ} (h : Near r e I) (he : e) : r = .ok I := by
  obtain ⟨q, rfl, -, hq⟩ := h
  rw [hq he]

/-- On the shape numbers 4..29 the shipped tables are the exact integrals. -/
theorem shipped_exact : shipped.OkOn exactV (fun i => 4 ≤ i ∧ i < 30) where
  ff i k hi hk := near_exact (C47_integrals i k hi.2 hk.2).1 ⟨hi.1, hk.1⟩
  fxi_f i k hi hk := near_exact (C47_integrals i k hi.2 hk.2).2.1 ⟨hi.1, hk.1⟩
  f_fxi i k hi hk := near_exact (C47_integrals i k hi.2 hk.2).2.2.1 ⟨hi.1, hk.1⟩
  fxi_fxi i k hi hk := near_exact (C47_integrals i k hi.2 hk.2).2.2.2.1 ⟨hi.1, hk.1⟩
  fxixi_f i k hi hk := near_exact (C47_integrals i k hi.2 hk.2).2.2.2.2.1 ⟨hi.1, hk.1⟩
  f_fxixi i k hi hk := near_exact (C47_integrals i k hi.2 hk.2).2.2.2.2.2.1 ⟨hi.1, hk.1⟩
  fxixi_fxi i k hi hk := near_exact (C47_integrals i k hi.2 hk.2).2.2.2.2.2.2.1 ⟨hi.1, hk.1⟩
  fxi_fxixi i k hi hk := near_exact (C47_integrals i k hi.2 hk.2).2.2.2.2.2.2.2.1 ⟨hi.1, hk.1⟩
  fxixi_fxixi i k hi hk := near_exact (C47_integrals i k hi.2 hk.2).2.2.2.2.2.2.2.2 ⟨hi.1, hk.1⟩

/-! ## Double integrals of separable sums -/

/-- `F` has the double integral `v` over `[0, a] x [0, b]`, with integrable sections. -/
structure DI (a b : ℝ) (F : ℝ → ℝ → ℝ) (v : ℝ) : Prop where
  inner : ∀ x, IntervalIntegrable (F x) volume 0 b
  outer : IntervalIntegrable (fun x => ∫ y in (0 : ℝ)..b, F x y) volume 0 a
  val : ∫ x in (0 : ℝ)..a, ∫ y in (0 : ℝ)..b, F x y = v

variable {a b : ℝ}

theorem DI.base (p q : ℝ[X]) :
    DI a b (fun x y => p.eval x * q.eval y) ((∫ x in (0 : ℝ)..a, p.eval x) * ∫ y in (0 : ℝ)..b, q.eval y) where
  inner x := (q.continuous.const_mul _ |>.intervalIntegrable _ _)
  outer := by
    simp only [intervalIntegral.integral_const_mul]
    exact (p.continuous.mul_const _).intervalIntegrable _ _
  val := by
    simp only [intervalIntegral.integral_const_mul, intervalIntegral.integral_mul_const]

theorem DI.add {F G : ℝ → ℝ → ℝ} {u v : ℝ} (hF : DI a b F u) (hG : DI a b G v) :
    DI a b (fun x y => F x y + G x y) (u + v) where
  inner x := (hF.inner x).add (hG.inner x)
  outer := by
    simp only [intervalIntegral.integral_add (hF.inner _) (hG.inner _)]
    exact hF.outer.add hG.outer
  val := by
    simp only [intervalIntegral.integral_add (hF.inner _) (hG.inner _)]
    rw [intervalIntegral.integral_add hF.outer hG.outer, hF.val, hG.val]

theorem DI.smul {F : ℝ → ℝ → ℝ} {u : ℝ} (c : ℝ) (hF : DI a b F u) : DI a b (fun x y => c * F x y) (c * u) where
  inner x := (hF.inner x).const_mul c
  outer := by
    simp only [intervalIntegral.integral_const_mul]
    exact hF.outer.const_mul c
  val := by
    simp only [intervalIntegral.integral_const_mul, hF.val]

theorem DI.sum {ι : Type} (s : Finset ι) {F : ι → ℝ → ℝ → ℝ} {u : ι → ℝ} (h : ∀ i ∈ s, DI a b (F i) (u i)) :
    DI a b (fun x y => ∑ i ∈ s, F i x y) (∑ i ∈ s, u i) := by
  classical
  induction s using Finset.induction_on with
  | empty =>
    refine ⟨fun x => ?_, ?_, ?_⟩ <;> simp
  | insert i s hi ih =>
    simp only [Finset.sum_insert hi]
    exact (h i (by simp)).add (ih fun j hj => h j (by simp [hj]))

/-- Product of two sums of separable functions. -/
theorem DI.quad {N : ℕ} (c : Fin N → ℝ) (P Q P' Q' : Fin N → ℝ[X]) :
    DI a b (fun x y => (∑ r, c r * ((P r).eval x * (Q r).eval y)) * ∑ s, c s * ((P' s).eval x * (Q' s).eval y))
      (∑ r, ∑ s, c r * c s * ((∫ x in (0 : ℝ)..a, (P r).eval x * (P' s).eval x)
        * ∫ y in (0 : ℝ)..b, (Q r).eval y * (Q' s).eval y)) := by
  have h : DI a b (fun x y => ∑ r, ∑ s, c r * c s * ((P r * P' s).eval x * (Q r * Q' s).eval y))
      (∑ r, ∑ s, c r * c s * ((∫ x in (0 : ℝ)..a, (P r * P' s).eval x) * ∫ y in (0 : ℝ)..b, (Q r * Q' s).eval y)) :=
    DI.sum _ fun r _ => DI.sum _ fun s _ => (DI.base _ _).smul _
  simp only [eval_mul] at h
  convert h using 1
  funext x y
  rw [Finset.sum_mul_sum]
  refine Finset.sum_congr rfl fun r _ => Finset.sum_congr rfl fun s _ => ?_
  ring

/-! ## Derivatives of the Ritz deflection -/

/-- A polynomial of the local coordinate as a polynomial of the physical coordinate. -/
noncomputable def phys (a : ℝ) (p : ℝ[X]) : ℝ[X] := p.comp (C (2 / a) * X - 1)

theorem phys_eval (a : ℝ) (p : ℝ[X]) (x : ℝ) : (phys a p).eval x = p.eval (2 / a * x - 1) := by
  simp [phys, eval_comp]

theorem derivative_phys (a : ℝ) (p : ℝ[X]) : derivative (phys a p) = C (2 / a) * phys a (derivative p) := by
  rw [phys, derivative_comp, phys]
  congr 1
  rw [derivative_sub, derivative_C_mul, derivative_X, derivative_one, mul_one, sub_zero]

/-- A general separable sum. -/
noncomputable def sep {N : ℕ} (c : Fin N → ℝ) (P Q : Fin N → ℝ[X]) (x y : ℝ) : ℝ :=
  ∑ r, c r * ((P r).eval x * (Q r).eval y)

theorem dX_sep {N : ℕ} (c : Fin N → ℝ) (P Q : Fin N → ℝ[X]) :
    dX (sep c P Q) = sep c (fun r => derivative (P r)) Q := by
  funext x y
  unfold dX sep
  have : HasDerivAt (fun t => ∑ r, c r * ((P r).eval t * (Q r).eval y))
      (∑ r, c r * ((derivative (P r)).eval x * (Q r).eval y)) x :=
    HasDerivAt.fun_sum fun r _ => (((P r).hasDerivAt x).mul_const _).const_mul _
  exact this.deriv

theorem dY_sep {N : ℕ} (c : Fin N → ℝ) (P Q : Fin N → ℝ[X]) :
    dY (sep c P Q) = sep c P (fun r => derivative (Q r)) := by
  funext x y
  unfold dY sep
  have : HasDerivAt (fun t => ∑ r, c r * ((P r).eval x * (Q r).eval t))
      (∑ r, c r * ((P r).eval x * (derivative (Q r)).eval y)) y :=
    HasDerivAt.fun_sum fun r _ => (((Q r).hasDerivAt y).const_mul _).const_mul _
  exact this.deriv

theorem ritz_sep (a b : ℝ) (w : List (ℕ × ℕ)) {N : ℕ} (c : Fin N → ℝ) :
    ritz a b w c = sep c (fun r => phys a (shape (w.getD r (0, 0)).1)) (fun r => phys b (shape (w.getD r (0, 0)).2)) := by
  funext x y
  simp [ritz, sep, phys_eval]

theorem sep_smul {N : ℕ} (c : Fin N → ℝ) (P Q : Fin N → ℝ[X]) (s t : ℝ) (x y : ℝ) :
    sep c (fun r => C s * P r) (fun r => C t * Q r) x y = s * t * sep c P Q x y := by
  simp only [sep, Finset.mul_sum, eval_mul, eval_C]
  exact Finset.sum_congr rfl fun r _ => by ring

/-- Change of variable. -/
theorem int_phys (ha : a ≠ 0) (p q : ℝ[X]) :
    ∫ x in (0 : ℝ)..a, (phys a p).eval x * (phys a q).eval x = a / 2 * ∫ x in (-1 : ℝ)..1, p.eval x * q.eval x := by
  have hc : (2 / a) ≠ 0 := div_ne_zero two_ne_zero ha
  have := intervalIntegral.integral_comp_mul_sub (a := 0) (b := a) (fun x => p.eval x * q.eval x) hc 1
  simp only [phys_eval]
  rw [this]
  have e1 : 2 / a * 0 - 1 = -1 := by ring
  have e2 : 2 / a * a - 1 = 1 := by field_simp; norm_num
  rw [e1, e2, smul_eq_mul, inv_div]

/-- `c^T M c` -/
theorem dot_mulVec_eq {N : ℕ} (M : SqMat N) (c : Fin N → ℝ) : c ⬝ᵥ M.mulVec c = ∑ r, ∑ s, c r * c s * M r s := by
  simp only [dotProduct, Matrix.mulVec, Finset.mul_sum]
  exact Finset.sum_congr rfl fun r _ => Finset.sum_congr rfl fun s _ => by ring

/-- The five derivatives of the Ritz deflection. -/
theorem ritz_derivs (a b : ℝ) (w : List (ℕ × ℕ)) {N : ℕ} (c : Fin N → ℝ) (x y : ℝ) :
    let f := fun r : Fin N => shape (w.getD r (0, 0)).1
    let g := fun r : Fin N => shape (w.getD r (0, 0)).2
    let S := fun (p q : Fin N → ℝ[X]) => sep c (fun r => phys a (p r)) (fun r => phys b (q r)) x y
    let d := fun (p : Fin N → ℝ[X]) r => derivative (p r)
    dX (ritz a b w c) x y = 2 / a * S (d f) g ∧ dY (ritz a b w c) x y = 2 / b * S f (d g) ∧
    dX (dX (ritz a b w c)) x y = (2 / a) ^ 2 * S (d (d f)) g ∧ dY (dY (ritz a b w c)) x y = (2 / b) ^ 2 * S f (d (d g)) ∧
    dY (dX (ritz a b w c)) x y = 2 / a * (2 / b) * S (d f) (d g) := by
  intro f g S d
  simp only [ritz_sep, dX_sep, dY_sep, derivative_phys, derivative_C_mul, S, d]
  refine ⟨?_, ?_, ?_, ?_, ?_⟩ <;>
  · simp only [sep, Finset.mul_sum, eval_mul, eval_C]
    exact Finset.sum_congr rfl fun r _ => by ring

/-- Quadratic form of two local derivatives. -/
theorem DI.local {N : ℕ} (ha : a ≠ 0) (hb : b ≠ 0) (c : Fin N → ℝ) (p q p' q' : Fin N → ℝ[X]) :
    DI a b (fun x y => sep c (fun r => phys a (p r)) (fun r => phys b (q r)) x y
        * sep c (fun r => phys a (p' r)) (fun r => phys b (q' r)) x y)
      (a * b / 4 * ∑ r, ∑ s, c r * c s * ((∫ x in (-1 : ℝ)..1, (p r).eval x * (p' s).eval x)
        * ∫ y in (-1 : ℝ)..1, (q r).eval y * (q' s).eval y)) := by
  have h := DI.quad (a := a) (b := b) c (fun r => phys a (p r)) (fun r => phys b (q r)) (fun r => phys a (p' r))
    (fun r => phys b (q' r))
  simp only [int_phys ha, int_phys hb] at h
  refine ⟨h.inner, h.outer, ?_⟩
  have hv := h.val
  simp only [sep]
  rw [hv, Finset.mul_sum]
  refine Finset.sum_congr rfl fun r _ => ?_
  rw [Finset.mul_sum]
  exact Finset.sum_congr rfl fun s _ => by ring

/-- The quadratic form of the exactly integrated bending matrix is the bending energy. -/
theorem kMat_energy (ha : a ≠ 0) (hb : b ≠ 0) (D : Matrix (Fin 3) (Fin 3) ℝ) (hD : D.IsSymm) (w : List (ℕ × ℕ)) (N : ℕ)
    (c : Fin N → ℝ) : c ⬝ᵥ (kMat exactV a b D w N).mulVec c = bendEnergy D a b (ritz a b w c) := by
  set f := fun r : Fin N => shape (w.getD r (0, 0)).1 with hf
  set g := fun r : Fin N => shape (w.getD r (0, 0)).2 with hg
  let d := fun (p : Fin N → ℝ[X]) r => derivative (p r)
  let L := fun p q p' q' => DI.local ha hb c p q p' q'
  have h01 : D 0 1 = D 1 0 := hD.apply 1 0
  have h02 : D 0 2 = D 2 0 := hD.apply 2 0
  have h12 : D 1 2 = D 2 1 := hD.apply 2 1
  -- the density, expanded; mixed products are split in two symmetric halves
  have hdens : bendDensity D (ritz a b w c) = fun x y =>
      ((((((16 / a ^ 4 * D 0 0) * (sep c (fun r => phys a (d (d f) r)) (fun r => phys b (g r)) x y
            * sep c (fun r => phys a (d (d f) r)) (fun r => phys b (g r)) x y)
        + (16 / (a ^ 2 * b ^ 2) * D 1 0) * (sep c (fun r => phys a (d (d f) r)) (fun r => phys b (g r)) x y
            * sep c (fun r => phys a (f r)) (fun r => phys b (d (d g) r)) x y))
        + (16 / (a ^ 2 * b ^ 2) * D 1 0) * (sep c (fun r => phys a (f r)) (fun r => phys b (d (d g) r)) x y
            * sep c (fun r => phys a (d (d f) r)) (fun r => phys b (g r)) x y))
        + (16 / b ^ 4 * D 1 1) * (sep c (fun r => phys a (f r)) (fun r => phys b (d (d g) r)) x y
            * sep c (fun r => phys a (f r)) (fun r => phys b (d (d g) r)) x y))
        + ((32 / (a ^ 3 * b) * D 2 0) * (sep c (fun r => phys a (d (d f) r)) (fun r => phys b (g r)) x y
            * sep c (fun r => phys a (d f r)) (fun r => phys b (d g r)) x y)
          + (32 / (a ^ 3 * b) * D 2 0) * (sep c (fun r => phys a (d f r)) (fun r => phys b (d g r)) x y
            * sep c (fun r => phys a (d (d f) r)) (fun r => phys b (g r)) x y)))
        + ((32 / (a * b ^ 3) * D 2 1) * (sep c (fun r => phys a (d f r)) (fun r => phys b (d g r)) x y
            * sep c (fun r => phys a (f r)) (fun r => phys b (d (d g) r)) x y)
          + (32 / (a * b ^ 3) * D 2 1) * (sep c (fun r => phys a (f r)) (fun r => phys b (d (d g) r)) x y
            * sep c (fun r => phys a (d f r)) (fun r => phys b (d g r)) x y)))
        + (64 / (a ^ 2 * b ^ 2) * D 2 2) * (sep c (fun r => phys a (d f r)) (fun r => phys b (d g r)) x y
            * sep c (fun r => phys a (d f r)) (fun r => phys b (d g r)) x y) := by
    funext x y
    obtain ⟨-, -, h3, h4, h5⟩ := ritz_derivs a b w c x y
    simp only [bendDensity, Matrix.mulVec, dotProduct, Fin.sum_univ_three, h3, h4, h5, Matrix.cons_val_zero,
      Matrix.cons_val_one, Matrix.cons_val, h01, h02, h12]
    simp only [d, hf, hg]
    field_simp
    ring
  have hDI := (((((((L (d (d f)) g (d (d f)) g).smul (16 / a ^ 4 * D 0 0)).add
      ((L (d (d f)) g f (d (d g))).smul (16 / (a ^ 2 * b ^ 2) * D 1 0))).add
      ((L f (d (d g)) (d (d f)) g).smul (16 / (a ^ 2 * b ^ 2) * D 1 0))).add
      ((L f (d (d g)) f (d (d g))).smul (16 / b ^ 4 * D 1 1))).add
      (((L (d (d f)) g (d f) (d g)).smul (32 / (a ^ 3 * b) * D 2 0)).add
        ((L (d f) (d g) (d (d f)) g).smul (32 / (a ^ 3 * b) * D 2 0)))).add
      (((L (d f) (d g) f (d (d g))).smul (32 / (a * b ^ 3) * D 2 1)).add
        ((L f (d (d g)) (d f) (d g)).smul (32 / (a * b ^ 3) * D 2 1)))).add
      ((L (d f) (d g) (d f) (d g)).smul (64 / (a ^ 2 * b ^ 2) * D 2 2))
  unfold bendEnergy
  rw [hdens]
  refine Eq.trans ?_ hDI.val.symm
  rw [dot_mulVec_eq]
  simp only [Finset.mul_sum, ← Finset.sum_add_distrib]
  refine Finset.sum_congr rfl fun r _ => Finset.sum_congr rfl fun s _ => ?_
  simp only [kMat, Matrix.of_apply, k33v, exactV, d, hf, hg]
  field_simp
  ring

/-- The quadratic form of the exactly integrated geometric matrix is the work of the loads. -/
theorem gMat_work (ha : a ≠ 0) (hb : b ≠ 0) (Nxx Nyy Nxy : ℝ) (w : List (ℕ × ℕ)) (N : ℕ) (c : Fin N → ℝ) :
    c ⬝ᵥ (gMat exactV a b Nxx Nyy Nxy w N).mulVec c = loadWork Nxx Nyy Nxy a b (ritz a b w c) := by
  set f := fun r : Fin N => shape (w.getD r (0, 0)).1 with hf
  set g := fun r : Fin N => shape (w.getD r (0, 0)).2 with hg
  let d := fun (p : Fin N → ℝ[X]) r => derivative (p r)
  let L := fun p q p' q' => DI.local ha hb c p q p' q'
  have hdens : (fun x y => Nxx * dX (ritz a b w c) x y ^ 2 + Nyy * dY (ritz a b w c) x y ^ 2
        + 2 * Nxy * (dX (ritz a b w c) x y * dY (ritz a b w c) x y)) = fun x y =>
      ((4 / a ^ 2 * Nxx) * (sep c (fun r => phys a (d f r)) (fun r => phys b (g r)) x y
            * sep c (fun r => phys a (d f r)) (fun r => phys b (g r)) x y)
        + (4 / b ^ 2 * Nyy) * (sep c (fun r => phys a (f r)) (fun r => phys b (d g r)) x y
            * sep c (fun r => phys a (f r)) (fun r => phys b (d g r)) x y))
        + ((4 / (a * b) * Nxy) * (sep c (fun r => phys a (f r)) (fun r => phys b (d g r)) x y
            * sep c (fun r => phys a (d f r)) (fun r => phys b (g r)) x y)
          + (4 / (a * b) * Nxy) * (sep c (fun r => phys a (d f r)) (fun r => phys b (g r)) x y
            * sep c (fun r => phys a (f r)) (fun r => phys b (d g r)) x y)) := by
    funext x y
    obtain ⟨h1, h2, -⟩ := ritz_derivs a b w c x y
    simp only [h1, h2]
    simp only [d, hf, hg]
    field_simp
    ring
  have hDI := (((L (d f) g (d f) g).smul (4 / a ^ 2 * Nxx)).add ((L f (d g) f (d g)).smul (4 / b ^ 2 * Nyy))).add
    (((L f (d g) (d f) g).smul (4 / (a * b) * Nxy)).add ((L (d f) g f (d g)).smul (4 / (a * b) * Nxy)))
  unfold loadWork
  have e : (∫ x in (0 : ℝ)..a, ∫ y in (0 : ℝ)..b, (Nxx * dX (ritz a b w c) x y ^ 2 + Nyy * dY (ritz a b w c) x y ^ 2
        + 2 * Nxy * (dX (ritz a b w c) x y * dY (ritz a b w c) x y)))
      = ∫ x in (0 : ℝ)..a, ∫ y in (0 : ℝ)..b, (fun x y => Nxx * dX (ritz a b w c) x y ^ 2
        + Nyy * dY (ritz a b w c) x y ^ 2 + 2 * Nxy * (dX (ritz a b w c) x y * dY (ritz a b w c) x y)) x y := rfl
  rw [e, hdens]
  refine Eq.trans ?_ hDI.val.symm
  rw [dot_mulVec_eq]
  simp only [Finset.mul_sum, ← Finset.sum_add_distrib]
  refine Finset.sum_congr rfl fun r _ => Finset.sum_congr rfl fun s _ => ?_
  simp only [gMat, Matrix.of_apply, g33v, exactV, d, hf, hg]
  field_simp

/-- **C49** with exactly integrated tables, `c^T K c` is (twice) the bending energy of the physical `a x b`
plate deflected by `sum c_ij f_i f_j`, and `c^T KG c` (twice) the work of the loads. -/
theorem C49_energy (D : Matrix (Fin 3) (Fin 3) ℝ) (hD : D.IsSymm) (cs : Constraints) (p : PlateNum) (s : ShapeIdx)
    (hs : computeIdx cs p.m p.n = .ok s) (ha : p.a ≠ 0) (hb : p.b ≠ 0) :
    ∃ K KG, calcKKGD exactReaders (.ok D) cs p = .ok (K, KG) ∧ ∀ c : Fin (p.m * p.n) → ℝ,
      c ⬝ᵥ K.mulVec c = bendEnergy D p.a p.b (ritz p.a p.b s.w c) ∧
      c ⬝ᵥ KG.mulVec c = loadWork p.Nxx p.Nyy p.Nxy p.a p.b (ritz p.a p.b s.w c) :=
  ⟨_, _, calcKKGD_ok exact_ok D cs p s hs ha hb fun _ _ => ⟨trivial, trivial⟩,
    fun c => ⟨kMat_energy ha hb D hD s.w _ c, gMat_work ha hb _ _ _ s.w _ c⟩⟩

/-- **C49** for clamped plates the shipped tables are exact, so the matrices the library actually computes have
exactly these energies. -/
theorem C49_energy_clamped (D : Matrix (Fin 3) (Fin 3) ℝ) (hD : D.IsSymm) (p : PlateNum) (ha : p.a ≠ 0) (hb : p.b ≠ 0)
    (hm : p.m ≤ 26) (hn : p.n ≤ 26) :
    ∃ s K KG, computeIdx (.str wCLAMPED) p.m p.n = .ok s ∧
      calcKKGD shipped (.ok D) (.str wCLAMPED) p = .ok (K, KG) ∧ ∀ c : Fin (p.m * p.n) → ℝ,
      c ⬝ᵥ K.mulVec c = bendEnergy D p.a p.b (ritz p.a p.b s.w c) ∧
      c ⬝ᵥ KG.mulVec c = loadWork p.Nxx p.Nyy p.Nxy p.a p.b (ritz p.a p.b s.w c) := by
  obtain ⟨s, hs, hw⟩ := clamped_idx p.m p.n
  refine ⟨s, _, _, hs, calcKKGD_ok shipped_exact D _ p s hs ha hb fun q hq => ?_,
    fun c => ⟨kMat_energy ha hb D hD s.w _ c, gMat_work ha hb _ _ _ s.w _ c⟩⟩
  rw [hw] at hq
  have := List.mem_product.mp (show (q.1, q.2) ∈ (List.range' 4 p.m) ×ˢ (List.range' 4 p.n) from hq)
  simp only [List.mem_range'_1] at this
  omega

/-- **C49** hence `K` is positive semidefinite whenever `D` is. -/
theorem C49_posSemidef (D : Matrix (Fin 3) (Fin 3) ℝ) (hD : D.PosSemidef) (cs : Constraints) (p : PlateNum)
    (hs : ∃ s, computeIdx cs p.m p.n = .ok s) (ha : 0 < p.a) (hb : 0 < p.b) :
    ∃ K KG, calcKKGD exactReaders (.ok D) cs p = .ok (K, KG) ∧ ∀ c, 0 ≤ c ⬝ᵥ K.mulVec c := by
  obtain ⟨s, hs⟩ := hs
  have hsym : D.IsSymm := by
    have := hD.isHermitian
    rw [Matrix.IsHermitian, Matrix.conjTranspose_eq_transpose_of_trivial] at this
    exact this
  obtain ⟨K, KG, h, he⟩ := C49_energy D hsym cs p s hs ha.ne' hb.ne'
  refine ⟨K, KG, h, fun c => ?_⟩
  rw [(he c).1]
  refine intervalIntegral.integral_nonneg ha.le fun x _ => intervalIntegral.integral_nonneg hb.le fun y _ => ?_
  have := hD.dotProduct_mulVec_nonneg ![dX (dX (ritz p.a p.b s.w c)) x y, dY (dY (ritz p.a p.b s.w c)) x y,
    2 * dY (dX (ritz p.a p.b s.w c)) x y]
  simpa [bendDensity] using this

/-! ## Positive definiteness for clamped plates -/

theorem pint_zero_of {p : ℝ[X]} (h : ∀ x ∈ Set.Icc (-1 : ℝ) 1, p.eval x = 0) : pint p = 0 := by
  unfold pint
  rw [intervalIntegral.integral_congr (g := fun _ => (0 : ℝ))]
  · simp
  · intro x hx
    rw [Set.uIcc_of_le (by norm_num)] at hx
    exact h x hx

theorem pint_sum {ι : Type} (s : Finset ι) (f : ι → ℝ[X]) : pint (∑ i ∈ s, f i) = ∑ i ∈ s, pint (f i) := by
  classical
  induction s using Finset.induction_on with
  | empty => simp [pint]
  | insert i s hi ih => rw [Finset.sum_insert hi, Finset.sum_insert hi, pint_add, ih]

theorem norm_ne_zero {k : ℕ} (hk : 4 ≤ k) : (2 : ℝ) / (2 * (k : ℝ) - 3) ≠ 0 := by
  have : (4 : ℝ) ≤ k := by exact_mod_cast hk
  apply div_ne_zero two_ne_zero
  linarith

/-- Bubbles: if a combination has no second derivative in the first variable it is trivial. -/
theorem bubbles_indep {N : ℕ} (w : Fin N → ℕ × ℕ) (hinj : Function.Injective w) (h4 : ∀ r, 4 ≤ (w r).1 ∧ 4 ≤ (w r).2)
    (c : Fin N → ℝ) (h : ∀ xi ∈ Set.Icc (-1 : ℝ) 1, ∀ eta ∈ Set.Icc (-1 : ℝ) 1,
      ∑ r, c r * ((derivative (derivative (shape (w r).1))).eval xi * (shape (w r).2).eval eta) = 0) : c = 0 := by
  funext r0
  set k := (w r0).1 with hk
  set l := (w r0).2 with hl
  have hk4 : 4 ≤ k := (h4 r0).1
  have hl4 : 4 ≤ l := (h4 r0).2
  -- first variable
  have h1 : ∀ eta ∈ Set.Icc (-1 : ℝ) 1, (∑ r, C (if (w r).1 = k then c r else 0) * shape (w r).2).eval eta = 0 := by
    intro eta heta
    have hz : pint ((∑ r, C (c r * (shape (w r).2).eval eta) * derivative (derivative (shape (w r).1)))
        * derivative (derivative (shape k))) = 0 := by
      apply pint_zero_of
      intro xi hxi
      rw [eval_mul, eval_finsetSum]
      have := h xi hxi eta heta
      have e : ∑ r, (C (c r * (shape (w r).2).eval eta) * derivative (derivative (shape (w r).1))).eval xi = 0 := by
        rw [← this]
        refine Finset.sum_congr rfl fun r _ => ?_
        rw [eval_mul, eval_C]; ring
      rw [e, zero_mul]
    rw [Finset.sum_mul, pint_sum] at hz
    have e : ∀ r, pint (C (c r * (shape (w r).2).eval eta) * derivative (derivative (shape (w r).1))
        * derivative (derivative (shape k))) = (if (w r).1 = k then c r else 0) * (shape (w r).2).eval eta
          * (2 / (2 * (k : ℝ) - 3)) := by
      intro r
      rw [mul_assoc, pint_C_mul, C45_orthogonal _ _ (h4 r).1 hk4]
      by_cases hr : (w r).1 = k
      · rw [if_pos hr, if_pos hr, hr]
      · rw [if_neg hr, if_neg hr]; ring
    simp only [e] at hz
    rw [← Finset.sum_mul] at hz
    rw [eval_finsetSum]
    simp only [eval_mul, eval_C]
    exact (mul_eq_zero.mp hz).resolve_right (norm_ne_zero hk4)
  have h2 : (∑ r, C (if (w r).1 = k then c r else 0) * shape (w r).2) = 0 := by
    apply eq_zero_of_infinite_isRoot
    refine Set.Infinite.mono (s := Set.Icc (-1 : ℝ) 1) ?_ (Set.Icc_infinite (by norm_num))
    intro x hx
    exact h1 x hx
  have h3 : pint (derivative (derivative (∑ r, C (if (w r).1 = k then c r else 0) * shape (w r).2))
      * derivative (derivative (shape l))) = 0 := by
    rw [h2]; simp [pint]
  simp only [derivative_sum, derivative_C_mul] at h3
  rw [Finset.sum_mul, pint_sum] at h3
  have e : ∀ r, pint (C (if (w r).1 = k then c r else 0) * derivative (derivative (shape (w r).2))
      * derivative (derivative (shape l))) = if r = r0 then c r0 * (2 / (2 * (l : ℝ) - 3)) else 0 := by
    intro r
    rw [mul_assoc, pint_C_mul, C45_orthogonal _ _ (h4 r).2 hl4]
    by_cases hr : r = r0
    · subst hr
      rw [if_pos rfl, if_pos rfl, if_pos rfl]
    · rw [if_neg hr]
      by_cases h1 : (w r).1 = k
      · by_cases h2 : (w r).2 = l
        · exact absurd (hinj (Prod.ext h1 h2)) hr
        · rw [if_neg h2, mul_zero]
      · rw [if_neg h1, zero_mul]
  simp only [e, Finset.sum_ite_eq', Finset.mem_univ, if_true] at h3
  exact (mul_eq_zero.mp h3).resolve_right (norm_ne_zero hl4)

theorem sep_continuous {N : ℕ} (c : Fin N → ℝ) (P Q : Fin N → ℝ[X]) : Continuous fun z : ℝ × ℝ => sep c P Q z.1 z.2 := by
  unfold sep
  refine continuous_finset_sum _ fun r _ => continuous_const.mul ?_
  exact ((P r).continuous.comp continuous_fst).mul ((Q r).continuous.comp continuous_snd)

theorem bendDensity_continuous (D : Matrix (Fin 3) (Fin 3) ℝ) (w : List (ℕ × ℕ)) {N : ℕ} (c : Fin N → ℝ) :
    Continuous fun z : ℝ × ℝ => bendDensity D (ritz a b w c) z.1 z.2 := by
  simp only [bendDensity, ritz_sep, dX_sep, dY_sep, Matrix.mulVec, dotProduct, Fin.sum_univ_three, Matrix.cons_val_zero,
      Matrix.cons_val_one, Matrix.cons_val]
  have := fun P Q => sep_continuous c P Q
  fun_prop

/-- **C49** for a clamped plate with positive definite `D` the stiffness matrix the library computes from its shipped
tables is positive definite: every non-zero coefficient vector has positive energy. -/
theorem C49_posDef_clamped (D : Matrix (Fin 3) (Fin 3) ℝ) (hD : D.PosDef) (p : PlateNum) (ha : 0 < p.a) (hb : 0 < p.b)
    (hm : p.m ≤ 26) (hn : p.n ≤ 26) :
    ∃ K KG, calcKKGD shipped (.ok D) (.str wCLAMPED) p = .ok (K, KG) ∧ ∀ c, c ≠ 0 → 0 < c ⬝ᵥ K.mulVec c := by
  have hsym : D.IsSymm := by
    have := hD.isHermitian
    rw [Matrix.IsHermitian, Matrix.conjTranspose_eq_transpose_of_trivial] at this
    exact this
  obtain ⟨s, K, KG, hs, hK, he⟩ := C49_energy_clamped D hsym p ha.ne' hb.ne' hm hn
  obtain ⟨s', hs', hw⟩ := clamped_idx p.m p.n
  obtain rfl : s = s' := by rw [hs] at hs'; exact Except.ok.inj hs'
  refine ⟨K, KG, hK, fun c hc => ?_⟩
  rw [(he c).1]
  set w := ritz p.a p.b s.w c with hwdef
  have hnn : ∀ x y, 0 ≤ bendDensity D w x y := by
    intro x y
    have := hD.posSemidef.dotProduct_mulVec_nonneg ![dX (dX w) x y, dY (dY w) x y, 2 * dY (dX w) x y]
    simpa [bendDensity] using this
  -- a point where the first curvature does not vanish
  have hex : ∃ x ∈ Set.Icc 0 p.a, ∃ y ∈ Set.Icc 0 p.b, dX (dX w) x y ≠ 0 := by
    by_contra hno
    push Not at hno
    apply hc
    have hlen : s.w.length = p.m * p.n := by
      rw [hw]
      show ((List.range' 4 p.m) ×ˢ (List.range' 4 p.n)).length = _
      simp [List.length_product]
    have hnd : s.w.Nodup := by
      rw [hw]
      exact List.Nodup.product (List.nodup_range') (List.nodup_range')
    refine bubbles_indep (fun r : Fin (p.m * p.n) => s.w.getD r (0, 0)) ?_ ?_ c ?_
    · intro r r' h
      simp only at h
      rw [List.getD_eq_getElem _ _ (by rw [hlen]; exact r.2), List.getD_eq_getElem _ _ (by rw [hlen]; exact r'.2)] at h
      exact Fin.ext ((hnd.getElem_inj_iff).mp h)
    · intro r
      have hmem : s.w.getD r (0, 0) ∈ s.w := by
        rw [List.getD_eq_getElem _ _ (by rw [hlen]; exact r.2)]
        exact List.getElem_mem _
      have hmem' : s.w.getD r (0, 0) ∈ (List.range' 4 p.m).product (List.range' 4 p.n) := hw ▸ hmem
      generalize s.w.getD r (0, 0) = q at hmem'
      have := List.mem_product.mp (show (q.1, q.2) ∈ (List.range' 4 p.m) ×ˢ (List.range' 4 p.n) from hmem')
      simp only [List.mem_range'_1] at this
      exact ⟨this.1.1, this.2.1⟩
    · intro xi hxi eta heta
      have hx : (xi + 1) * p.a / 2 ∈ Set.Icc 0 p.a := by
        constructor
        · have : 0 ≤ (xi + 1) * p.a := mul_nonneg (by linarith [hxi.1]) ha.le
          linarith
        · have : (xi + 1) * p.a ≤ 2 * p.a := mul_le_mul_of_nonneg_right (by linarith [hxi.2]) ha.le
          linarith
      have hy : (eta + 1) * p.b / 2 ∈ Set.Icc 0 p.b := by
        constructor
        · have : 0 ≤ (eta + 1) * p.b := mul_nonneg (by linarith [heta.1]) hb.le
          linarith
        · have : (eta + 1) * p.b ≤ 2 * p.b := mul_le_mul_of_nonneg_right (by linarith [heta.2]) hb.le
          linarith
      have h0 := hno _ hx _ hy
      rw [hwdef, (ritz_derivs p.a p.b s.w c _ _).2.2.1] at h0
      have h1 := (mul_eq_zero.mp h0).resolve_left (pow_ne_zero _ (div_ne_zero two_ne_zero ha.ne'))
      have ex : 2 / p.a * ((xi + 1) * p.a / 2) - 1 = xi := by field_simp; ring
      have ey : 2 / p.b * ((eta + 1) * p.b / 2) - 1 = eta := by field_simp; ring
      simpa only [sep, phys_eval, ex, ey] using h1
  obtain ⟨x0, hx0, y0, hy0, hne⟩ := hex
  have hpos : 0 < bendDensity D w x0 y0 := by
    have hv : ![dX (dX w) x0 y0, dY (dY w) x0 y0, 2 * dY (dX w) x0 y0] ≠ 0 := by
      intro h
      exact hne (by simpa using congrFun h 0)
    have := hD.dotProduct_mulVec_pos hv
    simpa [bendDensity] using this
  have hcont := bendDensity_continuous (a := p.a) (b := p.b) D s.w c
  unfold bendEnergy
  refine intervalIntegral.integral_pos ha ?_ ?_ ⟨x0, hx0, ?_⟩
  · exact (intervalIntegral.continuous_parametric_intervalIntegral_of_continuous'
      (f := fun x y => bendDensity D w x y) hcont 0 p.b).continuousOn
  · exact fun x _ => intervalIntegral.integral_nonneg hb.le fun y _ => hnn x y
  · exact intervalIntegral.integral_pos hb (hcont.comp (by fun_prop : Continuous fun y : ℝ => (x0, y))).continuousOn
      (fun y _ => hnn x0 y) ⟨y0, hy0, hpos⟩

/-- Non-vacuity for C49: a clamped unit square with one term and `D = 1` has the positive stiffness entry
the code computes. -/
example : ∃ K KG, calcKKGD shipped (.ok 1) (.str wCLAMPED) ⟨1, 1, 1, 0, 0, 1, 1⟩ = .ok (K, KG) ∧
    0 < (fun _ => 1) ⬝ᵥ K.mulVec (fun _ => 1) := by
  obtain ⟨K, KG, h, hp⟩ := C49_posDef_clamped 1 Matrix.PosDef.one ⟨1, 1, 1, 0, 0, 1, 1⟩ one_pos one_pos (by norm_num) (by norm_num)
  exact ⟨K, KG, h, hp _ fun h0 => one_ne_zero (congrFun h0 ⟨0, by norm_num⟩)⟩

end Composipy
