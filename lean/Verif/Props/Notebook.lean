import Verif.Model.Notebook
import Verif.Props.LP
import Verif.Props.NavierLimit
import Mathlib.Analysis.Calculus.Deriv.Add
import Mathlib.Analysis.Calculus.Deriv.Mul
import Mathlib.Analysis.Calculus.Deriv.Pow

/-!
# C138: the optimum in the notebook on lamination parameters
-/

namespace Composipy
open Spec Matrix Real

/-- The plates the notebook can be about: sides, thickness and half waves positive. -/
def Spec.NbGood (p : NbPlate) : Prop := 0 < p.T ∧ 0 < p.a ∧ 0 < p.b ∧ 0 < p.m ∧ 0 < p.n

/-- With `r = a n / (b m)` the ratio of the half waves' lengths, `(b m)⁴ (r⁴ - 6 r² + 1)`: the sign of
the influence of `xi3` on the buckling load. -/
def Spec.nbTwist (p : NbPlate) : ℝ := (p.a * p.n) ^ 4 - 6 * (p.a * p.n) ^ 2 * (p.b * p.m) ^ 2 + (p.b * p.m) ^ 4

/-- The common factor of the two influences. -/
noncomputable def nbScale (p : NbPlate) : ℝ := π ^ 2 * p.T ^ 3 / (12 * p.a ^ 2 * p.b ^ 4 * p.m ^ 2)

theorem nbScale_pos {p : NbPlate} (h : NbGood p) : 0 < nbScale p := by
  obtain ⟨hT, ha, hb, hm, -⟩ := h
  have := pi_pos
  unfold nbScale
  positivity

theorem nbGrad_zero (U : Invariants) {p : NbPlate} (h : NbGood p) (x z v w : ℝ) :
    nbGrad U p x z v w 0 = -4 * v * x - nbScale p * U.U2 * ((p.a * p.n) ^ 4 - (p.b * p.m) ^ 4) := by
  obtain ⟨-, ha, hb, hm, -⟩ := h
  have := ha.ne'; have := hb.ne'; have := hm.ne'
  simp only [nbGrad, nbScale, Matrix.cons_val_zero]
  field_simp
  ring

theorem nbGrad_one (U : Invariants) {p : NbPlate} (h : NbGood p) (x z v w : ℝ) :
    nbGrad U p x z v w 1 = v + w + nbScale p * U.U3 * nbTwist p := by
  obtain ⟨-, ha, hb, hm, -⟩ := h
  have := ha.ne'; have := hb.ne'; have := hm.ne'
  simp only [nbGrad, nbScale, nbTwist, Matrix.cons_val_one, Matrix.cons_val_zero]
  field_simp
  ring

theorem nbGrad_two (U : Invariants) (p : NbPlate) (x z v w : ℝ) : nbGrad U p x z v w 2 = -2 * x ^ 2 + z + 1 := rfl

theorem nbGrad_three (U : Invariants) (p : NbPlate) (x z v w : ℝ) : nbGrad U p x z v w 3 = z - 1 := rfl

theorem nbNxcr_linear (U : Invariants) {p : NbPlate} (h : NbGood p) (xi : Fin 4 → ℝ) :
    nbNxcr U p xi = nbNxcr U p 0 - nbScale p * U.U2 * ((p.a * p.n) ^ 4 - (p.b * p.m) ^ 4) * xi 0 + nbScale p * U.U3 * nbTwist p * xi 2 := by
  obtain ⟨-, ha, hb, hm, -⟩ := h
  have := ha.ne'; have := hb.ne'; have := hm.ne'
  simp [nbNxcr, nbNxcrOf, nbD, nbScale, nbTwist, nbGamma0, nbGamma1, nbGamma2, nbGamma3, nbGamma4]
  field_simp
  ring

/-! ## The stiffness, the load and the gradient -/

/-- **C138** the matrix of the notebook is the stiffness the library gives a laminate of lamination parameters (C26), and the five
values of cell 33 are the invariants the library computes. -/
theorem C138_stiffness (U : Invariants) (T : ℝ) (xi : Fin 4 → ℝ) :
    nbD U T xi = lpStiffness (T ^ 3 / 12) U xi ∧ ∀ Q, nbUval Q = invariantsOf Q := by
  refine ⟨?_, fun Q => rfl⟩
  ext i j
  fin_cases i <;> fin_cases j <;>
    simp [nbD, lpStiffness, invariantQ, nbGamma0, nbGamma1, nbGamma2, nbGamma3, nbGamma4] <;> ring_nf <;> simp

/-- **C138** `Nxcr` is the load at which a simply supported plate compressed along `x` buckles with `m` by `n` half waves, if
bending and twisting are not coupled, and its greatest lower bound over all half waves is what the first multiplier of the plate
with `PINNED` edges tends to (C99). -/
theorem C138_load (U : Invariants) (T a b : ℝ) (ha : 0 < a) (hb : 0 < b) (xi : Fin 4 → ℝ) :
    (∀ m n : ℕ, 1 ≤ m → 1 ≤ n → nbNxcr U ⟨T, a, b, m, n⟩ xi = navier (nbD U T xi) a b (-1) 0 m n) ∧
    navierSet (nbD U T xi) a b (-1) 0 = {t | ∃ m n : ℕ, 1 ≤ m ∧ 1 ≤ n ∧ t = nbNxcr U ⟨T, a, b, m, n⟩ xi} := by
  have key : ∀ m n : ℕ, 1 ≤ m → 1 ≤ n → nbNxcr U ⟨T, a, b, m, n⟩ xi = navier (nbD U T xi) a b (-1) 0 m n := by
    intro m n hm hn
    have h1 : (m : ℝ) ≠ 0 := by positivity
    have := ha.ne'; have := hb.ne'; have := pi_pos.ne'
    simp only [nbNxcr, nbNxcrOf, navier, navierStiff, wave]
    generalize nbD U T xi = D
    field_simp
    ring
  refine ⟨key, ?_⟩
  ext t
  constructor
  · rintro ⟨i, j, hi, hj, -, rfl⟩
    exact ⟨i, j, hi, hj, (key i j hi hj).symm⟩
  · rintro ⟨i, j, hi, hj, rfl⟩
    refine ⟨i, j, hi, hj, ?_, key i j hi hj⟩
    have := pi_pos
    have : (0 : ℝ) < i := by positivity
    simp only [wave]
    have : 0 < ((i : ℝ) * π / a) ^ 2 := by positivity
    linarith

/-- **C138** the four expressions stored for the gradient are the derivatives of `L`. -/
theorem C138_gradient (U : Invariants) (p : NbPlate) (h : NbGood p) (x z v w : ℝ) :
    HasDerivAt (fun t => nbL U p ![t, 0, z, 0] v w) (nbGrad U p x z v w 0) x ∧
    HasDerivAt (fun t => nbL U p ![x, 0, t, 0] v w) (nbGrad U p x z v w 1) z ∧
    HasDerivAt (fun t => nbL U p ![x, 0, z, 0] t w) (nbGrad U p x z v w 2) v ∧
    HasDerivAt (fun t => nbL U p ![x, 0, z, 0] v t) (nbGrad U p x z v w 3) w := by
  have lin : ∀ c d t : ℝ, HasDerivAt (fun s : ℝ => c + d * s) d t := fun c d t => by
    simpa using ((hasDerivAt_id t).const_mul d).const_add c
  have quad : ∀ c d e t : ℝ, HasDerivAt (fun s : ℝ => c + d * s + e * s ^ 2) (d + 2 * e * t) t := fun c d e t => by
    refine ((lin c d t).add ((hasDerivAt_pow 2 t).const_mul e)).congr_deriv ?_
    push_cast
    ring
  simp only [nbGrad_zero U h, nbGrad_one U h, nbGrad_two, nbGrad_three, nbL, nbG1, nbG2]
  have e : ∀ x z : ℝ, nbNxcr U p ![x, 0, z, 0] = nbNxcr U p 0
      - nbScale p * U.U2 * ((p.a * p.n) ^ 4 - (p.b * p.m) ^ 4) * x + nbScale p * U.U3 * nbTwist p * z :=
    fun x z => nbNxcr_linear U h ![x, 0, z, 0]
  simp only [e, Matrix.cons_val]
  refine ⟨?_, ?_, ?_, ?_⟩
  · refine ((quad (nbNxcr U p 0 + nbScale p * U.U3 * nbTwist p * z + v * (z + 1) + w * (z - 1))
      (-(nbScale p * U.U2 * ((p.a * p.n) ^ 4 - (p.b * p.m) ^ 4))) (-2 * v) x).congr_deriv ?_).congr_of_eventuallyEq
      (Filter.Eventually.of_forall fun s => ?_)
    · ring
    · ring
  · refine ((lin (nbNxcr U p 0 - nbScale p * U.U2 * ((p.a * p.n) ^ 4 - (p.b * p.m) ^ 4) * x + v * (1 - 2 * x ^ 2) - w)
      (nbScale p * U.U3 * nbTwist p + v + w) z).congr_deriv ?_).congr_of_eventuallyEq (Filter.Eventually.of_forall fun s => ?_)
    · ring
    · ring
  · refine ((lin (nbNxcr U p 0 - nbScale p * U.U2 * ((p.a * p.n) ^ 4 - (p.b * p.m) ^ 4) * x + nbScale p * U.U3 * nbTwist p * z
      + w * (z - 1)) (z - 2 * x ^ 2 + 1) v).congr_deriv ?_).congr_of_eventuallyEq (Filter.Eventually.of_forall fun s => ?_)
    · ring
    · ring
  · refine ((lin (nbNxcr U p 0 - nbScale p * U.U2 * ((p.a * p.n) ^ 4 - (p.b * p.m) ^ 4) * x + nbScale p * U.U3 * nbTwist p * z
      + v * (z - 2 * x ^ 2 + 1)) (z - 1) w).congr_deriv ?_).congr_of_eventuallyEq (Filter.Eventually.of_forall fun s => ?_)
    · ring
    · ring

/-! ## The four cases -/

theorem nb_fourth {p : NbPlate} (h : NbGood p) : (p.a * p.n) ^ 4 - (p.b * p.m) ^ 4 = 0 ↔ p.a * p.n = p.b * p.m := by
  obtain ⟨-, ha, hb, hm, hn⟩ := h
  rw [sub_eq_zero, pow_left_inj₀ (by positivity) (by positivity) (by norm_num)]

theorem nb_twist_eq (p : NbPlate) : nbTwist p = (p.a ^ 2 * p.n ^ 2 - 2 * p.a * p.b * p.m * p.n - p.b ^ 2 * p.m ^ 2)
    * (p.a ^ 2 * p.n ^ 2 + 2 * p.a * p.b * p.m * p.n - p.b ^ 2 * p.m ^ 2) := by
  unfold nbTwist
  ring

theorem nb_xi1 (U : Invariants) (p : NbPlate) :
    nbXi1Opt U p = U.U2 * ((p.a * p.n) ^ 4 - (p.b * p.m) ^ 4) / (4 * U.U3 * nbTwist p) := by
  rw [nb_twist_eq]
  unfold nbXi1Opt
  congr 1 <;> ring

theorem nb_xi3 (U : Invariants) (p : NbPlate) (h3 : U.U3 ≠ 0) (hq : nbTwist p ≠ 0) : nbXi3Opt U p = 2 * nbXi1Opt U p ^ 2 - 1 := by
  have e : nbXi3Opt U p = (U.U2 ^ 2 * ((p.a * p.n) ^ 4 - (p.b * p.m) ^ 4) ^ 2 - 8 * U.U3 ^ 2 * nbTwist p ^ 2) / (8 * U.U3 ^ 2 * nbTwist p ^ 2) := by
    unfold nbXi3Opt
    congr 1
    · unfold nbTwist
      ring
    · rw [nb_twist_eq]
      ring
  rw [e, nb_xi1]
  field_simp
  ring

theorem nb_v1 (U : Invariants) (p : NbPlate) : nbV1Opt U p = -(nbScale p * U.U3 * nbTwist p) := by
  rw [nb_twist_eq]
  unfold nbV1Opt nbScale
  ring

/-- **C138** case 1: exactly the two points stored. -/
theorem C138_case1 (U : Invariants) (p : NbPlate) (h : NbGood p) (x z v w : ℝ) :
    nbCase U p 0 x z v w ↔ (x, z, v, w) ∈ nbSol1 U p := by
  have d : 12 * p.a ^ 2 * p.b ^ 4 * p.m ^ 2 ≠ 0 := by
    obtain ⟨-, ha, hb, hm, -⟩ := h
    positivity
  have sol : nbSol1 U p = [(-1, 1, nbScale p * U.U2 * ((p.a * p.n) ^ 4 - (p.b * p.m) ^ 4) / 4,
      -(nbScale p * U.U3 * nbTwist p) - nbScale p * U.U2 * ((p.a * p.n) ^ 4 - (p.b * p.m) ^ 4) / 4),
      (1, 1, -(nbScale p * U.U2 * ((p.a * p.n) ^ 4 - (p.b * p.m) ^ 4)) / 4,
      -(nbScale p * U.U3 * nbTwist p) + nbScale p * U.U2 * ((p.a * p.n) ^ 4 - (p.b * p.m) ^ 4) / 4)] := by
    unfold nbSol1 nbScale nbTwist
    congr 1
    · congr 2
      congr 1 <;> ring
    · congr 3
      congr 1 <;> ring
  rw [sol]
  simp only [nbCase, Fin.forall_fin_succ, List.mem_cons, Prod.mk.injEq, List.not_mem_nil, or_false]
  simp only [Fin.succ_zero_eq_one, Fin.succ_one_eq_two, show (Fin.succ 2 : Fin 4) = 3 from rfl, IsEmpty.forall_iff, and_true,
    nbGrad_zero U h, nbGrad_one U h, nbGrad_two, nbGrad_three]
  constructor
  · rintro ⟨h0, h1, h2, h3⟩
    have hz : z = 1 := by linarith
    subst hz
    have hx : (x + 1) * (x - 1) = 0 := by linarith
    rcases mul_eq_zero.mp hx with hx | hx
    · have : x = -1 := by linarith
      subst this
      left
      refine ⟨rfl, rfl, ?_, ?_⟩ <;> linarith
    · have : x = 1 := by linarith
      subst this
      right
      refine ⟨rfl, rfl, ?_, ?_⟩ <;> linarith
  · rintro (⟨rfl, rfl, rfl, rfl⟩ | ⟨rfl, rfl, rfl, rfl⟩)
    · refine ⟨?_, ?_, ?_, ?_⟩ <;> ring
    · refine ⟨?_, ?_, ?_, ?_⟩ <;> ring

/-- **C138** case 2: the empty set stored is right if and only if the half waves are not square; for square half waves, which is
what the notebook goes on to evaluate, every point with `xi3 = 1` is a solution. -/
theorem C138_case2 (U : Invariants) (p : NbPlate) (h : NbGood p) (h2 : U.U2 ≠ 0) :
    ((∀ x z v w, ¬ nbCase U p 1 x z v w) ↔ p.a * p.n ≠ p.b * p.m) ∧
    (p.a * p.n = p.b * p.m → ∀ x z v w, nbCase U p 1 x z v w ↔ z = 1 ∧ w = -(nbScale p * U.U3 * nbTwist p)) := by
  have hs := (nbScale_pos h).ne'
  have sq : p.a * p.n = p.b * p.m → ∀ x z v w, nbCase U p 1 x z v w ↔ z = 1 ∧ w = -(nbScale p * U.U3 * nbTwist p) := by
    intro e x z v w
    simp only [nbCase, nbGrad_zero U h, nbGrad_one U h, nbGrad_three, (nb_fourth h).mpr e]
    constructor
    · rintro ⟨-, h1, h3⟩
      exact ⟨by linarith, by linarith⟩
    · rintro ⟨rfl, rfl⟩
      exact ⟨by ring, by ring, by ring⟩
  refine ⟨⟨fun hno e => ?_, fun hne x z v w hc => ?_⟩, sq⟩
  · exact hno 0 1 0 _ ((sq e 0 1 0 _).mpr ⟨rfl, rfl⟩)
  · simp only [nbCase, nbGrad_zero U h] at hc
    have := hc.1
    apply hne
    rw [← nb_fourth h]
    have : nbScale p * U.U2 * ((p.a * p.n) ^ 4 - (p.b * p.m) ^ 4) = 0 := by linarith
    simpa [hs, h2] using this

/-- **C138** case 3: exactly the point stored, whenever `xi3` has an influence; without it there is none. -/
theorem C138_case3 (U : Invariants) (p : NbPlate) (h : NbGood p) (h2 : U.U2 ≠ 0) (h3 : U.U3 ≠ 0) (x z v w : ℝ) :
    nbCase U p 2 x z v w ↔ nbTwist p ≠ 0 ∧ x = nbXi1Opt U p ∧ z = nbXi3Opt U p ∧ v = nbV1Opt U p := by
  have hs := (nbScale_pos h).ne'
  simp only [nbCase, nbGrad_zero U h, nbGrad_one U h, nbGrad_two, nb_v1, add_zero]
  by_cases hq : nbTwist p = 0
  · simp only [hq, ne_eq, not_true_eq_false, false_and, iff_false, mul_zero, add_zero]
    rintro ⟨h0, rfl, -⟩
    have : nbScale p * U.U2 * ((p.a * p.n) ^ 4 - (p.b * p.m) ^ 4) = 0 := by linarith
    have e : p.a * p.n = p.b * p.m := by
      rw [← nb_fourth h]
      simpa [hs, h2] using this
    unfold nbTwist at hq
    rw [e] at hq
    have : 0 < p.b * p.m := mul_pos h.2.2.1 h.2.2.2.1
    have : 0 < (p.b * p.m) ^ 4 := by positivity
    nlinarith
  · rw [nb_xi3 U p h3 hq, nb_xi1]
    simp only [ne_eq, hq, not_false_eq_true, true_and]
    constructor
    · rintro ⟨h0, h1, h2'⟩
      have hv : v = -(nbScale p * U.U3 * nbTwist p) := by linarith
      subst hv
      have hx : x = U.U2 * ((p.a * p.n) ^ 4 - (p.b * p.m) ^ 4) / (4 * U.U3 * nbTwist p) := by
        rw [eq_div_iff (by simp [h3, hq])]
        have : nbScale p * (x * (4 * U.U3 * nbTwist p)) = nbScale p * (U.U2 * ((p.a * p.n) ^ 4 - (p.b * p.m) ^ 4)) := by linarith
        exact mul_left_cancel₀ hs this
      exact ⟨hx, by rw [← hx]; linarith, rfl⟩
    · rintro ⟨rfl, rfl, rfl⟩
      refine ⟨?_, by ring, by ring⟩
      field_simp
      ring

/-- **C138** case 4: the empty set stored is right for all plates. -/
theorem C138_case4 (U : Invariants) (p : NbPlate) (h : NbGood p) (h2 : U.U2 ≠ 0) (h3 : U.U3 ≠ 0) (x z v w : ℝ) : ¬ nbCase U p 3 x z v w := by
  intro hc
  have := (C138_case3 U p h h2 h3 0 (-1) 0 0).not.mpr
  simp only [nbCase, nbGrad_zero U h, nbGrad_one U h, zero_add] at hc
  have hs := (nbScale_pos h).ne'
  have hq : nbTwist p = 0 := by simpa [hs, h3] using hc.2
  apply (C138_case3 U p h h2 h3 0 (-1) 0 0).not.mpr (by simp [hq])
  simp only [nbCase, nbGrad_zero U h, nbGrad_one U h, nbGrad_two, hq]
  exact ⟨by linarith [hc.1], by ring, by ring⟩

/-! ## The maximum -/

/-- **C138** the point of case 3 is the only maximum of the load over all laminates, if `xi3` lowers the load. -/
theorem C138_maximum (U : Invariants) (p : NbPlate) (h : NbGood p) (h3 : 0 < U.U3) (hq : nbTwist p < 0) (x z : ℝ) (hg : 0 ≤ nbG1 x z) :
    nbNxcr U p ![x, 0, z, 0] ≤ nbNxcr U p ![nbXi1Opt U p, 0, nbXi3Opt U p, 0] ∧
    (nbNxcr U p ![x, 0, z, 0] = nbNxcr U p ![nbXi1Opt U p, 0, nbXi3Opt U p, 0] → x = nbXi1Opt U p ∧ z = nbXi3Opt U p) := by
  have hs := nbScale_pos h
  rw [nbNxcr_linear U h ![x, 0, z, 0], nbNxcr_linear U h ![nbXi1Opt U p, 0, nbXi3Opt U p, 0]]
  simp only [Matrix.cons_val]
  set X := nbXi1Opt U p with hX
  rw [nb_xi3 U p h3.ne' hq.ne, ← hX]
  have e : U.U2 * ((p.a * p.n) ^ 4 - (p.b * p.m) ^ 4) = 4 * U.U3 * nbTwist p * X := by
    have := h3.ne'; have := hq.ne
    rw [hX, nb_xi1]
    field_simp
  have e' : nbScale p * U.U2 * ((p.a * p.n) ^ 4 - (p.b * p.m) ^ 4) = 4 * (nbScale p * U.U3 * nbTwist p) * X := by
    rw [mul_assoc, e]; ring
  rw [e']
  have hk : nbScale p * U.U3 * nbTwist p < 0 := mul_neg_of_pos_of_neg (mul_pos hs h3) hq
  generalize nbScale p * U.U3 * nbTwist p = k at hk
  unfold nbG1 at hg
  have id : (nbNxcr U p 0 - 4 * k * X * X + k * (2 * X ^ 2 - 1)) - (nbNxcr U p 0 - 4 * k * X * x + k * z)
      = -k * (2 * (x - X) ^ 2 + (z - 2 * x ^ 2 + 1)) := by ring
  have hp : 0 ≤ -k * (2 * (x - X) ^ 2 + (z - 2 * x ^ 2 + 1)) := by
    have := sq_nonneg (x - X)
    exact mul_nonneg (by linarith) (by linarith)
  refine ⟨by linarith, fun heq => ?_⟩
  have h0 : -k * (2 * (x - X) ^ 2 + (z - 2 * x ^ 2 + 1)) = 0 := by linarith
  have h1 : 2 * (x - X) ^ 2 + (z - 2 * x ^ 2 + 1) = 0 := by
    rcases mul_eq_zero.mp h0 with h0 | h0
    · linarith
    · exact h0
  have := sq_nonneg (x - X)
  have hx : (x - X) ^ 2 = 0 := by linarith
  have : x = X := by
    have := pow_eq_zero_iff (two_ne_zero) |>.mp hx
    linarith
  subst this
  exact ⟨rfl, by linarith⟩

/-- A maximum of the load over the laminates the notebook draws, `2 xi1² - 1 ≤ xi3 ≤ 1`. -/
def Spec.NbBest (U : Invariants) (p : NbPlate) (x z : ℝ) : Prop :=
  (0 ≤ nbG1 x z ∧ nbG2 z ≤ 0) ∧ ∀ x' z', 0 ≤ nbG1 x' z' → nbG2 z' ≤ 0 → nbNxcr U p ![x', 0, z', 0] ≤ nbNxcr U p ![x, 0, z, 0]

/-- **C138** whatever the plate, one of the three points stored is a maximum over `2 xi1² - 1 ≤ xi3 ≤ 1`: the one of case 3 if
`xi3` lowers the load and it has `|xi1| ≤ 1`, otherwise one of case 1. -/
theorem C138_some_case (U : Invariants) (p : NbPlate) (h : NbGood p) (h3 : 0 < U.U3) :
    (nbTwist p < 0 → |nbXi1Opt U p| ≤ 1 → NbBest U p (nbXi1Opt U p) (nbXi3Opt U p)) ∧
    (¬ (nbTwist p < 0 ∧ |nbXi1Opt U p| ≤ 1) → NbBest U p (-1) 1 ∨ NbBest U p 1 1) := by
  have hs := nbScale_pos h
  constructor
  · intro hq hx
    refine ⟨?_, fun x z hg _ => (C138_maximum U p h h3 hq x z hg).1⟩
    have := abs_le.mp hx
    rw [nb_xi3 U p h3.ne' hq.ne]
    unfold nbG1 nbG2
    constructor
    · linarith
    · nlinarith
  · intro hno
    have lin : ∀ x z : ℝ, nbNxcr U p ![x, 0, z, 0] = nbNxcr U p 0
        - nbScale p * U.U2 * ((p.a * p.n) ^ 4 - (p.b * p.m) ^ 4) * x + nbScale p * U.U3 * nbTwist p * z := fun x z => nbNxcr_linear U h _
    unfold NbBest nbG1 nbG2
    simp only [lin]
    have box : ∀ x z : ℝ, 0 ≤ z - 2 * x ^ 2 + 1 → z - 1 ≤ 0 → -1 ≤ x ∧ x ≤ 1 := fun x z h1 h2 => ⟨by nlinarith, by nlinarith⟩
    by_cases hq : nbTwist p < 0
    · have hx : 1 < |nbXi1Opt U p| := by
        by_contra hc
        exact hno ⟨hq, not_lt.mp hc⟩
      have e : nbScale p * U.U2 * ((p.a * p.n) ^ 4 - (p.b * p.m) ^ 4) = 4 * (nbScale p * U.U3 * nbTwist p) * nbXi1Opt U p := by
        have := h3.ne'; have := hq.ne
        rw [nb_xi1]
        field_simp
      have hk : nbScale p * U.U3 * nbTwist p < 0 := mul_neg_of_pos_of_neg (mul_pos hs h3) hq
      rw [e]
      generalize nbScale p * U.U3 * nbTwist p = k at hk ⊢
      generalize nbXi1Opt U p = X at hx ⊢
      rcases lt_abs.mp hx with hX | hX
      · right
        refine ⟨by norm_num, fun x z h1 h2 => ?_⟩
        obtain ⟨hl, hr⟩ := box x z h1 h2
        have a1 : 0 ≤ -k * (z - 2 * x ^ 2 + 1) := mul_nonneg (by linarith) h1
        have a2 : 0 ≤ -k * ((1 - x) * (2 * X - (1 + x))) := mul_nonneg (by linarith) (mul_nonneg (by linarith) (by linarith))
        nlinarith
      · left
        refine ⟨by norm_num, fun x z h1 h2 => ?_⟩
        obtain ⟨hl, hr⟩ := box x z h1 h2
        have a1 : 0 ≤ -k * (z - 2 * x ^ 2 + 1) := mul_nonneg (by linarith) h1
        have a2 : 0 ≤ -k * ((1 + x) * (-2 * X - (1 - x))) := mul_nonneg (by linarith) (mul_nonneg (by linarith) (by linarith))
        nlinarith
    · have hk : 0 ≤ nbScale p * U.U3 * nbTwist p := mul_nonneg (mul_pos hs h3).le (not_lt.mp hq)
      generalize nbScale p * U.U3 * nbTwist p = k at hk ⊢
      generalize nbScale p * U.U2 * ((p.a * p.n) ^ 4 - (p.b * p.m) ^ 4) = c
      rcases le_total 0 c with hc | hc
      · left
        refine ⟨by norm_num, fun x z h1 h2 => ?_⟩
        obtain ⟨hl, hr⟩ := box x z h1 h2
        have := mul_nonneg hk (sub_nonneg.mpr (sub_nonpos.mp h2))
        have := mul_nonneg hc (show 0 ≤ x + 1 by linarith)
        nlinarith
      · right
        refine ⟨by norm_num, fun x z h1 h2 => ?_⟩
        obtain ⟨hl, hr⟩ := box x z h1 h2
        have := mul_nonneg hk (sub_nonneg.mpr (sub_nonpos.mp h2))
        have := mul_nonneg (neg_nonneg.mpr hc) (show 0 ≤ 1 - x by linarith)
        nlinarith

/-! ## Square plates -/

/-- The load of one half wave each way for the laminate `(0, -1)` (all plies at ±45°) on a square plate of side `L`. -/
noncomputable def Spec.squareBest (U : Invariants) (T L : ℝ) : ℝ :=
  π ^ 2 / L ^ 2 * (T ^ 3 / 12) * (2 * U.U1 + 2 * U.U4 + 4 * U.U5 + 4 * U.U3)

/-- **C138** square plates: the point of case 3 for one half wave each way is `(0, -1)`, and one half wave each way is then the
lowest of all loads, so that no other laminate has a higher buckling load, all half waves considered. -/
theorem C138_square (U : Invariants) (T L : ℝ) (hT : 0 < T) (hL : 0 < L) (h3 : 0 < U.U3) (hd : 0 ≤ U.U1 - U.U3)
    (hH : 0 ≤ U.U1 + U.U4 + 2 * U.U5 + 2 * U.U3) :
    nbXi1Opt U ⟨T, L, L, 1, 1⟩ = 0 ∧ nbXi3Opt U ⟨T, L, L, 1, 1⟩ = -1 ∧
    IsLeast (navierSet (nbD U T ![0, 0, -1, 0]) L L (-1) 0) (squareBest U T L) ∧
    (∀ x z, 0 ≤ nbG1 x z → ∃ t ∈ navierSet (nbD U T ![x, 0, z, 0]) L L (-1) 0, t ≤ squareBest U T L) := by
  have hg : NbGood ⟨T, L, L, 1, 1⟩ := ⟨hT, hL, hL, one_pos, one_pos⟩
  have hq : nbTwist ⟨T, L, L, 1, 1⟩ < 0 := by
    have : 0 < L ^ 4 := by positivity
    simp only [nbTwist]
    nlinarith
  have x1 : nbXi1Opt U ⟨T, L, L, 1, 1⟩ = 0 := by rw [nb_xi1]; simp
  have x3 : nbXi3Opt U ⟨T, L, L, 1, 1⟩ = -1 := by rw [nb_xi3 U _ h3.ne' hq.ne, x1]; norm_num
  have val : ∀ m n : ℝ, 0 < m → nbNxcr U ⟨T, L, L, m, n⟩ ![0, 0, -1, 0] = π ^ 2 / L ^ 2 * (T ^ 3 / 12)
      * ((U.U1 - U.U3) * (m ^ 2 - n ^ 2) ^ 2 / m ^ 2 + (2 * U.U1 + 2 * U.U4 + 4 * U.U5 + 4 * U.U3) * n ^ 2) := by
    intro m n hm
    have := hm.ne'; have := hL.ne'
    simp [nbNxcr, nbNxcrOf, nbD, nbGamma0, nbGamma1, nbGamma2, nbGamma3, nbGamma4]
    field_simp
    ring
  have best : nbNxcr U ⟨T, L, L, 1, 1⟩ ![0, 0, -1, 0] = squareBest U T L := by
    rw [val 1 1 one_pos, squareBest]
    norm_num
  have hc : 0 < π ^ 2 / L ^ 2 * (T ^ 3 / 12) := by
    have := pi_pos
    positivity
  refine ⟨x1, x3, ⟨?_, ?_⟩, fun x z h => ?_⟩
  · rw [(C138_load U T L L hL hL _).2]
    exact ⟨1, 1, le_rfl, le_rfl, by rw [← best]; norm_num⟩
  · rw [(C138_load U T L L hL hL _).2]
    rintro _ ⟨m, n, hm, hn, rfl⟩
    have hm' : (0 : ℝ) < m := by exact_mod_cast hm
    have hn' : (1 : ℝ) ≤ n := by exact_mod_cast hn
    rw [val m n hm', squareBest]
    refine mul_le_mul_of_nonneg_left ?_ hc.le
    have a1 : 0 ≤ (U.U1 - U.U3) * ((m : ℝ) ^ 2 - (n : ℝ) ^ 2) ^ 2 / (m : ℝ) ^ 2 := by positivity
    have a2 : 0 ≤ (2 * U.U1 + 2 * U.U4 + 4 * U.U5 + 4 * U.U3) * ((n : ℝ) ^ 2 - 1) :=
      mul_nonneg (by linarith) (by nlinarith)
    linarith
  · refine ⟨nbNxcr U ⟨T, L, L, 1, 1⟩ ![x, 0, z, 0], ?_, ?_⟩
    · rw [(C138_load U T L L hL hL _).2]
      exact ⟨1, 1, le_rfl, le_rfl, by norm_num⟩
    · have := (C138_maximum U ⟨T, L, L, 1, 1⟩ hg h3 hq x z h).1
      rw [x1, x3, best] at this
      exact this

/-- **C138** the same of the plates of the library: with enough terms, the first multiplier of the square plate with `PINNED` edges
and the laminate of the notebook is as close to that load as wished, and every other laminate has a multiplier not above it by more. -/
theorem C138_plate (U : Invariants) (T L : ℝ) (hT : 0 < T) (hL : 0 < L) (h3 : 0 < U.U3) (hd : 0 ≤ U.U1 - U.U3)
    (hH : 0 ≤ U.U1 + U.U4 + 2 * U.U5 + 2 * U.U3) (e : ℝ) (he : 0 < e) :
    ((lpStiffness (T ^ 3 / 12) U ![0, 0, -1, 0]).PosDef → ∃ M : ℕ, ∀ m n, M ≤ m → M ≤ n → ∃ K KG : SqMat (m * n),
      calcKKGD exactReaders (.ok (lpStiffness (T ^ 3 / 12) U ![0, 0, -1, 0])) (.str wPINNED) ⟨L, L, -1, 0, 0, m, n⟩ = .ok (K, KG) ∧
      ∃ lam0, PosMult K KG lam0 ∧ (∀ lam, PosMult K KG lam → lam0 ≤ lam) ∧ squareBest U T L ≤ lam0 ∧ lam0 ≤ squareBest U T L + e) ∧
    ∀ x z, 0 ≤ nbG1 x z → (lpStiffness (T ^ 3 / 12) U ![x, 0, z, 0]).PosDef → ∃ M : ℕ, ∀ m n, M ≤ m → M ≤ n → ∀ K KG : SqMat (m * n),
      calcKKGD exactReaders (.ok (lpStiffness (T ^ 3 / 12) U ![x, 0, z, 0])) (.str wPINNED) ⟨L, L, -1, 0, 0, m, n⟩ = .ok (K, KG) →
      ∃ lam ≤ squareBest U T L + e, PosMult K KG lam := by
  obtain ⟨-, -, hl, hx⟩ := C138_square U T L hT hL h3 hd hH
  simp only [← (C138_stiffness U T _).1]
  constructor
  · intro hD
    exact C99_converges _ hD (by simp [nbD, nbGamma0, nbGamma1, nbGamma2, nbGamma3, nbGamma4])
      (by simp [nbD, nbGamma0, nbGamma1, nbGamma2, nbGamma3, nbGamma4]) L L (-1) 0 hL hL _ hl.isGLB e he
  · intro x z hg hD
    obtain ⟨t, ⟨i, j, hi, hj, hload, rfl⟩, ht⟩ := hx x z hg
    obtain ⟨M, hM⟩ := C99_upper _ hD L L (-1) 0 0 hL hL i j hi hj hload e he
    refine ⟨M, fun m n hm hn K KG hK => ?_⟩
    obtain ⟨lam, hle, hp⟩ := hM m n hm hn K KG hK
    exact ⟨lam, by linarith, hp⟩

/-! ## The numbers stored -/

/-- The stiffness of the material of cell 31, exactly. -/
noncomputable def nbQ : M3 := !![120000000 / 1979, 4200000 / 1979, 0; 4200000 / 1979, 14000000 / 1979, 0; 0, 0, 400]

theorem nbMat_Q0 : nbMat.Q0 = .ok nbQ := by
  rw [OrthoMat.Q0_of_ne nbMat (by norm_num [nbMat, OrthoMat.v21])]
  norm_num [nbMat, OrthoMat.v21, nbQ]

theorem nbQ_22 : nbQ 2 2 = 400 := rfl

theorem nbQ_00 : nbQ 0 0 = 120000000 / 1979 := rfl

theorem nbQ_01 : nbQ 0 1 = 4200000 / 1979 := rfl

theorem nbQ_11 : nbQ 1 1 = 14000000 / 1979 := rfl

/-- **C138** the numbers stored in cells 32, 37, 40 and 42, to all digits shown, and the plate they belong to is one for which case 2
is not empty. -/
theorem C138_printed :
    (∃ Q, nbMat.Q0 = .ok Q ∧ |Q 0 0 - 60636.68519454| ≤ 5e-9 ∧ |Q 0 1 - 2122.28398181| ≤ 5e-9 ∧ |Q 1 1 - 7074.27993936| ≤ 5e-9 ∧
      Q 1 0 = Q 0 1 ∧ Q 2 2 = 400 ∧ Q 0 2 = 0 ∧ Q 1 2 = 0 ∧ Q 2 0 = 0 ∧ Q 2 1 = 0 ∧
      (∃ c d : ℝ, |c - 8707.394306889| ≤ 5e-10 ∧ |d - 2577.766548762| ≤ 5e-10 ∧
        ∀ x z, nbNxcr (nbUval Q) nbVal ![x, 0, z, 0] = 2.5e-5 * π ^ 2 * (c - d * z)) ∧
      nbXi1Opt (nbUval Q) nbVal = 0 ∧ nbXi3Opt (nbUval Q) nbVal = -1 ∧ ∃ x z v w, nbCase (nbUval Q) nbVal 1 x z v w) := by
  have hgood : NbGood nbVal := by norm_num [NbGood, nbVal]
  refine ⟨nbQ, nbMat_Q0, ?_, ?_, ?_, rfl, rfl, rfl, rfl, rfl, rfl, ⟨1 / 12 * (2 * (nbUval nbQ).U1 + 2 * (nbUval nbQ).U4 + 4 * (nbUval nbQ).U5),
    (nbUval nbQ).U3 / 3, ?_, ?_, fun x z => ?_⟩, ?_, ?_, ?_⟩
  · rw [abs_le]; constructor <;> norm_num [nbQ_00, nbQ_01, nbQ_11, nbQ_22]
  · rw [abs_le]; constructor <;> norm_num [nbQ_00, nbQ_01, nbQ_11, nbQ_22]
  · rw [abs_le]; constructor <;> norm_num [nbQ_00, nbQ_01, nbQ_11, nbQ_22]
  · rw [abs_le]; constructor <;> norm_num [nbQ_00, nbQ_01, nbQ_11, nbQ_22, nbUval]
  · rw [abs_le]; constructor <;> norm_num [nbQ_00, nbQ_01, nbQ_11, nbQ_22, nbUval]
  · simp [nbNxcr, nbNxcrOf, nbD, nbVal, nbGamma0, nbGamma1, nbGamma2, nbGamma3, nbGamma4]
    ring
  · rw [nb_xi1]
    simp [nbVal]
  · have hq : nbTwist nbVal ≠ 0 := by norm_num [nbTwist, nbVal]
    have h3 : (nbUval nbQ).U3 ≠ 0 := by norm_num [nbQ_00, nbQ_01, nbQ_11, nbQ_22, nbUval]
    rw [nb_xi3 _ _ h3 hq, nb_xi1]
    simp [nbVal]
  · have h2 : (nbUval nbQ).U2 ≠ 0 := by norm_num [nbQ_00, nbQ_01, nbQ_11, nbQ_22, nbUval]
    exact ⟨0, 1, 0, _, ((C138_case2 (nbUval nbQ) nbVal hgood h2).2 (by norm_num [nbVal]) 0 1 0 _).mpr ⟨rfl, rfl⟩⟩

/-- Non-vacuity for C138: the material and plate of the notebook meet all hypotheses above. -/
example : NbGood nbVal ∧ (nbUval nbQ).U2 ≠ 0 ∧ 0 < (nbUval nbQ).U3 ∧ nbTwist nbVal < 0 ∧ 0 ≤ (nbUval nbQ).U1 - (nbUval nbQ).U3 ∧
    0 ≤ (nbUval nbQ).U1 + (nbUval nbQ).U4 + 2 * (nbUval nbQ).U5 + 2 * (nbUval nbQ).U3 := by
  norm_num [NbGood, nbVal, nbUval, nbQ_00, nbQ_01, nbQ_11, nbQ_22, nbTwist]

/-- Non-vacuity for C138: a plate twice as long as wide, one half wave, where `xi3` lowers the load but the point of case 3 has
`|xi1| > 1`, so that the maximum is in case 1. -/
example : nbTwist ⟨1, 400, 200, 1, 1⟩ < 0 ∧ 1 < |nbXi1Opt (nbUval nbQ) ⟨1, 400, 200, 1, 1⟩| := by
  rw [nb_xi1, lt_abs]
  norm_num [nbTwist, nbUval, nbQ_00, nbQ_01, nbQ_11, nbQ_22]

end Composipy
