import Verif.Lemmas.PlateCert
import Verif.Props.RoundedPlate

/-!
# Certificates for the bounds that the rounding analysis needs

A lower bound for the energy, from the certificates of C118, and sums of the sizes of the terms in a row.
-/

namespace Composipy
open Spec Matrix

/-- A checked certificate with nothing left out bounds the energy from below. -/
theorem IntPlate.energy_low {I : IntPlate} {den : ℕ} {c : Coef9} {C : Cert} (h0 : I.lowOk 0 den c C 0 = true) {kap : ℕ}
    (hk : Nat.ble (I.xs.length * I.ys.length * 2 ^ (C.q - 1) + kap + 1) C.sh = true) (x : Fin (I.xs.length * I.ys.length) → ℝ) :
    (kap : ℝ) * (x ⬝ᵥ x) ≤ x ⬝ᵥ I.K.mulVec x * (den * (nineDen * nineDen)) := by
  by_cases hx : x = 0
  · subst hx; simp
  simp only [IntPlate.lowOk, Bool.and_eq_true, Nat.ble_eq] at h0 hk
  obtain ⟨⟨⟨hI, hc⟩, hC⟩, h4⟩ := h0
  have hu : C.ucols = [] := List.eq_nil_of_length_eq_zero (by omega)
  have hen := I.energy hI hc x
  rw [Rat.cast_zero, zero_mul, add_zero] at hen
  rw [hen]
  obtain ⟨-, h2⟩ := cert_entries hC
  let f : ℕ × ℕ → Fin (I.xs.length * I.ys.length) → ℝ := fun p i => (colEnt (2 ^ C.u) (2 ^ (C.u - 1)) p i : ℝ)
  have hdot : ∀ (l : List (ℕ × ℕ)) (i j : Fin (I.xs.length * I.ys.length)),
      ((colDot (2 ^ C.u) (2 ^ (C.u - 1)) l i j : ℤ) : ℝ) = ((l.map f).map fun c => c i * c j).sum := fun l i j => by
    induction l with
    | nil => simp [colDot]
    | cons p l ih =>
      have e : colDot (2 ^ C.u) (2 ^ (C.u - 1)) (p :: l) i j
          = colEnt (2 ^ C.u) (2 ^ (C.u - 1)) p i * colEnt (2 ^ C.u) (2 ^ (C.u - 1)) p j + colDot (2 ^ C.u) (2 ^ (C.u - 1)) l i j := by simp [colDot]
      rw [e, List.map_cons, List.map_cons, List.sum_cons, ← ih]
      push_cast
      rfl
  have hshR : ((I.xs.length * I.ys.length : ℕ) : ℝ) * 2 ^ (C.q - 1) + kap + 1 ≤ C.sh := by exact_mod_cast hk
  have hq := quad_pos (fun i j => (entZ c (I.at i) (I.at j) : ℝ) - if j = i then (kap : ℝ) else 0) (C.cols.map f) [] (s := C.s) (t := 0)
    (sh := (C.sh : ℝ) - kap) (e := (2 : ℝ) ^ (C.q - 1)) (Nat.cast_nonneg _) (by linarith) (fun i j => by
      rw [← hdot]
      have h3 := h2 i i.2 j j.2
      rw [hu, show colDot (2 ^ C.u) (2 ^ (C.u - 1)) [] i j = 0 by simp [colDot], mul_zero, add_zero] at h3
      have h4 : ((|entZ c (I.at i) (I.at j) - (if (j : ℕ) = i then (C.sh : ℤ) else 0) - C.s * colDot (2 ^ C.u) (2 ^ (C.u - 1)) C.cols i j| : ℤ) : ℝ)
          ≤ ((2 ^ (C.q - 1) : ℤ) : ℝ) := Int.cast_le.mpr h3
      push_cast at h4
      refine le_trans (le_of_eq ?_) h4
      simp only [Fin.ext_iff]
      congr 1
      split_ifs <;> ring) x hx (by simp)
  have e : ∑ i, ∑ j, x i * x j * ((entZ c (I.at i) (I.at j) : ℝ) - if j = i then (kap : ℝ) else 0)
      = ∑ i, ∑ j, x i * x j * (entZ c (I.at i) (I.at j) : ℝ) - kap * (x ⬝ᵥ x) := by
    rw [dotProduct, Finset.mul_sum, ← Finset.sum_sub_distrib]
    refine Finset.sum_congr rfl fun i _ => ?_
    simp only [mul_sub, Finset.sum_sub_distrib, mul_ite, mul_zero, Finset.sum_ite_eq', Finset.mem_univ, if_true]
    ring
  rw [e] at hq
  linarith

/-! ## Sizes of the terms -/

/-- The sizes of the nine integrals. -/
def nineAbs (i k : ℕ) : List ℤ := (nine i k).map fun x => (x.natAbs : ℤ)

/-- Sum of the sizes of the terms of an entry. -/
def entAbs (c : Coef9) (r q : ℕ × ℕ) : ℤ := dotZ (mix c (nineAbs r.1 q.1)) (nineAbs r.2 q.2)

/-- The sizes of the terms as integers over a common denominator. -/
theorem entAbs_eq (c : Coef9) (a b : ℝ) (D : Matrix (Fin 3) (Fin 3) ℝ) (Nxx Nyy Nxy den : ℝ)
    (h1 : 4 * (b / a ^ 3) * D 0 0 * den = c.c1) (h2 : 4 / (a * b) * D 1 0 * den = c.c2) (h3 : 4 * (a / b ^ 3) * D 1 1 * den = c.c3)
    (h4 : 8 / a ^ 2 * D 2 0 * den = c.c4) (h5 : 8 / b ^ 2 * D 2 1 * den = c.c5) (h6 : 16 / (a * b) * D 2 2 * den = c.c6)
    (h7 : Nxx * (b / a) * den = c.g1) (h8 : Nyy * (a / b) * den = c.g2) (h9 : Nxy * den = c.g3)
    {r q : ℕ × ℕ} (hr : r.1 < 14 ∧ r.2 < 14) (hq : q.1 < 14 ∧ q.2 < 14) :
    (k33v (RTables.sizes shippedV) a b D r q + g33v (RTables.sizes shippedV) a b Nxx Nyy Nxy r q) * (den * (nineDen * nineDen)) = entAbs c r q := by
  obtain ⟨ff, xf, fx, xx, Xf, fX, Xx, xX, XX, e, e1, e2, e3, e4, e5, e6, e7, e8, e9⟩ := shippedV_nine hr.1 hq.1
  obtain ⟨ff', xf', fx', xx', Xf', fX', Xx', xX', XX', e', e1', e2', e3', e4', e5', e6', e7', e8', e9'⟩ := shippedV_nine hr.2 hq.2
  have hab : ∀ x : ℤ, |(x : ℝ) / nineDen| = ((x.natAbs : ℤ) : ℝ) / nineDen := fun x => by
    rw [abs_div, abs_of_pos nineDen_pos, Int.natCast_natAbs, Int.cast_abs]
  rw [entAbs, nineAbs, nineAbs, e, e', k33v, g33v]
  simp only [RTables.sizes]
  rw [e1, e2, e3, e4, e5, e6, e7, e8, e9, e1', e2', e3', e4', e5', e6', e7', e8', e9']
  simp only [hab, List.map, mix, dotZ]
  push_cast
  rw [← h1, ← h2, ← h3, ← h4, ← h5, ← h6, ← h7, ← h8, ← h9]
  generalize 4 * (b / a ^ 3) * D 0 0 = k1
  generalize 4 / (a * b) * D 1 0 = k2
  generalize 4 * (a / b ^ 3) * D 1 1 = k3
  generalize 8 / a ^ 2 * D 2 0 = k4
  generalize 8 / b ^ 2 * D 2 1 = k5
  generalize 16 / (a * b) * D 2 2 = k6
  generalize Nxx * (b / a) = k7
  generalize Nyy * (a / b) = k8
  have hn := nineDen_pos.ne'
  generalize (nineDen : ℝ) = s at *
  field_simp
  ring

/-- Check that the sum of the sizes in every row is at most `m`. -/
def rowsOk (c : Coef9) (xs ys : List ℕ) (m : ℕ) : Bool :=
  (List.range (xs.length * ys.length)).all fun i => decide (
    (List.range (xs.length * ys.length)).foldr (fun j r => entAbs c (xs.getD (i / ys.length) 0, ys.getD (i % ys.length) 0)
      (xs.getD (j / ys.length) 0, ys.getD (j % ys.length) 0) + r) 0 ≤ m)

theorem IntPlate.rows {I : IntPlate} (hI : I.small = true) {Dq : Matrix (Fin 3) (Fin 3) ℚ} {x y t : ℚ} {den : ℕ} {c : Coef9}
    (hc : coefOk Dq I.a I.b x y t 1 den c = true) {m : ℕ} (hm : rowsOk c I.xs I.ys m = true) (r : Fin (I.xs.length * I.ys.length)) :
    ∑ q, (kMat (RTables.sizes shippedV) I.a I.b (Dq.map (↑)) (I.xs.product I.ys) (I.xs.length * I.ys.length) r q
      + gMat (RTables.sizes shippedV) I.a I.b x y t (I.xs.product I.ys) (I.xs.length * I.ys.length) r q) * (den * (nineDen * nineDen)) ≤ m := by
  simp only [coefOk, Bool.and_eq_true, decide_eq_true_eq] at hc
  obtain ⟨⟨⟨⟨⟨⟨⟨⟨⟨h1, h2⟩, h3⟩, h4⟩, h5⟩, h6⟩, h7⟩, h8⟩, h9⟩, -⟩ := hc
  rw [IntPlate.small, Bool.and_eq_true] at hI
  have hs : ∀ i, (I.at i).1 < 14 ∧ (I.at i).2 < 14 := fun i => ⟨small_getD hI.1 _, small_getD hI.2 _⟩
  have e : ∀ i : Fin (I.xs.length * I.ys.length), (I.xs.product I.ys).getD i (0, 0) = I.at i := fun i => product_getD _ _ _ i.2
  rw [one_mul] at h7 h8 h9
  have hent : ∀ q : Fin (I.xs.length * I.ys.length), (kMat (RTables.sizes shippedV) I.a I.b (Dq.map (↑)) (I.xs.product I.ys) (I.xs.length * I.ys.length) r q
      + gMat (RTables.sizes shippedV) I.a I.b x y t (I.xs.product I.ys) (I.xs.length * I.ys.length) r q) * (den * (nineDen * nineDen))
      = entAbs c (I.at r) (I.at q) := fun q => by
    rw [kMat, gMat, of_apply, of_apply, e, e]
    refine entAbs_eq c I.a I.b _ x y t den ?_ ?_ ?_ ?_ ?_ ?_ ?_ ?_ ?_ (hs r) (hs q)
    all_goals try simp only [map_apply]
    · exact_mod_cast h1
    · exact_mod_cast h2
    · exact_mod_cast h3
    · exact_mod_cast h4
    · exact_mod_cast h5
    · exact_mod_cast h6
    · exact_mod_cast h7
    · exact_mod_cast h8
    · exact_mod_cast h9
  simp only [hent]
  simp only [rowsOk, List.all_eq_true, List.mem_range, decide_eq_true_eq] at hm
  have h := hm r r.2
  rw [foldr_range, add_zero, Finset.sum_range] at h
  have h' : ((∑ q : Fin (I.xs.length * I.ys.length), entAbs c (I.at r) (I.at q) : ℤ) : ℝ) ≤ (m : ℤ) := Int.cast_le.mpr h
  push_cast at h'
  exact h'

end Composipy
