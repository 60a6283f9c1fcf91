import Verif.Lemmas.NineCheck
import Verif.Lemmas.Ritz
import Verif.Props.Modes
import Verif.Props.ExactStacks
import Verif.Props.Ordered

/-!
# Certificates for the buckling multipliers of a plate
-/

namespace Composipy
open Spec Matrix Module

/-! ## A space of vectors with negative energy -/

/-- The matrix times a packed vector, packed. -/
def vecRow (c : Coef9) (k u : ℕ) (xs ys : List ℕ) (x : ℕ) : ℤ :=
  (List.range xs.length).foldr (fun a r => (List.range ys.length).foldr (fun b r' =>
    Int.subNatNat (dig (2 ^ u) x (a * ys.length + b)) (2 ^ (u - 1)) * rowZ c k xs ys (xs.getD a 0) (ys.getD b 0) + r') 0 + r) 0

/-- Inner product of two packed vectors. -/
def gramZ (k u N V x : ℕ) : ℤ :=
  (List.range N).foldr (fun j r => Int.subNatNat (dig (2 ^ k) V j) (2 ^ (k - 1)) * Int.subNatNat (dig (2 ^ u) x j) (2 ^ (u - 1)) + r) 0

/-- Check that the form is negative on the span of the vectors. -/
def gramOk (c : Coef9) (k u g : ℕ) (xs ys vs : List ℕ) : Bool :=
  Nat.ble 1 k && Nat.ble (2 * (xs.length * ys.length * (2 ^ u * c.bound)) + 1) (2 ^ k) && (List.range vs.length).all fun p =>
    match vecRow c k u xs ys (vs.getD p 0) + (2 ^ (k - 1) * repN (2 ^ k) (xs.length * ys.length) : ℕ) with
    | .ofNat V => Nat.ble (V + 1) ((2 ^ k) ^ (xs.length * ys.length)) && (List.range vs.length).all fun q =>
        bif Nat.beq p q then decide (gramZ k u (xs.length * ys.length) V (vs.getD q 0) + vs.length * g < 0)
        else decide (gramZ k u (xs.length * ys.length) V (vs.getD q 0) ≤ g) && decide (-(g : ℤ) ≤ gramZ k u (xs.length * ys.length) V (vs.getD q 0))
    | .negSucc _ => false

theorem foldr_range (n : ℕ) (f : ℕ → ℤ) (r : ℤ) : (List.range n).foldr (fun b r' => f b + r') r = ∑ b ∈ Finset.range n, f b + r := by
  induction n generalizing r with
  | zero => simp
  | succ n ih => rw [List.range_succ, List.foldr_append, ih, Finset.sum_range_succ]; simp only [List.foldr]; ring

theorem sum_block (m n : ℕ) (f : ℕ → ℕ → ℤ) :
    ∑ a ∈ Finset.range m, ∑ b ∈ Finset.range n, f a b = ∑ j ∈ Finset.range (m * n), f (j / n) (j % n) := by
  have := packF_block 1 m n f
  simpa [packF] using this

theorem vecRow_eq (c : Coef9) (k u : ℕ) (xs ys : List ℕ) (x : ℕ) :
    vecRow c k u xs ys x = packF ((2 ^ k : ℕ) : ℤ) (xs.length * ys.length) (fun j => ∑ i ∈ Finset.range (xs.length * ys.length),
      colEnt (2 ^ u) (2 ^ (u - 1)) (0, x) i *
        entZ c (xs.getD (i / ys.length) 0, ys.getD (i % ys.length) 0) (xs.getD (j / ys.length) 0, ys.getD (j % ys.length) 0)) := by
  rw [packF_sum, vecRow]
  simp only [foldr_range, add_zero]
  have h := sum_block xs.length ys.length (fun a b =>
    Int.subNatNat (dig (2 ^ u) x (a * ys.length + b)) (2 ^ (u - 1)) * rowZ c k xs ys (xs.getD a 0) (ys.getD b 0))
  rw [h]
  refine Finset.sum_congr rfl fun i _ => ?_
  rw [packF_mul, Nat.div_add_mod', rowZ_eq, colEnt, if_pos (Nat.zero_le _), Int.subNatNat_eq_coe]
  push_cast
  rfl

/-- The value of the form at two packed vectors. -/
theorem gramZ_eq {c : Coef9} {k u V : ℕ} {xs ys : List ℕ} {x : ℕ} (y : ℕ) (hk : 1 ≤ k)
    (hB : 2 * (xs.length * ys.length * (2 ^ u * c.bound)) + 1 ≤ 2 ^ k)
    (hV : vecRow c k u xs ys x + (2 ^ (k - 1) * repN (2 ^ k) (xs.length * ys.length) : ℕ) = Int.ofNat V) (hlt : V + 1 ≤ (2 ^ k) ^ (xs.length * ys.length)) :
    gramZ k u (xs.length * ys.length) V y = ∑ j ∈ Finset.range (xs.length * ys.length), (∑ i ∈ Finset.range (xs.length * ys.length),
      colEnt (2 ^ u) (2 ^ (u - 1)) (0, x) i *
        entZ c (xs.getD (i / ys.length) 0, ys.getD (i % ys.length) 0) (xs.getD (j / ys.length) 0, ys.getD (j % ys.length) 0)) *
      colEnt (2 ^ u) (2 ^ (u - 1)) (0, y) j := by
  set N := xs.length * ys.length with hN
  set B : ℕ := 2 ^ k with hBdef
  set b : ℕ := 2 ^ u with hb
  set M : ℕ := 2 ^ (u - 1) with hM
  set H : ℕ := 2 ^ (k - 1) with hH
  have hB2 : B = 2 * H := by
    rw [hBdef, hH, ← pow_succ']
    congr 1
    omega
  have hbpos : 0 < b := by positivity
  have hMb : M ≤ b := Nat.pow_le_pow_right (by norm_num) (by omega)
  let w : ℕ → ℤ := fun j => ∑ i ∈ Finset.range N, colEnt b M (0, x) i *
    entZ c (xs.getD (i / ys.length) 0, ys.getD (i % ys.length) 0) (xs.getD (j / ys.length) 0, ys.getD (j % ys.length) 0)
  have hw : ∀ j, 2 * |w j| < (B : ℤ) := fun j => by
    have h1 : |w j| ≤ ∑ i ∈ Finset.range N, ((b : ℤ) * c.bound) := by
      refine (Finset.abs_sum_le_sum_abs _ _).trans (Finset.sum_le_sum fun i _ => ?_)
      rw [abs_mul]
      exact mul_le_mul (colEnt_bound hbpos hMb _ i) (entZ_bound c _ _) (abs_nonneg _) (by positivity)
    rw [Finset.sum_const, Finset.card_range, nsmul_eq_mul] at h1
    have h2 : 2 * ((N : ℤ) * (b * c.bound)) + 1 ≤ B := by exact_mod_cast hB
    linarith
  have hv : vecRow c k u xs ys x + (H * repN B N : ℕ) = packF B N (fun j => w j + H) := by
    rw [vecRow_eq, packF_add, show packF (B : ℤ) N (fun _ => (H : ℤ)) = H * repN B N by rw [repN_eq, ← packF_mul]; simp]
    push_cast
    rfl
  rw [hv] at hV
  have hdig : ∀ j < N, w j + H = (dig B V j : ℤ) := by
    refine packF_inj (B := (B : ℤ)) (fun j hj => ?_) ?_
    · have h1 : dig B V j < B := Nat.mod_lt _ (by positivity)
      have h2 : (dig B V j : ℤ) < B := by exact_mod_cast h1
      have h3 : (0 : ℤ) ≤ dig B V j := Nat.cast_nonneg _
      have h4 := hw j
      have h5 : (B : ℤ) = 2 * H := by exact_mod_cast hB2
      have h6 := abs_lt.mp (show |w j| < (H : ℤ) by linarith)
      rw [abs_lt]
      constructor <;> linarith
    · rw [← spread_eq, spread_self (Nat.lt_of_succ_le hlt), hV]
      rfl
  rw [gramZ, foldr_range, add_zero]
  refine Finset.sum_congr rfl fun j hj => ?_
  rw [Int.subNatNat_eq_coe, Int.subNatNat_eq_coe]
  have e1 := hdig j (Finset.mem_range.mp hj)
  have e2 : colEnt b M (0, y) j = (dig b y j : ℤ) - M := by
    rw [colEnt, if_pos (Nat.zero_le _)]; rfl
  rw [← hBdef, ← hb, ← hH, ← hM, ← e1, e2, add_sub_cancel_right]

/-- What a checked space says about the matrix of the form on it. -/
theorem gram_entries {c : Coef9} {k u g : ℕ} {xs ys vs : List ℕ} (h : gramOk c k u g xs ys vs = true) (p q : ℕ) (hp : p < vs.length)
    (hq : q < vs.length) :
    let G : ℤ := ∑ j ∈ Finset.range (xs.length * ys.length), (∑ i ∈ Finset.range (xs.length * ys.length),
      colEnt (2 ^ u) (2 ^ (u - 1)) (0, vs.getD p 0) i *
        entZ c (xs.getD (i / ys.length) 0, ys.getD (i % ys.length) 0) (xs.getD (j / ys.length) 0, ys.getD (j % ys.length) 0)) *
      colEnt (2 ^ u) (2 ^ (u - 1)) (0, vs.getD q 0) j
    (p = q → G + vs.length * g < 0) ∧ (p ≠ q → |G| ≤ g) := by
  intro G
  simp only [gramOk, Bool.and_eq_true, Nat.ble_eq, List.all_eq_true, List.mem_range] at h
  obtain ⟨⟨hk, hB⟩, hall⟩ := h
  have hr := hall p hp
  split at hr
  · rename_i V hV
    simp only [Bool.and_eq_true, Nat.ble_eq, List.all_eq_true, List.mem_range] at hr
    obtain ⟨hlt, hrq⟩ := hr
    have hq' := hrq q hq
    rw [gramZ_eq _ hk hB hV hlt] at hq'
    constructor
    · rintro rfl
      rw [Nat.beq_refl, cond_true] at hq'
      exact of_decide_eq_true hq'
    · intro hne
      rw [show Nat.beq p q = false from Bool.eq_false_iff.mpr fun h' => hne (Nat.eq_of_beq_eq_true h'), cond_false, Bool.and_eq_true] at hq'
      have h1 := of_decide_eq_true hq'.1
      have h2 := of_decide_eq_true hq'.2
      exact abs_le.mpr ⟨h2, h1⟩
  · cases hr

/-- A matrix with a negative diagonal that outweighs the other entries. -/
theorem quad_neg {k : ℕ} (G : Fin k → Fin k → ℝ) {g : ℝ} (hg : 0 ≤ g) (hd : ∀ p, G p p + k * g < 0) (ho : ∀ p q, p ≠ q → |G p q| ≤ g) (x : Fin k → ℝ)
    (hx : x ≠ 0) : ∑ p, ∑ q, x p * x q * G p q < 0 := by
  have h1 : ∀ p q, x p * x q * G p q ≤ (if q = p then x p ^ 2 * G p p else 0) + g * ((x p ^ 2 + x q ^ 2) / 2) := fun p q => by
    split_ifs with h
    · subst h
      nlinarith [mul_nonneg hg (sq_nonneg (x q))]
    · have h3 : |x p * x q * G p q| ≤ (x p ^ 2 + x q ^ 2) / 2 * g := by
        rw [abs_mul]
        refine mul_le_mul ?_ (ho p q fun e => h e.symm) (abs_nonneg _) (by positivity)
        rw [abs_le]
        constructor <;> nlinarith [sq_nonneg (x p - x q), sq_nonneg (x p + x q)]
      have := (abs_le.mp h3).2
      linarith
  have h2 : ∑ p, ∑ q, ((if q = p then x p ^ 2 * G p p else 0) + g * ((x p ^ 2 + x q ^ 2) / 2)) = ∑ p, x p ^ 2 * (G p p + k * g) := by
    simp only [Finset.sum_add_distrib, Finset.sum_ite_eq', Finset.mem_univ, if_true, ← Finset.mul_sum, ← Finset.sum_div, Finset.sum_const,
      Finset.card_univ, Fintype.card_fin, nsmul_eq_mul, mul_add]
    rw [← Finset.sum_mul]
    ring
  refine (Finset.sum_le_sum fun p _ => Finset.sum_le_sum fun q _ => h1 p q).trans_lt ?_
  rw [h2]
  obtain ⟨p0, hp0⟩ : ∃ p, x p ≠ 0 := by
    by_contra hno
    push Not at hno
    exact hx (funext hno)
  refine Finset.sum_neg' (fun p _ => mul_nonpos_of_nonneg_of_nonpos (sq_nonneg _) (hd p).le) ⟨p0, Finset.mem_univ _, ?_⟩
  exact mul_neg_of_pos_of_neg (by positivity) (hd p0)

/-! ## The matrices of a plate -/

theorem product_getD (xs ys : List ℕ) (i : ℕ) (hi : i < xs.length * ys.length) :
    (xs.product ys).getD i (0, 0) = (xs.getD (i / ys.length) 0, ys.getD (i % ys.length) 0) := by
  induction xs generalizing i with
  | nil => simp at hi
  | cons a xs ih =>
    have hn : 0 < ys.length := Nat.pos_of_ne_zero fun h => by rw [h] at hi; simp at hi
    have e : (a :: xs).product ys = ys.map (fun b => (a, b)) ++ xs.product ys := rfl
    rw [e]
    rcases lt_or_ge i ys.length with h | h
    · rw [List.getD_append _ _ _ _ (by simpa using h), Nat.div_eq_of_lt h, Nat.mod_eq_of_lt h]
      simp [List.getD, h]
    · rw [List.getD_append_right _ _ _ _ (by simpa using h), List.length_map, ih _ (by simp only [List.length_cons, add_mul, one_mul] at hi; omega)]
      obtain ⟨r, rfl⟩ := Nat.exists_eq_add_of_le h
      rw [Nat.add_sub_cancel_left, Nat.add_div_left _ hn, Nat.add_mod_left]
      simp [List.getD]

/-- The integer factors are those of the plate, over the denominator `den`, at the load factor `mu`. -/
def coefOk (D : Matrix (Fin 3) (Fin 3) ℚ) (a b Nxx Nyy Nxy mu : ℚ) (den : ℕ) (c : Coef9) : Bool :=
  decide (4 * (b / a ^ 3) * D 0 0 * den = c.c1) && decide (4 / (a * b) * D 1 0 * den = c.c2) &&
  decide (4 * (a / b ^ 3) * D 1 1 * den = c.c3) && decide (8 / a ^ 2 * D 2 0 * den = c.c4) &&
  decide (8 / b ^ 2 * D 2 1 * den = c.c5) && decide (16 / (a * b) * D 2 2 * den = c.c6) &&
  decide (mu * (Nxx * (b / a)) * den = c.g1) && decide (mu * (Nyy * (a / b)) * den = c.g2) && decide (mu * Nxy * den = c.g3) &&
  Nat.ble 1 den

/-- The plate: its stiffness, sides, loads and the indices of its shape functions. -/
structure IntPlate where
  Dq : Matrix (Fin 3) (Fin 3) ℚ
  a : ℚ
  b : ℚ
  Nxx : ℚ
  Nyy : ℚ
  Nxy : ℚ
  xs : List ℕ
  ys : List ℕ

/-- The stiffness of the plate. -/
noncomputable def IntPlate.D (I : IntPlate) : M3 := I.Dq.map (↑)

/-- The bending matrix. -/
noncomputable def IntPlate.K (I : IntPlate) : SqMat (I.xs.length * I.ys.length) := kMat shippedV I.a I.b I.D (I.xs.product I.ys) _

/-- The geometric matrix. -/
noncomputable def IntPlate.KG (I : IntPlate) : SqMat (I.xs.length * I.ys.length) :=
  gMat shippedV I.a I.b I.Nxx I.Nyy I.Nxy (I.xs.product I.ys) _

/-- The indices are below 14. -/
def IntPlate.small (I : IntPlate) : Bool := I.xs.all (Nat.ble · 13) && I.ys.all (Nat.ble · 13)

theorem small_getD {l : List ℕ} (h : l.all (Nat.ble · 13) = true) (i : ℕ) : l.getD i 0 < 14 := by
  rw [List.getD_eq_getElem?_getD]
  by_cases hi : i < l.length
  · rw [List.getElem?_eq_getElem hi, Option.getD_some]
    have := List.all_eq_true.mp h _ (List.getElem_mem hi)
    rw [Nat.ble_eq] at this
    omega
  · rw [List.getElem?_eq_none (by omega)]
    simp

/-- Shape functions of row `i`. -/
def IntPlate.at (I : IntPlate) (i : ℕ) : ℕ × ℕ := (I.xs.getD (i / I.ys.length) 0, I.ys.getD (i % I.ys.length) 0)

theorem IntPlate.entry {I : IntPlate} (hI : I.small = true) {mu : ℚ} {den : ℕ} {c : Coef9}
    (hc : coefOk I.Dq I.a I.b I.Nxx I.Nyy I.Nxy mu den c = true) (i j : Fin (I.xs.length * I.ys.length)) :
    (I.K i j + mu * I.KG i j) * (den * (nineDen * nineDen)) = entZ c (I.at i) (I.at j) := by
  simp only [coefOk, Bool.and_eq_true, decide_eq_true_eq] at hc
  obtain ⟨⟨⟨⟨⟨⟨⟨⟨⟨h1, h2⟩, h3⟩, h4⟩, h5⟩, h6⟩, h7⟩, h8⟩, h9⟩, -⟩ := hc
  rw [IntPlate.small, Bool.and_eq_true] at hI
  have hs : ∀ i, (I.at i).1 < 14 ∧ (I.at i).2 < 14 := fun i => ⟨small_getD hI.1 _, small_getD hI.2 _⟩
  have e : ∀ i : Fin (I.xs.length * I.ys.length), (I.xs.product I.ys).getD i (0, 0) = I.at i := fun i => product_getD _ _ _ i.2
  rw [IntPlate.K, IntPlate.KG, kMat, gMat, of_apply, of_apply, e, e]
  refine entZ_eq c I.a I.b I.D I.Nxx I.Nyy I.Nxy mu den ?_ ?_ ?_ ?_ ?_ ?_ ?_ ?_ ?_ (hs i) (hs j)
  all_goals try simp only [IntPlate.D, map_apply]
  · exact_mod_cast h1
  · exact_mod_cast h2
  · exact_mod_cast h3
  · exact_mod_cast h4
  · exact_mod_cast h5
  · exact_mod_cast h6
  · exact_mod_cast h7
  · exact_mod_cast h8
  · exact_mod_cast h9

theorem IntPlate.energy {I : IntPlate} (hI : I.small = true) {mu : ℚ} {den : ℕ} {c : Coef9}
    (hc : coefOk I.Dq I.a I.b I.Nxx I.Nyy I.Nxy mu den c = true) (x : Fin (I.xs.length * I.ys.length) → ℝ) :
    (x ⬝ᵥ I.K.mulVec x + mu * (x ⬝ᵥ I.KG.mulVec x)) * (den * (nineDen * nineDen)) = ∑ i, ∑ j, x i * x j * (entZ c (I.at i) (I.at j) : ℝ) := by
  simp only [dotProduct, mulVec, Finset.mul_sum, ← Finset.sum_add_distrib, Finset.sum_mul]
  refine Finset.sum_congr rfl fun i _ => Finset.sum_congr rfl fun j _ => ?_
  rw [← I.entry hI hc]
  ring

/-- Check of the value of the form at a packed vector. -/
def quadOk (c : Coef9) (k u : ℕ) (xs ys : List ℕ) (x : ℕ) (val : ℤ) : Bool :=
  Nat.ble 1 k && Nat.ble (2 * (xs.length * ys.length * (2 ^ u * c.bound)) + 1) (2 ^ k) &&
    match vecRow c k u xs ys x + (2 ^ (k - 1) * repN (2 ^ k) (xs.length * ys.length) : ℕ) with
    | .ofNat V => Nat.ble (V + 1) ((2 ^ k) ^ (xs.length * ys.length)) && decide (gramZ k u (xs.length * ys.length) V x = val)
    | .negSucc _ => false

/-- A packed vector. -/
noncomputable def unpackV (u x : ℕ) {N : ℕ} : Fin N → ℝ := fun i => (colEnt (2 ^ u) (2 ^ (u - 1)) (0, x) i : ℝ)

theorem IntPlate.quad {I : IntPlate} (hI : I.small = true) {mu : ℚ} {den : ℕ} {c : Coef9}
    (hc : coefOk I.Dq I.a I.b I.Nxx I.Nyy I.Nxy mu den c = true) {k u x : ℕ} {val : ℤ} (hq : quadOk c k u I.xs I.ys x val = true) :
    (unpackV u x ⬝ᵥ I.K.mulVec (unpackV u x) + mu * (unpackV u x ⬝ᵥ I.KG.mulVec (unpackV u x))) * (den * (nineDen * nineDen)) = val := by
  simp only [quadOk, Bool.and_eq_true, Nat.ble_eq] at hq
  obtain ⟨⟨hk, hB⟩, hr⟩ := hq
  split at hr
  · rename_i V hV
    simp only [Bool.and_eq_true, Nat.ble_eq, decide_eq_true_eq] at hr
    rw [I.energy hI hc, ← hr.2, gramZ_eq x hk hB hV hr.1, Finset.sum_range]
    push_cast
    rw [Finset.sum_comm]
    refine Finset.sum_congr rfl fun j _ => ?_
    rw [Finset.sum_range, Finset.sum_mul]
    refine Finset.sum_congr rfl fun i _ => ?_
    simp only [unpackV, IntPlate.at]
    ring
  · cases hr

theorem coefOk_pos {D : Matrix (Fin 3) (Fin 3) ℚ} {a b Nxx Nyy Nxy mu : ℚ} {den : ℕ} {c : Coef9} (hc : coefOk D a b Nxx Nyy Nxy mu den c = true) :
    (0 : ℝ) < den * (nineDen * nineDen) := by
  simp only [coefOk, Bool.and_eq_true, Nat.ble_eq] at hc
  have : (0 : ℝ) < den := by exact_mod_cast hc.2
  exact mul_pos this (mul_pos nineDen_pos nineDen_pos)

/-- A checked certificate: the energy is positive on the vectors orthogonal to the vectors left out. -/
theorem IntPlate.pos {I : IntPlate} (hI : I.small = true) {mu : ℚ} {den : ℕ} {c : Coef9}
    (hc : coefOk I.Dq I.a I.b I.Nxx I.Nyy I.Nxy mu den c = true) {C : Cert} (hC : certOk c C I.xs I.ys = true)
    (x : Fin (I.xs.length * I.ys.length) → ℝ) (hx : x ≠ 0)
    (hU : ∀ u ∈ C.ucols, ∑ i : Fin (I.xs.length * I.ys.length), x i * (colEnt (2 ^ C.u) (2 ^ (C.u - 1)) u i : ℝ) = 0) :
    0 < x ⬝ᵥ I.K.mulVec x + mu * (x ⬝ᵥ I.KG.mulVec x) := by
  have hden := coefOk_pos hc
  refine pos_of_mul_pos_left ?_ hden.le
  rw [I.energy hI hc]
  obtain ⟨h1, h2⟩ := cert_entries hC
  let f : ℕ × ℕ → Fin (I.xs.length * I.ys.length) → ℝ := fun p i => (colEnt (2 ^ C.u) (2 ^ (C.u - 1)) p i : ℝ)
  have hdot : ∀ (l : List (ℕ × ℕ)) (i j : Fin (I.xs.length * I.ys.length)),
      ((colDot (2 ^ C.u) (2 ^ (C.u - 1)) l i j : ℤ) : ℝ) = ((l.map f).map fun c => c i * c j).sum := fun l i j => by
    induction l with
    | nil => simp [colDot]
    | cons p l ih =>
      have e : colDot (2 ^ C.u) (2 ^ (C.u - 1)) (p :: l) i j
          = colEnt (2 ^ C.u) (2 ^ (C.u - 1)) p i * colEnt (2 ^ C.u) (2 ^ (C.u - 1)) p j + colDot (2 ^ C.u) (2 ^ (C.u - 1)) l i j := by simp [colDot]
      rw [e, List.map_cons, List.map_cons, List.sum_cons, ← ih]
      push_cast
      rfl
  refine quad_pos (fun i j => (entZ c (I.at i) (I.at j) : ℝ)) (C.cols.map f) (C.ucols.map f) (s := C.s) (t := C.t) (sh := C.sh)
    (e := (2 : ℝ) ^ (C.q - 1)) (Nat.cast_nonneg _) (by exact_mod_cast h1) (fun i j => ?_) x hx ?_
  · rw [← hdot, ← hdot]
    have h3 := h2 i i.2 j j.2
    have h4 : ((|entZ c (I.at i) (I.at j) - (if (j : ℕ) = i then (C.sh : ℤ) else 0) - C.s * colDot (2 ^ C.u) (2 ^ (C.u - 1)) C.cols i j
        + C.t * colDot (2 ^ C.u) (2 ^ (C.u - 1)) C.ucols i j| : ℤ) : ℝ) ≤ ((2 ^ (C.q - 1) : ℤ) : ℝ) := Int.cast_le.mpr h3
    simp only [Fin.ext_iff]
    push_cast at h4 ⊢
    exact h4
  · intro u hu
    obtain ⟨p, hp, rfl⟩ := List.mem_map.mp hu
    exact hU p hp

/-! ## Counting the multipliers -/

/-- At most as many modes as vectors left out. -/
theorem IntPlate.modes_le {I : IntPlate} (hI : I.small = true) (hK : I.K.PosDef) (hG : I.KG.IsSymm) {mu : ℚ} {den : ℕ} {c : Coef9}
    (hc : coefOk I.Dq I.a I.b I.Nxx I.Nyy I.Nxy mu den c = true) {C : Cert} (hC : certOk c C I.xs I.ys = true) :
    numModes I.K I.KG mu ≤ C.ucols.length := by
  by_contra hlt
  push Not at hlt
  let f : Fin C.ucols.length → (Fin (I.xs.length * I.ys.length) → ℝ) := fun p i => (colEnt (2 ^ C.u) (2 ^ (C.u - 1)) C.ucols[p] i : ℝ)
  let T : (Fin (I.xs.length * I.ys.length) → ℝ) →ₗ[ℝ] (Fin C.ucols.length → ℝ) := mulVecLin (Matrix.of f)
  let T' : modes I.K I.KG mu →ₗ[ℝ] (Fin C.ucols.length → ℝ) := T.comp (modes I.K I.KG mu).subtype
  have hker : T'.ker ≠ ⊥ := by
    refine LinearMap.ker_ne_bot_of_finrank_lt ?_
    rw [finrank_fin_fun]
    exact hlt
  obtain ⟨⟨v, hv⟩, hv0, hne⟩ := (Submodule.ne_bot_iff _).mp hker
  have hvne : v ≠ 0 := fun h => hne (by ext; simp [h])
  have h1 := modes_energy hK hG mu hv
  have h2 := I.pos hI hc hC v hvne fun u hu => by
    obtain ⟨p, hp, rfl⟩ := List.getElem_of_mem hu
    have h3 := congrFun (LinearMap.mem_ker.mp hv0) ⟨p, hp⟩
    have h4 : ∑ i, f ⟨p, hp⟩ i * v i = 0 := h3
    rw [← h4]
    exact Finset.sum_congr rfl fun i _ => mul_comm _ _
  linarith

/-- At least as many modes as vectors with negative energy. -/
theorem IntPlate.modes_ge {I : IntPlate} (hI : I.small = true) (hK : I.K.PosDef) (hG : I.KG.IsSymm) {mu : ℚ} (hmu : 0 < mu) {den : ℕ} {c : Coef9}
    (hc : coefOk I.Dq I.a I.b I.Nxx I.Nyy I.Nxy mu den c = true) {k u g : ℕ} {vs : List ℕ} (hg : gramOk c k u g I.xs I.ys vs = true) :
    vs.length ≤ numModes I.K I.KG mu := by
  let f : Fin vs.length → (Fin (I.xs.length * I.ys.length) → ℝ) := fun p i => (colEnt (2 ^ u) (2 ^ (u - 1)) (0, vs.getD p 0) i : ℝ)
  let T : (Fin vs.length → ℝ) →ₗ[ℝ] (Fin (I.xs.length * I.ys.length) → ℝ) := mulVecLin (Matrix.of f)ᵀ
  let G : Fin vs.length → Fin vs.length → ℝ := fun p q =>
    ∑ j : Fin (I.xs.length * I.ys.length), (∑ i : Fin (I.xs.length * I.ys.length), f p i * (entZ c (I.at i) (I.at j) : ℝ)) * f q j
  have hent : ∀ p q : Fin vs.length, (p = q → G p q + vs.length * (g : ℝ) < 0) ∧ (p ≠ q → |G p q| ≤ g) := fun p q => by
    obtain ⟨h1, h2⟩ := gram_entries hg p q p.2 q.2
    have e : G p q = ((∑ j ∈ Finset.range (I.xs.length * I.ys.length), (∑ i ∈ Finset.range (I.xs.length * I.ys.length),
        colEnt (2 ^ u) (2 ^ (u - 1)) (0, vs.getD p 0) i *
        entZ c (I.xs.getD (i / I.ys.length) 0, I.ys.getD (i % I.ys.length) 0) (I.xs.getD (j / I.ys.length) 0, I.ys.getD (j % I.ys.length) 0)) *
        colEnt (2 ^ u) (2 ^ (u - 1)) (0, vs.getD q 0) j : ℤ) : ℝ) := by
      push_cast
      rw [Finset.sum_range]
      refine Finset.sum_congr rfl fun j _ => ?_
      rw [Finset.sum_range]
      rfl
    rw [e]
    constructor
    · intro hpq
      exact_mod_cast h1 (by rw [hpq])
    · intro hpq
      exact_mod_cast h2 (fun h => hpq (Fin.ext h))
  have hneg : ∀ α : Fin vs.length → ℝ, α ≠ 0 → T α ⬝ᵥ I.K.mulVec (T α) + mu * (T α ⬝ᵥ I.KG.mulVec (T α)) < 0 := fun α hα => by
    have hden := coefOk_pos hc
    have h1 := quad_neg G (Nat.cast_nonneg g) (fun p => (hent p p).1 rfl) (fun p q h => (hent p q).2 h) α hα
    have h2 := I.energy hI hc (T α)
    have hT : ∀ i, T α i = ∑ p, f p i * α p := fun i => rfl
    have h3 : ∑ i, ∑ j, T α i * T α j * (entZ c (I.at i) (I.at j) : ℝ) = ∑ p, ∑ q, α p * α q * G p q := by
      simp only [hT, G, Finset.mul_sum, Finset.sum_mul]
      rw [Finset.sum_comm]
      calc _ = ∑ j, ∑ i, ∑ p, ∑ q, f q i * α q * (f p j * α p) * (entZ c (I.at i) (I.at j) : ℝ) := rfl
        _ = ∑ j, ∑ p, ∑ i, ∑ q, f q i * α q * (f p j * α p) * (entZ c (I.at i) (I.at j) : ℝ) :=
            Finset.sum_congr rfl fun j _ => Finset.sum_comm
        _ = ∑ j, ∑ p, ∑ q, ∑ i, f q i * α q * (f p j * α p) * (entZ c (I.at i) (I.at j) : ℝ) :=
            Finset.sum_congr rfl fun j _ => Finset.sum_congr rfl fun p _ => Finset.sum_comm
        _ = ∑ p, ∑ j, ∑ q, ∑ i, f q i * α q * (f p j * α p) * (entZ c (I.at i) (I.at j) : ℝ) := Finset.sum_comm
        _ = ∑ p, ∑ q, ∑ j, ∑ i, f q i * α q * (f p j * α p) * (entZ c (I.at i) (I.at j) : ℝ) :=
            Finset.sum_congr rfl fun p _ => Finset.sum_comm
        _ = ∑ q, ∑ p, ∑ j, ∑ i, f q i * α q * (f p j * α p) * (entZ c (I.at i) (I.at j) : ℝ) := Finset.sum_comm
        _ = _ := Finset.sum_congr rfl fun q _ => Finset.sum_congr rfl fun p _ => Finset.sum_congr rfl fun j _ =>
            Finset.sum_congr rfl fun i _ => by ring
    rw [h3] at h2
    by_contra hge
    push Not at hge
    have := mul_nonneg hge hden.le
    linarith
  have hinj : Function.Injective T := by
    rw [← LinearMap.ker_eq_bot, LinearMap.ker_eq_bot']
    intro α h0
    by_contra hα
    have := hneg α hα
    rw [h0] at this
    simp at this
  have h1 := numModes_ge hK hG (c := (mu : ℝ)) (by exact_mod_cast hmu) (LinearMap.range T) (by
    rintro v ⟨α, rfl⟩
    by_cases hα : α = 0
    · rw [hα, map_zero]; simp
    · exact (hneg α hα).le)
  rwa [LinearMap.finrank_range_of_inj hinj, finrank_fin_fun] at h1

theorem IntPlate.posDef {I : IntPlate} (hI : I.small = true) (hs : I.K.IsSymm) {den : ℕ} {c : Coef9}
    (hc : coefOk I.Dq I.a I.b I.Nxx I.Nyy I.Nxy 0 den c = true) {C : Cert} (hC : certOk c C I.xs I.ys = true) (hu : C.ucols = []) : I.K.PosDef :=
  posDef_of_pos hs fun x hx => by
    have h := I.pos hI hc hC x hx (by rw [hu]; simp)
    simpa using h

/-- At most `n` modes up to `mu`. -/
def IntPlate.Low (I : IntPlate) (mu : ℚ) (n : ℕ) : Prop := I.K.PosDef → I.KG.IsSymm → numModes I.K I.KG mu ≤ n

/-- At least `n` modes up to `mu`. -/
def IntPlate.High (I : IntPlate) (mu : ℚ) (n : ℕ) : Prop := I.K.PosDef → I.KG.IsSymm → n ≤ numModes I.K I.KG mu

/-- The multipliers from number `n + 1` on lie between the given numbers. -/
def IntPlate.Brackets (I : IntPlate) (n : ℕ) (brs : List (ℚ × ℚ)) : Prop :=
  ∀ j x, brs[j]? = some x → I.Low x.1 (n + j) ∧ I.High x.2 (n + j + 1)

theorem IntPlate.Brackets.nil (I : IntPlate) (n : ℕ) : I.Brackets n [] := fun j x h => by simp at h

theorem IntPlate.Brackets.cons {I : IntPlate} {n : ℕ} {lo hi : ℚ} {brs : List (ℚ × ℚ)} (h1 : I.Low lo n) (h2 : I.High hi (n + 1))
    (h : I.Brackets (n + 1) brs) : I.Brackets n ((lo, hi) :: brs) := fun j x hx => by
  cases j with
  | zero =>
    rw [List.getElem?_cons_zero] at hx
    obtain rfl := Option.some.inj hx
    exact ⟨h1, h2⟩
  | succ j =>
    rw [List.getElem?_cons_succ] at hx
    have := h j x hx
    rwa [show n + 1 + j = n + (j + 1) by omega] at this

/-- Check of a lower bound. -/
def IntPlate.lowOk (I : IntPlate) (mu : ℚ) (den : ℕ) (c : Coef9) (C : Cert) (n : ℕ) : Bool :=
  I.small && coefOk I.Dq I.a I.b I.Nxx I.Nyy I.Nxy mu den c && certOk c C I.xs I.ys && Nat.ble C.ucols.length n

/-- Check of an upper bound. -/
def IntPlate.highOk (I : IntPlate) (mu : ℚ) (den : ℕ) (c : Coef9) (k u g : ℕ) (vs : List ℕ) : Bool :=
  I.small && decide (0 < mu) && coefOk I.Dq I.a I.b I.Nxx I.Nyy I.Nxy mu den c && gramOk c k u g I.xs I.ys vs

theorem IntPlate.low {I : IntPlate} {mu : ℚ} {den : ℕ} {c : Coef9} {C : Cert} {n : ℕ} (h : I.lowOk mu den c C n = true) : I.Low mu n :=
  fun hK hG => by
    simp only [IntPlate.lowOk, Bool.and_eq_true, Nat.ble_eq] at h
    obtain ⟨⟨⟨h1, h2⟩, h3⟩, h4⟩ := h
    exact (I.modes_le h1 hK hG h2 h3).trans h4

theorem IntPlate.high {I : IntPlate} {mu : ℚ} {den : ℕ} {c : Coef9} {k u g : ℕ} {vs : List ℕ} (h : I.highOk mu den c k u g vs = true) {n : ℕ}
    (hn : vs.length = n) : I.High mu n := fun hK hG => by
  simp only [IntPlate.highOk, Bool.and_eq_true, decide_eq_true_eq] at h
  obtain ⟨⟨⟨h1, h2⟩, h3⟩, h4⟩ := h
  rw [← hn]
  exact I.modes_ge h1 hK hG h2 h3 h4

/-! ## The reported values -/

/-- The plate as an argument of the calculation. -/
noncomputable def IntPlate.num (I : IntPlate) : PlateNum := ⟨I.a, I.b, I.Nxx, I.Nyy, I.Nxy, I.xs.length, I.ys.length⟩

/-- The matrices that `calc_K_KG_D` returns are those of the plate. -/
theorem IntPlate.built (I : IntPlate) (hI : I.small = true) (cs : Constraints) (s : ShapeIdx)
    (hs : computeIdx cs I.xs.length I.ys.length = .ok s) (hw : s.w = I.xs.product I.ys) (ha : I.a ≠ 0) (hb : I.b ≠ 0) :
    calcKKGD shipped (.ok I.D) cs I.num = .ok (I.K, I.KG) := by
  have := calcKKGD_ok shipped_ok I.D cs I.num s hs (show (I.a : ℝ) ≠ 0 by exact_mod_cast ha) (show (I.b : ℝ) ≠ 0 by exact_mod_cast hb)
    fun q hq => by
      rw [hw] at hq
      obtain ⟨q1, q2⟩ := List.pair_mem_product.mp (show (q.1, q.2) ∈ I.xs.product I.ys from hq)
      rw [IntPlate.small, Bool.and_eq_true] at hI
      have h1 := List.all_eq_true.mp hI.1 _ q1
      have h2 := List.all_eq_true.mp hI.2 _ q2
      rw [Nat.ble_eq] at h1 h2
      exact ⟨by omega, by omega⟩
  rw [this, hw]
  rfl

/-- What certificates say about the values that `buckling_analysis` reports. -/
theorem IntPlate.reported (I : IntPlate) (cs : Constraints) (p : PlateNum) (hp : p = I.num) (s : ShapeIdx)
    (hs : computeIdx cs I.xs.length I.ys.length = .ok s) (hw : s.w = I.xs.product I.ys) (ha : I.a ≠ 0) (hb : I.b ≠ 0) (hm : 1 ≤ I.xs.length)
    (hn : 1 ≤ I.ys.length) {den : ℕ} {c : Coef9} {C : Cert} (h0 : I.lowOk 0 den c C 0 = true) (brs : List (ℚ × ℚ)) (hbr : I.Brackets 0 brs)
    (h1 : ∃ x, brs[0]? = some x ∧ 1 ≤ x.1) :
    ∃ K KG, calcKKGD shipped (.ok I.D) cs p = .ok (K, KG) ∧ K.PosDef ∧ KG.IsSymm ∧ ∀ S : EigSolver,
      (∀ k out, S _ KG K k = .ok out → EigshFull KG K k out ∧ CayleySorted out) → ∀ numEig st vals vecs,
      (bucklingAnalysis S (.ok I.D) cs p numEig st).1 = .ok (vals, vecs) → (vals.length : ℤ) = min numEig ((p.m * p.n : ℕ) - 2) ∧
      ∀ i v x, vals[i]? = some v → brs[i]? = some x → ∃ lam, v = .fin lam ∧ IsKth K KG (i + 1) lam ∧ (x.1 : ℝ) < lam ∧ lam ≤ x.2 := by
  simp only [IntPlate.lowOk, Bool.and_eq_true, Nat.ble_eq] at h0
  obtain ⟨⟨⟨hI, hc⟩, hC⟩, h4⟩ := h0
  have hu : C.ucols = [] := List.eq_nil_of_length_eq_zero (by omega)
  subst hp
  have hK := I.built hI cs s hs hw ha hb
  have hsym := C48_symmetric _ _ I.num hm hn I.K I.KG hK
  have hpd := I.posDef hI hsym.1 hc hC hu
  refine ⟨I.K, I.KG, hK, hpd, hsym.2, fun S hS numEig st vals vecs hrun => ?_⟩
  have hb' : ∀ i x, brs[i]? = some x → numModes I.K I.KG x.1 ≤ i ∧ i + 1 ≤ numModes I.K I.KG x.2 := fun i x hx => by
    obtain ⟨e1, e2⟩ := hbr i x hx
    rw [Nat.zero_add] at e1 e2
    exact ⟨e1 hpd hsym.2, e2 hpd hsym.2⟩
  obtain ⟨x0, hx0, hx1⟩ := h1
  have hone : ∀ mu, PosMult I.K I.KG mu → 1 ≤ mu := fun mu hmu => by
    by_contra hlt
    push Not at hlt
    have e1 : (1 : ℝ) ≤ x0.1 := by exact_mod_cast hx1
    have e2 : numModes I.K I.KG mu ≤ 0 := (numModes_le_of_le (by linarith)).trans (hb' 0 x0 hx0).1
    obtain ⟨h0, v, hv⟩ := hmu
    have e3 : finrank ℝ (modes I.K I.KG mu) = 0 := Nat.le_zero.mp e2
    rw [Submodule.finrank_eq_zero] at e3
    have e4 : v ∈ modes I.K I.KG mu := Submodule.subset_span ⟨mu, h0, le_rfl, hv⟩
    rw [e3, Submodule.mem_bot] at e4
    exact hv.1 e4
  obtain ⟨hlen, hvals⟩ := C109_ordered S (.ok I.D) cs I.num hm hn numEig st vals vecs hrun I.K I.KG hK hpd hS hone
  refine ⟨hlen, fun i v x hv hx => ?_⟩
  obtain ⟨hlo, hhi⟩ := hb' i x hx
  have hi : i < vals.length := by
    by_contra hge
    rw [List.getElem?_eq_none (by omega)] at hv
    cases hv
  obtain ⟨lam, e1, e2, e3⟩ := hvals i hi x.2 hhi
  rw [hv] at e1
  refine ⟨lam, Option.some.inj e1, e2, ?_, e2.2 hhi⟩
  by_contra hle
  push Not at hle
  have := e2.1
  have e4 : i + 1 ≤ numModes I.K I.KG lam := e2.1
  have e5 := numModes_le_of_le (K := I.K) (KG := I.KG) hle
  omega

end Composipy
