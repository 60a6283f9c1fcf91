import Verif.Gen.Nine
import Verif.Lemmas.Packed
import Verif.Model.Stiffness

/-!
# Certificates for positive definite matrices

An integer matrix is positive definite if it is, up to small entries, a positive multiple of the unit matrix plus a sum of squares. The kernel
checks this row by row, with the rows packed into single numbers.
-/

namespace Composipy

/-- Integer factors of the six stiffness terms and the three load terms. -/
structure Coef9 where
  c1 : ℤ
  c2 : ℤ
  c3 : ℤ
  c4 : ℤ
  c5 : ℤ
  c6 : ℤ
  g1 : ℤ
  g2 : ℤ
  g3 : ℤ

/-- The nine scaled integrals of a pair. -/
def nine (i k : ℕ) : List ℤ := (nineTab.getD i []).getD k []

/-- The factors of the nine integrals in `y`, from the nine integrals in `x`. -/
def mix (c : Coef9) : List ℤ → List ℤ
  | [ff, xf, fx, xx, Xf, fX, Xx, xX, XX] =>
    [c.c1 * XX + c.g1 * xx, c.c4 * xX + c.g3 * fx, c.c4 * Xx + c.g3 * xf, c.c6 * xx + c.g2 * ff, c.c2 * fX, c.c2 * Xf, c.c5 * fx,
      c.c5 * xf, c.c3 * ff]
  | _ => []

/-- `r + B l`, entry by entry. -/
def addScaled (B : ℤ) : List ℤ → List ℤ → List ℤ
  | a :: r, b :: l => (a + B * b) :: addScaled B r l
  | [], b :: l => B * b :: addScaled B [] l
  | r, [] => r

/-- Pack vectors, entry by entry. -/
def hornerZ (B : ℤ) : List (List ℤ) → List ℤ
  | [] => []
  | r :: l => addScaled B r (hornerZ B l)

/-- A row of the matrix, packed in base `2^k`. -/
def rowZ (c : Coef9) (k : ℕ) (xs ys : List ℕ) (i j : ℕ) : ℤ :=
  dotZ (hornerZ ((2 ^ (k * ys.length) : ℕ) : ℤ) (xs.map fun p => mix c (nine i p)))
    (hornerZ ((2 ^ k : ℕ) : ℤ) (ys.map fun l => nine j l))

/-- A column that begins at row `k`, packed in base `B`. -/
def colZ (b B M N k x : ℕ) : ℤ := Int.subNatNat (B ^ k * spread b B (N - k) x) (M * (B ^ k * repN B (N - k)))

/-- Row `i` of the sum of squares of the columns, packed. -/
def colSum (b B M N i : ℕ) : List (ℕ × ℕ) → ℤ
  | [] => 0
  | (k, x) :: l => bif Nat.ble k i then Int.subNatNat (dig b x (i - k)) M * colZ b B M N k x + colSum b B M N i l else colSum b B M N i l

/-- A certificate: base `2^k`, errors below `2^(q-1)`, entries of the columns below `2^u`, scale `s`, shift `sh`, weight `t` of the vectors to
be left out. Each column is its first row and its packed entries. -/
structure Cert where
  k : ℕ
  q : ℕ
  u : ℕ
  s : ℕ
  sh : ℕ
  t : ℕ
  cols : List (ℕ × ℕ)
  ucols : List (ℕ × ℕ)

/-- Check of one row. -/
def rowOk (c : Coef9) (C : Cert) (N : ℕ) (xs ys : List ℕ) (i p r : ℕ) : Bool :=
  match rowZ c C.k xs ys p r + (2 ^ (C.q - 1) * repN (2 ^ C.k) N : ℕ) - (C.sh * (2 ^ C.k) ^ i : ℕ)
      - C.s * colSum (2 ^ C.u) (2 ^ C.k) (2 ^ (C.u - 1)) N i C.cols
      + C.t * colSum (2 ^ C.u) (2 ^ C.k) (2 ^ (C.u - 1)) N i C.ucols with
  | .ofNat V => Nat.ble (V + 1) ((2 ^ C.k) ^ N) && Nat.beq (Nat.land V (maskN C.q C.k N)) 0
  | .negSucc _ => false

/-- Largest absolute value of the scaled integrals. -/
def nineMax : ℕ := (nineTab.flatten.flatten.map Int.natAbs).foldr max 0

/-- Sum of the absolute values of the factors. -/
def Coef9.size (c : Coef9) : ℕ :=
  c.c1.natAbs + c.c2.natAbs + c.c3.natAbs + c.c4.natAbs + c.c5.natAbs + c.c6.natAbs + c.g1.natAbs + c.g2.natAbs + c.g3.natAbs

/-- Bound of the entries of the matrix. -/
def Coef9.bound (c : Coef9) : ℕ := 9 * (c.size * nineMax * nineMax)

/-- Check of the sizes. -/
def sizesOk (c : Coef9) (C : Cert) (N : ℕ) : Bool :=
  Nat.ble 1 C.q && Nat.ble 1 C.u && Nat.ble C.q C.k && Nat.ble (2 * 2 ^ C.q + 1) (2 ^ C.k) && Nat.ble (N * 2 ^ (C.q - 1) + 1) C.sh &&
  Nat.ble (2 * (c.bound + 2 ^ (C.q - 1) + C.sh + C.s * (C.cols.length * (2 ^ C.u * 2 ^ C.u)) + C.t * (C.ucols.length * (2 ^ C.u * 2 ^ C.u))) + 1)
    (2 ^ C.k)

/-- Check of a certificate. -/
def certOk (c : Coef9) (C : Cert) (xs ys : List ℕ) : Bool :=
  sizesOk c C (xs.length * ys.length) && (List.range xs.length).all fun a => (List.range ys.length).all fun b =>
    rowOk c C (xs.length * ys.length) xs ys (a * ys.length + b) (xs.getD a 0) (ys.getD b 0)

/-! ## Soundness -/

/-- The matrix entry. -/
def entZ (c : Coef9) (r q : ℕ × ℕ) : ℤ := dotZ (mix c (nine r.1 q.1)) (nine r.2 q.2)

/-- Entry of a column. -/
def colEnt (b M : ℕ) (p : ℕ × ℕ) (i : ℕ) : ℤ := if p.1 ≤ i then (dig b p.2 (i - p.1) : ℤ) - M else 0

theorem dotZ_nil_right (l : List ℤ) : dotZ l [] = 0 := by cases l <;> rfl

theorem dotZ_nil_left (l : List ℤ) : dotZ [] l = 0 := by cases l <;> rfl

theorem dotZ_comm (l r : List ℤ) : dotZ l r = dotZ r l := by
  induction l generalizing r with
  | nil => rw [dotZ_nil_right, dotZ_nil_left]
  | cons a l ih => cases r with
    | nil => rfl
    | cons b r => simp only [dotZ, ih r]; ring

theorem dotZ_addScaled (B : ℤ) (r l v : List ℤ) : dotZ (addScaled B r l) v = dotZ r v + B * dotZ l v := by
  induction l generalizing r v with
  | nil => cases r <;> simp [addScaled, dotZ_nil_left]
  | cons b l ih =>
    cases r with
    | nil => cases v with
      | nil => simp [dotZ_nil_right]
      | cons w v =>
        have := ih [] v
        simp only [addScaled, dotZ] at this ⊢
        rw [this]; ring
    | cons a r => cases v with
      | nil => simp [dotZ_nil_right]
      | cons w v =>
        simp only [addScaled, dotZ, ih r v]
        ring

theorem dotZ_horner (B : ℤ) (L : List (List ℤ)) (v : List ℤ) :
    dotZ (hornerZ B L) v = packF B L.length (fun j => dotZ (L.getD j []) v) := by
  induction L with
  | nil => simp [hornerZ, packF, dotZ_nil_left]
  | cons r L ih =>
    rw [hornerZ, dotZ_addScaled, ih, List.length_cons, packF_succ]
    simp

theorem packF_block (B : ℤ) (m n : ℕ) (f : ℕ → ℕ → ℤ) :
    packF (B ^ n) m (fun a => packF B n (fun b => f a b)) = packF B (m * n) (fun j => f (j / n) (j % n)) := by
  induction m with
  | zero => simp [packF]
  | succ m ih =>
    have h1 : packF (B ^ n) (m + 1) (fun a => packF B n (fun b => f a b))
        = packF (B ^ n) m (fun a => packF B n (fun b => f a b)) + packF B n (fun b => f m b) * (B ^ n) ^ m := by
      rw [packF, Finset.sum_range_succ]; rfl
    rw [h1, ih, add_mul, one_mul, packF, packF, packF, Finset.sum_range_add, Finset.sum_mul]
    congr 1
    refine Finset.sum_congr rfl fun b hb => ?_
    have hb := Finset.mem_range.mp hb
    rw [mul_comm m n, Nat.mul_add_div (by omega), Nat.div_eq_of_lt hb, add_zero, Nat.mul_add_mod, Nat.mod_eq_of_lt hb, pow_add, pow_mul]
    ring

theorem rowZ_eq (c : Coef9) (k : ℕ) (xs ys : List ℕ) (i j : ℕ) :
    rowZ c k xs ys i j = packF ((2 ^ k : ℕ) : ℤ) (xs.length * ys.length)
      (fun p => entZ c (i, j) (xs.getD (p / ys.length) 0, ys.getD (p % ys.length) 0)) := by
  rw [rowZ, dotZ_horner, List.length_map, show ((2 ^ (k * ys.length) : ℕ) : ℤ) = ((2 ^ k : ℕ) : ℤ) ^ ys.length by push_cast; rw [pow_mul],
    ← packF_block _ _ _ (fun a b => entZ c (i, j) (xs.getD a 0, ys.getD b 0))]
  refine packF_congr fun a ha => ?_
  rw [dotZ_comm, dotZ_horner, List.length_map]
  refine packF_congr fun b hb => ?_
  rw [dotZ_comm, entZ]
  simp only [List.getD_eq_getElem?_getD, List.getElem?_map]
  rw [List.getElem?_eq_getElem ha, List.getElem?_eq_getElem hb]
  rfl

theorem packF_shift (B : ℤ) (N k : ℕ) (g : ℕ → ℤ) :
    packF B N (fun j => if k ≤ j then g (j - k) else 0) = B ^ k * packF B (N - k) g := by
  rcases le_or_gt k N with h | h
  · obtain ⟨r, rfl⟩ := Nat.exists_eq_add_of_le h
    rw [packF, packF, Finset.sum_range_add, Finset.mul_sum, Nat.add_sub_cancel_left, Finset.sum_eq_zero, zero_add]
    · refine Finset.sum_congr rfl fun j _ => ?_
      simp only [Nat.le_add_right, if_true, Nat.add_sub_cancel_left, pow_add]
      ring
    · intro j hj
      have := Finset.mem_range.mp hj
      rw [if_neg (by omega), zero_mul]
  · rw [Nat.sub_eq_zero_of_le h.le, packF, Finset.sum_eq_zero]
    · simp [packF]
    · intro j hj
      have := Finset.mem_range.mp hj
      rw [if_neg (by omega), zero_mul]

theorem colZ_eq (b B M N k x : ℕ) : colZ b B M N k x = packF B N (colEnt b M (k, x)) := by
  have h := packF_shift (B : ℤ) N k (fun j => (dig b x j : ℤ) - M)
  rw [show packF (B : ℤ) N (colEnt b M (k, x)) = _ from h, packF_sub, ← spread_eq]
  have h2 : packF (B : ℤ) (N - k) (fun _ => (M : ℤ)) = M * repN B (N - k) := by
    rw [repN_eq, ← packF_mul]
    simp
  rw [h2, colZ, Int.subNatNat_eq_coe]
  push_cast
  ring

/-- Sum of the products of the entries of the columns. -/
def colDot (b M : ℕ) (l : List (ℕ × ℕ)) (i j : ℕ) : ℤ := (l.map fun p => colEnt b M p i * colEnt b M p j).sum

theorem colSum_eq (b B M N i : ℕ) (l : List (ℕ × ℕ)) : colSum b B M N i l = packF B N (colDot b M l i) := by
  induction l with
  | nil => simp [colSum, colDot, packF]
  | cons p l ih =>
    obtain ⟨k, x⟩ := p
    have e : colDot b M ((k, x) :: l) i = fun j => colEnt b M (k, x) i * colEnt b M (k, x) j + colDot b M l i j := by
      funext j; simp [colDot]
    rw [e, packF_add, packF_mul, ← ih, ← colZ_eq, colSum]
    by_cases h : k ≤ i
    · rw [Nat.ble_eq.mpr h, cond_true, colEnt, if_pos h, Int.subNatNat_eq_coe]
    · rw [Bool.eq_false_iff.mpr (fun h' => h (Nat.ble_eq.mp h')), cond_false, colEnt, if_neg h]
      ring

/-! ### Bounds -/

theorem dotZ_bound {A A' : ℤ} (hA : 0 ≤ A) (hA' : 0 ≤ A') : ∀ l l' : List ℤ, (∀ x ∈ l, |x| ≤ A) → (∀ x ∈ l', |x| ≤ A') →
    |dotZ l l'| ≤ l.length * (A * A')
  | [], l', _, _ => by simp [dotZ_nil_left]
  | a :: l, [], _, _ => by
      rw [dotZ_nil_right, abs_zero]
      positivity
  | a :: l, b :: l', h, h' => by
      have h1 := dotZ_bound hA hA' l l' (fun x hx => h x (by simp [hx])) (fun x hx => h' x (by simp [hx]))
      have h2 : |a * b| ≤ A * A' := by
        rw [abs_mul]
        exact mul_le_mul (h a (by simp)) (h' b (by simp)) (abs_nonneg _) hA
      have := abs_add_le (a * b) (dotZ l l')
      rw [dotZ, List.length_cons]
      push_cast
      linarith

theorem le_foldr_max (l : List ℕ) : ∀ x ∈ l, x ≤ l.foldr max 0 := by
  induction l with
  | nil => simp
  | cons a l ih =>
    intro x hx
    rcases List.mem_cons.mp hx with rfl | hx
    · simp
    · exact (ih x hx).trans (by simp)

theorem nine_bound (i k : ℕ) : ∀ x ∈ nine i k, |x| ≤ (nineMax : ℤ) := by
  intro x hx
  have hr : nine i k ∈ nineTab.flatten ∨ nine i k = [] := by
    rw [nine]
    by_cases hi : i < nineTab.length
    · by_cases hk : k < (nineTab[i]).length
      · left
        rw [List.mem_flatten]
        refine ⟨nineTab[i], List.getElem_mem _, ?_⟩
        rw [List.getD_eq_getElem?_getD, List.getD_eq_getElem?_getD, List.getElem?_eq_getElem hi, Option.getD_some,
          List.getElem?_eq_getElem hk, Option.getD_some]
        exact List.getElem_mem _
      · right
        rw [List.getD_eq_getElem?_getD, List.getD_eq_getElem?_getD, List.getElem?_eq_getElem hi, Option.getD_some,
          List.getElem?_eq_none (by omega), Option.getD_none]
    · right
      have h0 : nineTab.getD i [] = [] := by rw [List.getD_eq_getElem?_getD, List.getElem?_eq_none (by omega), Option.getD_none]
      rw [h0]
      rfl
  rcases hr with hr | hr
  · have h := le_foldr_max (nineTab.flatten.flatten.map Int.natAbs) x.natAbs
      (List.mem_map.mpr ⟨x, List.mem_flatten.mpr ⟨_, hr, hx⟩, rfl⟩)
    rw [Int.abs_eq_natAbs]
    exact_mod_cast h
  · rw [hr] at hx; cases hx

attribute [irreducible] nineMax

theorem mix_bound (c : Coef9) (l : List ℤ) {T : ℤ} (h0 : 0 ≤ T) (h : ∀ x ∈ l, |x| ≤ T) :
    (mix c l).length ≤ 9 ∧ ∀ x ∈ mix c l, |x| ≤ (c.size : ℤ) * T := by
  unfold mix
  split
  · rename_i ff xf fx xx Xf fX Xx xX XX
    refine ⟨by simp, ?_⟩
    simp only [List.mem_cons, List.not_mem_nil, or_false, forall_eq_or_imp, forall_eq] at h ⊢
    obtain ⟨a1, a2, a3, a4, a5, a6, a7, a8, a9⟩ := h
    have two : ∀ u v x y : ℤ, |u| + |v| ≤ c.size → |x| ≤ T → |y| ≤ T → |u * x + v * y| ≤ c.size * T := by
      intro u v x y hs hx hy
      calc |u * x + v * y| ≤ |u| * |x| + |v| * |y| := by
            rw [← abs_mul, ← abs_mul]; exact abs_add_le _ _
        _ ≤ |u| * T + |v| * T := add_le_add (mul_le_mul_of_nonneg_left hx (abs_nonneg _)) (mul_le_mul_of_nonneg_left hy (abs_nonneg _))
        _ = (|u| + |v|) * T := by ring
        _ ≤ _ := mul_le_mul_of_nonneg_right hs h0
    have one : ∀ u x : ℤ, |u| ≤ c.size → |x| ≤ T → |u * x| ≤ c.size * T := by
      intro u x hs hx
      have := two u 0 x 0 (by simpa using hs) hx (by simpa using h0)
      simpa using this
    have hsz : (c.size : ℤ) = |c.c1| + |c.c2| + |c.c3| + |c.c4| + |c.c5| + |c.c6| + |c.g1| + |c.g2| + |c.g3| := by
      simp only [Coef9.size, Int.abs_eq_natAbs]; push_cast; ring
    have := abs_nonneg c.c1
    have := abs_nonneg c.c2
    have := abs_nonneg c.c3
    have := abs_nonneg c.c4
    have := abs_nonneg c.c5
    have := abs_nonneg c.c6
    have := abs_nonneg c.g1
    have := abs_nonneg c.g2
    have := abs_nonneg c.g3
    exact ⟨two _ _ _ _ (by linarith) a9 a4, two _ _ _ _ (by linarith) a8 a3, two _ _ _ _ (by linarith) a7 a2,
      two _ _ _ _ (by linarith) a4 a1, one _ _ (by linarith) a6, one _ _ (by linarith) a5, one _ _ (by linarith) a3,
      one _ _ (by linarith) a2, one _ _ (by linarith) a1⟩
  · simp

theorem entZ_bound (c : Coef9) (r q : ℕ × ℕ) : |entZ c r q| ≤ (c.bound : ℤ) := by
  obtain ⟨h1, h2⟩ := mix_bound c (nine r.1 q.1) (Nat.cast_nonneg nineMax) (nine_bound _ _)
  have h := dotZ_bound (by positivity) (Nat.cast_nonneg nineMax) _ _ h2 (nine_bound r.2 q.2)
  refine h.trans ?_
  have h9 : ((mix c (nine r.1 q.1)).length : ℤ) ≤ 9 := by exact_mod_cast h1
  rw [Coef9.bound]
  push_cast
  exact mul_le_mul_of_nonneg_right h9 (by positivity)

theorem colEnt_bound {b M : ℕ} (hb : 0 < b) (hM : M ≤ b) (p : ℕ × ℕ) (i : ℕ) : |colEnt b M p i| ≤ (b : ℤ) := by
  rw [colEnt]
  split_ifs
  · have h1 : dig b p.2 (i - p.1) < b := Nat.mod_lt _ hb
    have : (dig b p.2 (i - p.1) : ℤ) < b := by exact_mod_cast h1
    have : (0 : ℤ) ≤ dig b p.2 (i - p.1) := by positivity
    have : (M : ℤ) ≤ b := by exact_mod_cast hM
    rw [abs_le]
    constructor <;> linarith [Nat.cast_nonneg (α := ℤ) M]
  · simp

theorem colDot_bound {b M : ℕ} (hb : 0 < b) (hM : M ≤ b) (l : List (ℕ × ℕ)) (i j : ℕ) :
    |colDot b M l i j| ≤ ((l.length * (b * b) : ℕ) : ℤ) := by
  induction l with
  | nil => simp [colDot]
  | cons p l ih =>
    have h1 : |colEnt b M p i * colEnt b M p j| ≤ (b : ℤ) * b := by
      rw [abs_mul]
      exact mul_le_mul (colEnt_bound hb hM p i) (colEnt_bound hb hM p j) (abs_nonneg _) (by positivity)
    have e : colDot b M (p :: l) i j = colEnt b M p i * colEnt b M p j + colDot b M l i j := by simp [colDot]
    rw [e, List.length_cons]
    have := abs_add_le (colEnt b M p i * colEnt b M p j) (colDot b M l i j)
    push_cast at ih ⊢
    linarith

/-- What a checked certificate says about the entries. -/
theorem cert_entries {c : Coef9} {C : Cert} {xs ys : List ℕ} (h : certOk c C xs ys = true) :
    xs.length * ys.length * 2 ^ (C.q - 1) < C.sh ∧
    ∀ i < xs.length * ys.length, ∀ j < xs.length * ys.length,
      |entZ c (xs.getD (i / ys.length) 0, ys.getD (i % ys.length) 0) (xs.getD (j / ys.length) 0, ys.getD (j % ys.length) 0)
        - (if j = i then (C.sh : ℤ) else 0) - C.s * colDot (2 ^ C.u) (2 ^ (C.u - 1)) C.cols i j
        + C.t * colDot (2 ^ C.u) (2 ^ (C.u - 1)) C.ucols i j| ≤ 2 ^ (C.q - 1) := by
  simp only [certOk, sizesOk, Bool.and_eq_true, Nat.ble_eq, List.all_eq_true, List.mem_range] at h
  obtain ⟨⟨⟨⟨⟨⟨hq1, hu1⟩, hqk⟩, hq2⟩, hsh⟩, hB⟩, hrow⟩ := h
  refine ⟨by omega, fun i hi j hj => ?_⟩
  set N := xs.length * ys.length with hN
  set n := ys.length with hn
  have hn0 : 0 < n := Nat.pos_of_ne_zero fun h0 => by rw [h0, Nat.mul_zero] at hN; omega
  have hr := hrow (i / n) (by rw [Nat.div_lt_iff_lt_mul hn0]; exact hi) (i % n) (Nat.mod_lt _ hn0)
  rw [Nat.div_add_mod' i n] at hr
  set B : ℕ := 2 ^ C.k with hBdef
  set b : ℕ := 2 ^ C.u with hb
  set M : ℕ := 2 ^ (C.u - 1) with hM
  set e : ℕ := 2 ^ (C.q - 1) with he
  have hbpos : 0 < b := by positivity
  have hMb : M ≤ b := Nat.pow_le_pow_right (by norm_num) (by omega)
  have he2 : 2 ^ C.q = 2 * e := by
    rw [he, ← pow_succ']
    congr 1
    omega
  let r : ℕ → ℤ := fun j => entZ c (xs.getD (i / n) 0, ys.getD (i % n) 0) (xs.getD (j / n) 0, ys.getD (j % n) 0)
  let f : ℕ → ℤ := fun j => r j + e - (if j = i then (C.sh : ℤ) else 0) - C.s * colDot b M C.cols i j + C.t * colDot b M C.ucols i j
  have hv : rowZ c C.k xs ys (xs.getD (i / n) 0) (ys.getD (i % n) 0) + (e * repN B N : ℕ) - (C.sh * B ^ i : ℕ)
      - C.s * colSum b B M N i C.cols + C.t * colSum b B M N i C.ucols = packF B N f := by
    rw [show packF (B : ℤ) N f = packF B N r + packF B N (fun _ => (e : ℤ)) - packF B N (fun j => if j = i then (C.sh : ℤ) else 0)
      - packF B N (fun j => C.s * colDot b M C.cols i j) + packF B N (fun j => C.t * colDot b M C.ucols i j) by
        rw [← packF_add, ← packF_sub, ← packF_sub, ← packF_add], packF_single _ _ _ hi, packF_mul, packF_mul, rowZ_eq, colSum_eq, colSum_eq,
      show packF (B : ℤ) N (fun _ => (e : ℤ)) = e * repN B N by rw [repN_eq, ← packF_mul]; simp]
    push_cast
    rfl
  rw [rowOk, hv] at hr
  have hf : ∀ j < N, 2 * |f j| < (B : ℤ) := fun j _ => by
    have h1 : |r j| ≤ (c.bound : ℤ) := entZ_bound c _ _
    have h2 := colDot_bound hbpos hMb C.cols i j
    have h3 := colDot_bound hbpos hMb C.ucols i j
    have h4 : |(if j = i then (C.sh : ℤ) else 0)| ≤ C.sh := by split_ifs <;> simp
    have h5 : |(C.s : ℤ) * colDot b M C.cols i j| ≤ C.s * ((C.cols.length * (b * b) : ℕ) : ℤ) := by
      rw [abs_mul, abs_of_nonneg (Nat.cast_nonneg _)]
      exact mul_le_mul_of_nonneg_left h2 (Nat.cast_nonneg _)
    have h6 : |(C.t : ℤ) * colDot b M C.ucols i j| ≤ C.t * ((C.ucols.length * (b * b) : ℕ) : ℤ) := by
      rw [abs_mul, abs_of_nonneg (Nat.cast_nonneg _)]
      exact mul_le_mul_of_nonneg_left h3 (Nat.cast_nonneg _)
    have hB' : 2 * ((c.bound : ℤ) + e + C.sh + C.s * ((C.cols.length * (b * b) : ℕ) : ℤ) + C.t * ((C.ucols.length * (b * b) : ℕ) : ℤ)) + 1 ≤ B := by
      exact_mod_cast hB
    have h7 : |f j| ≤ |r j| + e + |(if j = i then (C.sh : ℤ) else 0)| + |(C.s : ℤ) * colDot b M C.cols i j| + |(C.t : ℤ) * colDot b M C.ucols i j| := by
      have e0 : (0 : ℤ) ≤ e := Nat.cast_nonneg _
      simp only [f]
      refine (abs_add_le _ _).trans ?_
      refine add_le_add_left ((abs_sub _ _).trans ?_) _
      refine add_le_add_left ((abs_sub _ _).trans ?_) _
      refine add_le_add_left ((abs_add_le _ _).trans ?_) _
      rw [abs_of_nonneg e0]
    linarith
  split at hr
  · rename_i V hV
    simp only [Bool.and_eq_true, Nat.ble_eq, Nat.beq_eq] at hr
    obtain ⟨hV1, hV2⟩ := pack_of_land hqk (Nat.lt_of_succ_le hr.1) hr.2
    have hg : ∀ j < N, 2 * |((dig B V j : ℕ) : ℤ)| < (B : ℤ) := fun j hj => by
      have := hV2 j hj
      rw [← hBdef] at this
      rw [abs_of_nonneg (Nat.cast_nonneg _)]
      have h2 : 2 * dig B V j < B := by omega
      exact_mod_cast h2
    have hfg : ∀ j < N, |f j - ((dig B V j : ℕ) : ℤ)| < (B : ℤ) := fun j hj =>
      (abs_sub _ _).trans_lt (by linarith [hf j hj, hg j hj])
    have heq : f j = ((dig B V j : ℕ) : ℤ) := packF_inj (g := fun j => ((dig B V j : ℕ) : ℤ)) hfg (by rw [hV]; exact hV1) j hj
    have hlt : ((dig B V j : ℕ) : ℤ) < 2 * e := by
      have := hV2 j hj
      rw [he2] at this
      exact_mod_cast this
    have hge : (0 : ℤ) ≤ ((dig B V j : ℕ) : ℤ) := Nat.cast_nonneg _
    rw [← heq] at hlt hge
    simp only [f, r] at hlt hge
    have : ((e : ℕ) : ℤ) = 2 ^ (C.q - 1) := by rw [he]; push_cast; rfl
    rw [← this, abs_le]
    constructor <;> linarith
  · cases hr

/-! ## Positive quadratic forms -/

theorem quad_list {N : ℕ} (x : Fin N → ℝ) (l : List (Fin N → ℝ)) :
    ∑ i, ∑ j, x i * x j * (l.map fun c => c i * c j).sum = (l.map fun c => (∑ i, x i * c i) ^ 2).sum := by
  induction l with
  | nil => simp
  | cons c l ih =>
    simp only [List.map_cons, List.sum_cons, mul_add, Finset.sum_add_distrib, ih]
    congr 1
    rw [sq, Finset.sum_mul_sum]
    exact Finset.sum_congr rfl fun i _ => Finset.sum_congr rfl fun j _ => by ring

/-- A matrix that is, up to entries of size `e`, a multiple of the unit matrix plus a weighted sum of squares, is positive on the vectors
orthogonal to the vectors left out. -/
theorem quad_pos {N : ℕ} (R : Fin N → Fin N → ℝ) (Cs Us : List (Fin N → ℝ)) {s t sh e : ℝ} (hs : 0 ≤ s) (hsh : N * e < sh)
    (h : ∀ i j, |R i j - (if j = i then sh else 0) - s * (Cs.map fun c => c i * c j).sum + t * (Us.map fun c => c i * c j).sum| ≤ e)
    (x : Fin N → ℝ) (hx : x ≠ 0) (hU : ∀ c ∈ Us, ∑ i, x i * c i = 0) : 0 < ∑ i, ∑ j, x i * x j * R i j := by
  set E : Fin N → Fin N → ℝ := fun i j => R i j - (if j = i then sh else 0) - s * (Cs.map fun c => c i * c j).sum
    + t * (Us.map fun c => c i * c j).sum with hE
  have hsq : 0 < ∑ i, x i ^ 2 := by
    refine Finset.sum_pos' (fun i _ => sq_nonneg _) ?_
    by_contra hno
    push Not at hno
    refine hx (funext fun i => ?_)
    have := hno i (Finset.mem_univ i)
    exact pow_eq_zero_iff (two_ne_zero) |>.mp (le_antisymm this (sq_nonneg _))
  have e1 : ∑ i, ∑ j, x i * x j * R i j = ∑ i, ∑ j, x i * x j * E i j + sh * ∑ i, x i ^ 2
      + s * (Cs.map fun c => (∑ i, x i * c i) ^ 2).sum - t * (Us.map fun c => (∑ i, x i * c i) ^ 2).sum := by
    rw [← quad_list, ← quad_list, Finset.mul_sum, Finset.mul_sum, Finset.mul_sum, ← Finset.sum_add_distrib, ← Finset.sum_add_distrib,
      ← Finset.sum_sub_distrib]
    refine Finset.sum_congr rfl fun i _ => ?_
    have : sh * x i ^ 2 = ∑ j, x i * x j * (if j = i then sh else 0) := by
      rw [Finset.sum_eq_single i]
      · rw [if_pos rfl]; ring
      · intro j _ hj; rw [if_neg hj, mul_zero]
      · intro hi; exact absurd (Finset.mem_univ i) hi
    rw [this, Finset.mul_sum, Finset.mul_sum, ← Finset.sum_add_distrib, ← Finset.sum_add_distrib, ← Finset.sum_sub_distrib]
    exact Finset.sum_congr rfl fun j _ => by rw [hE]; ring
  have h0 : (Us.map fun c => (∑ i, x i * c i) ^ 2).sum = 0 := by
    refine List.sum_eq_zero fun y hy => ?_
    obtain ⟨c, hc, rfl⟩ := List.mem_map.mp hy
    rw [hU c hc]; norm_num
  have h1 : 0 ≤ (Cs.map fun c => (∑ i, x i * c i) ^ 2).sum := by
    refine List.sum_nonneg fun y hy => ?_
    obtain ⟨c, hc, rfl⟩ := List.mem_map.mp hy
    positivity
  have h2 : -(N * e * ∑ i, x i ^ 2) ≤ ∑ i, ∑ j, x i * x j * E i j := by
    have hb : ∀ i j, -(e * ((x i ^ 2 + x j ^ 2) / 2)) ≤ x i * x j * E i j := fun i j => by
      have ha := h i j
      have h3 : |x i * x j * E i j| ≤ (x i ^ 2 + x j ^ 2) / 2 * e := by
        rw [abs_mul]
        refine mul_le_mul ?_ ha (abs_nonneg _) (by positivity)
        rw [abs_le]
        constructor <;> nlinarith [sq_nonneg (x i - x j), sq_nonneg (x i + x j)]
      have := (abs_le.mp h3).1
      linarith
    calc -(N * e * ∑ i, x i ^ 2) = ∑ i, ∑ j, -(e * ((x i ^ 2 + x j ^ 2) / 2)) := by
          simp only [Finset.sum_neg_distrib, ← Finset.mul_sum, ← Finset.sum_div, Finset.sum_add_distrib, Finset.sum_const, Finset.card_univ,
            Fintype.card_fin, nsmul_eq_mul]
          ring
      _ ≤ _ := Finset.sum_le_sum fun i _ => Finset.sum_le_sum fun j _ => hb i j
  rw [e1, h0, mul_zero, sub_zero]
  have h3 : 0 < (sh - N * e) * ∑ i, x i ^ 2 := mul_pos (by linarith) hsq
  have h4 : 0 ≤ s * (Cs.map fun c => (∑ i, x i * c i) ^ 2).sum := mul_nonneg hs h1
  linarith

end Composipy
