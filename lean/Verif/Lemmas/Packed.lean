import Verif.Lemmas.TableCheck

/-!
# Vectors packed into one number

Kernel checks of large matrices: a vector of integers is one number in a large base, so that a multiple of a vector is one product.
-/

namespace Composipy

/-- Digit `i` of `x` in base `b`. -/
def dig (b x i : ℕ) : ℕ := x / b ^ i % b

/-- The first `n` digits of `x` in base `b`, written in base `B`. -/
def spread (b B : ℕ) : ℕ → ℕ → ℕ
  | 0, _ => 0
  | n + 1, x => x % b + B * spread b B n (x / b)

/-- `1 + B + … + B^(n-1)`. -/
def repN (B : ℕ) : ℕ → ℕ
  | 0 => 0
  | n + 1 => 1 + B * repN B n

/-- The bits `q` to `k` of each of `n` digits in base `2^k`. -/
def maskN (q k : ℕ) : ℕ → ℕ
  | 0 => 0
  | n + 1 => (2 ^ k - 2 ^ q) + 2 ^ k * maskN q k n

/-- The number with the digits `f`. -/
def packF (B : ℤ) (n : ℕ) (f : ℕ → ℤ) : ℤ := ∑ j ∈ Finset.range n, f j * B ^ j

theorem packF_succ (B : ℤ) (n : ℕ) (f : ℕ → ℤ) : packF B (n + 1) f = f 0 + B * packF B n (fun j => f (j + 1)) := by
  rw [packF, packF, Finset.sum_range_succ', Finset.mul_sum, add_comm]
  congr 1
  · simp
  · exact Finset.sum_congr rfl fun j _ => by ring

theorem packF_add (B : ℤ) (n : ℕ) (f g : ℕ → ℤ) : packF B n (fun j => f j + g j) = packF B n f + packF B n g := by
  simp only [packF, add_mul, Finset.sum_add_distrib]

theorem packF_sub (B : ℤ) (n : ℕ) (f g : ℕ → ℤ) : packF B n (fun j => f j - g j) = packF B n f - packF B n g := by
  simp only [packF, sub_mul, Finset.sum_sub_distrib]

theorem packF_mul (B : ℤ) (n : ℕ) (c : ℤ) (f : ℕ → ℤ) : packF B n (fun j => c * f j) = c * packF B n f := by
  simp only [packF, Finset.mul_sum, mul_assoc]

theorem packF_sum {ι : Type} (B : ℤ) (n : ℕ) (s : Finset ι) (f : ι → ℕ → ℤ) :
    packF B n (fun j => ∑ k ∈ s, f k j) = ∑ k ∈ s, packF B n (f k) := by
  simp only [packF, Finset.sum_mul]
  exact Finset.sum_comm

theorem packF_congr {B : ℤ} {n : ℕ} {f g : ℕ → ℤ} (h : ∀ j < n, f j = g j) : packF B n f = packF B n g :=
  Finset.sum_congr rfl fun j hj => by rw [h j (Finset.mem_range.mp hj)]

theorem packF_single (B : ℤ) (n i : ℕ) (hi : i < n) (c : ℤ) : packF B n (fun j => if j = i then c else 0) = c * B ^ i := by
  rw [packF, Finset.sum_eq_single i]
  · simp
  · intro j _ hj; simp [hj]
  · intro h; exact absurd (Finset.mem_range.mpr hi) h

theorem packF_inj {B : ℤ} {n : ℕ} {f g : ℕ → ℤ} (hfg : ∀ j < n, |f j - g j| < B) (h : packF B n f = packF B n g) : ∀ j < n, f j = g j := by
  induction n generalizing f g with
  | zero => intro j hj; omega
  | succ n ih =>
    rw [packF_succ, packF_succ] at h
    have h1 := hfg 0 (by omega)
    have hB : 0 < B := lt_of_le_of_lt (by positivity) h1
    have h0 : f 0 = g 0 := by
      have hd : B ∣ f 0 - g 0 := ⟨packF B n (fun j => g (j + 1)) - packF B n (fun j => f (j + 1)), by linear_combination h⟩
      have := Int.eq_zero_of_abs_lt_dvd hd h1
      linarith
    rw [h0] at h
    have h' : packF B n (fun j => f (j + 1)) = packF B n (fun j => g (j + 1)) :=
      mul_left_cancel₀ hB.ne' (by linarith)
    intro j hj
    cases j with
    | zero => exact h0
    | succ j => exact ih (fun j hj => hfg (j + 1) (by omega)) h' j (by omega)

theorem dig_succ (b x j : ℕ) : dig b x (j + 1) = dig b (x / b) j := by
  rw [dig, dig, Nat.div_div_eq_div_mul, pow_succ']

theorem spread_eq (b B n x : ℕ) : (spread b B n x : ℤ) = packF B n (fun j => (dig b x j : ℤ)) := by
  induction n generalizing x with
  | zero => simp [spread, packF]
  | succ n ih =>
    rw [packF_succ, spread]
    push_cast
    rw [ih]
    simp only [dig_succ]
    simp [dig]

theorem repN_eq (B n : ℕ) : (repN B n : ℤ) = packF B n (fun _ => 1) := by
  induction n with
  | zero => simp [repN, packF]
  | succ n ih =>
    rw [packF_succ, repN]
    push_cast
    rw [ih]

theorem spread_self {B n V : ℕ} (h : V < B ^ n) : spread B B n V = V := by
  induction n generalizing V with
  | zero => simp at h; simp [spread, h]
  | succ n ih =>
    rw [spread, ih]
    · exact Nat.mod_add_div V B
    · rw [Nat.div_lt_iff_lt_mul (by rcases Nat.eq_zero_or_pos B with rfl | h' <;> simp_all)]
      rwa [← pow_succ]

theorem low_of_land {q k d : ℕ} (hq : q ≤ k) (hd : d < 2 ^ k) (h : d &&& (2 ^ k - 2 ^ q) = 0) : d < 2 ^ q := by
  obtain ⟨r, rfl⟩ := Nat.exists_eq_add_of_le hq
  have e : 2 ^ (q + r) - 2 ^ q = 2 ^ q * (2 ^ r - 1) := by rw [pow_add, Nat.mul_sub, mul_one]
  have h1 : (d &&& (2 ^ (q + r) - 2 ^ q)) / 2 ^ q = d / 2 ^ q := by
    rw [Nat.and_div_two_pow, e, Nat.mul_div_cancel_left _ (by positivity), Nat.and_two_pow_sub_one_eq_mod]
    exact Nat.mod_eq_of_lt (by rw [Nat.div_lt_iff_lt_mul (by positivity), mul_comm, ← pow_add]; exact hd)
  rw [h, Nat.zero_div] at h1
  exact (Nat.div_eq_zero_iff_lt (by positivity)).mp h1.symm

theorem dig_of_land {q k n V : ℕ} (hq : q ≤ k) (h : V &&& maskN q k n = 0) : ∀ j < n, dig (2 ^ k) V j < 2 ^ q := by
  induction n generalizing V with
  | zero => intro j hj; omega
  | succ n ih =>
    have hm : 2 ^ k - 2 ^ q < 2 ^ k := Nat.sub_lt (by positivity) (by positivity)
    intro j hj
    cases j with
    | zero =>
      refine low_of_land hq (by simpa [dig] using Nat.mod_lt V (by positivity)) ?_
      have h1 := congrArg (· % 2 ^ k) h
      simp only [Nat.and_mod_two_pow, maskN, Nat.add_mul_mod_self_left, Nat.mod_eq_of_lt hm, Nat.zero_mod] at h1
      simpa [dig] using h1
    | succ j =>
      rw [dig_succ]
      refine ih ?_ j (by omega)
      have h1 := congrArg (· / 2 ^ k) h
      simp only [Nat.and_div_two_pow, maskN, Nat.zero_div] at h1
      rwa [Nat.add_mul_div_left _ _ (by positivity), Nat.div_eq_of_lt hm, zero_add] at h1

/-- A number whose digits pass the mask is the pack of small digits. -/
theorem pack_of_land {q k n V : ℕ} (hq : q ≤ k) (hV : V < (2 ^ k) ^ n) (h : V &&& maskN q k n = 0) :
    (V : ℤ) = packF ((2 ^ k : ℕ) : ℤ) n (fun j => (dig (2 ^ k) V j : ℤ)) ∧ ∀ j < n, dig (2 ^ k) V j < 2 ^ q :=
  ⟨by rw [← spread_eq, spread_self hV], dig_of_land hq h⟩

end Composipy
