import Verif.Lemmas.PlateSizes
import Verif.Props.RoundedEnergy
import Verif.Props.RoundedLimit

/-!
# Multipliers of a given plate computed with doubles
-/

namespace Composipy
open Spec Matrix

/-- Relative error of an operation on doubles. Rounding to nearest is twice as accurate; `cos`, `sin` and `**` keep this one. -/
noncomputable def Spec.double : ℝ := 1 / 2 ^ 52

/-- Bound of the relative error of one entry of the plate matrix, as a rational number. -/
def roundK : ℚ := 14 / 2 ^ 52

/-- Bound of the relative error of one entry of the geometric matrix. -/
def roundG : ℚ := 9 / 2 ^ 52

theorem double_lt {u : ℝ} (hu : u ≤ double) : u < 1 := lt_of_le_of_lt hu (by norm_num [double])

theorem double_pow {u : ℝ} (hu : u ≤ double) : (1 / (1 - u)) ^ 13 - 1 ≤ (roundK : ℝ) ∧ (1 / (1 - u)) ^ 8 - 1 ≤ (roundG : ℝ) := by
  have h1 : 1 / (1 - u) ≤ 1 / (1 - double) := by
    apply one_div_le_one_div_of_le
    · norm_num [double]
    · linarith
  have h0 : 0 ≤ 1 / (1 - u) := by
    have := double_lt hu
    apply one_div_nonneg.mpr
    linarith
  constructor
  · have := pow_le_pow_left₀ h0 h1 13
    refine (sub_le_sub_right this 1).trans ?_
    norm_num [double, roundK]
  · have := pow_le_pow_left₀ h0 h1 8
    refine (sub_le_sub_right this 1).trans ?_
    norm_num [double, roundG]

/-- Check of the bounds for the roundings: the error of the plate matrix is at most `eta` times the energy, that of the geometric matrix at most `delta` times. -/
def IntPlate.roundOk (I : IntPlate) (den : ℕ) (C : Cert) (kap : ℕ) (dK : ℕ) (cK : Coef9) (mK : ℕ) (dG : ℕ) (cG : Coef9) (mG : ℕ) (eta delta : ℚ) : Bool :=
  I.small && Nat.ble (I.xs.length * I.ys.length * 2 ^ (C.q - 1) + kap + 1) C.sh &&
  coefOk ((101 / 100 : ℚ) • I.Dq) I.a I.b 0 0 0 1 dK cK && rowsOk cK I.xs I.ys mK &&
  coefOk 0 I.a I.b |I.Nxx| |I.Nyy| |I.Nxy| 1 dG cG && rowsOk cG I.xs I.ys mG &&
  decide (roundK * mK * den ≤ eta * kap * dK) && decide (roundG * mG * den ≤ delta * kap * dG) && Nat.ble 1 kap

/-- The largest multiplier that the bounds allow. -/
def highEnd (eta delta : ℚ) (x : ℚ × ℚ) : ℚ := (1 + eta) * x.2 / (1 - delta * x.2)

/-- The smallest multiplier that the bounds allow. -/
def lowEnd (eta delta : ℚ) (x : ℚ × ℚ) : ℚ := x.1 * (1 - eta - delta * highEnd eta delta x)

/-- Check of the ends. -/
def endsOk (eta delta : ℚ) (x : ℚ × ℚ) : Bool :=
  decide (0 < x.1) && decide (x.1 ≤ x.2) && decide (delta * x.2 < 1) && decide (eta + delta * highEnd eta delta x < 1)

theorem gMat_zero (a b : ℝ) (w : List (ℕ × ℕ)) (N : ℕ) (r c : Fin N) : gMat (RTables.sizes shippedV) a b ((0 : ℚ) : ℝ) ((0 : ℚ) : ℝ) ((0 : ℚ) : ℝ) w N r c = 0 := by
  simp [gMat, g33v]

theorem kMat_zero (a b : ℝ) (w : List (ℕ × ℕ)) (N : ℕ) (r c : Fin N) :
    kMat (RTables.sizes shippedV) a b ((0 : Matrix (Fin 3) (Fin 3) ℚ).map (↑)) w N r c = 0 := by
  simp [kMat, k33v]

/-- The multipliers of the computed matrices of a plate whose edges cannot deflect. -/
theorem IntPlate.double (I : IntPlate) (cs : Constraints) (s : ShapeIdx) (hs : computeIdx cs I.xs.length I.ys.length = .ok s) (hw : s.w = I.xs.product I.ys)
    (ha : 0 < I.a) (hb : 0 < I.b) (hm : 1 ≤ I.xs.length) (hn : 1 ≤ I.ys.length) (e : Edges) (he : chooseEdges cs = .ok e) (hh : EdgesHeld e)
    {den : ℕ} {c : Coef9} {C : Cert} (h0 : I.lowOk 0 den c C 0 = true) {kap dK mK dG mG : ℕ} {cK cG : Coef9} {eta2 delta : ℚ}
    (hr : I.roundOk den C kap dK cK mK dG cG mG eta2 delta = true) {mu M d eta1 : ℝ} (hD : Between I.D mu M) (hcond : bendErr I.num mu M < 1)
    (h1 : stiffErr I.num mu M d ≤ eta1) (heta10 : 0 ≤ eta1) (heta20 : 0 ≤ eta2) (hdel0 : 0 ≤ delta) {eta : ℚ} (heta : eta1 + eta2 ≤ eta) (heta1 : eta < 1)
    {brs : List (ℚ × ℚ)} (hbr : I.Brackets 0 brs) (hends : ∀ x ∈ brs, endsOk eta delta x = true) (F : FloatArith) (hu : F.u ≤ double)
    (D' : M3) (hd : ∀ i j, |D' i j - I.D i j| ≤ d) (hd1 : ∀ i j, 100 * d ≤ I.D i j) :
    ∃ K' KG', F.calcKKGD shipped (.ok D') cs I.num = .ok (K', KG') ∧ K'.PosDef ∧ KG'.IsSymm ∧
      ∀ i x, brs[i]? = some x → ∃ lam, IsKth K' KG' (i + 1) lam ∧ (lowEnd eta delta x : ℝ) ≤ lam ∧ lam ≤ highEnd eta delta x := by
  simp only [IntPlate.roundOk, Bool.and_eq_true, Nat.ble_eq, decide_eq_true_eq] at hr
  obtain ⟨⟨⟨⟨⟨⟨⟨⟨hI, hk⟩, hcK⟩, hrK⟩, hcG⟩, hrG⟩, hcmpK⟩, hcmpG⟩, hkap⟩ := hr
  have hlow := fun x => I.energy_low h0 (Nat.ble_eq.mpr hk) x
  have hden : (0 : ℝ) < den * (nineDen * nineDen) := by
    simp only [IntPlate.lowOk, Bool.and_eq_true] at h0
    exact coefOk_pos h0.1.1.2
  have hdK := coefOk_pos hcK
  have hdG := coefOk_pos hcG
  have hn2 : (0 : ℝ) < nineDen * nineDen := mul_pos nineDen_pos nineDen_pos
  have hdenp : (0 : ℝ) < den := pos_of_mul_pos_left hden hn2.le
  have hdKp : (0 : ℝ) < dK := pos_of_mul_pos_left hdK hn2.le
  have hdGp : (0 : ℝ) < dG := pos_of_mul_pos_left hdG hn2.le
  have hkp : (0 : ℝ) < kap := by exact_mod_cast hkap
  have haR : (0 : ℝ) < I.a := by exact_mod_cast ha
  have hbR : (0 : ℝ) < I.b := by exact_mod_cast hb
  have hK := I.built hI cs s hs hw ha.ne' hb.ne'
  have hu1 := double_lt hu
  obtain ⟨p13, p8⟩ := double_pow hu
  have hX : ∀ i j, |D' i j| ≤ ((101 / 100 : ℚ) • I.Dq).map ((↑) : ℚ → ℝ) i j := fun i j => by
    have e1 : ((101 / 100 : ℚ) • I.Dq).map ((↑) : ℚ → ℝ) i j = 101 / 100 * I.D i j := by
      simp [IntPlate.D, Matrix.smul_apply]
    have h2 := hd i j
    have h3 := hd1 i j
    have h4 := (abs_nonneg _).trans h2
    have h5 := abs_le.mp h2
    rw [e1, abs_le]
    constructor <;> linarith
  have hmK : ∀ r, ∑ c, kMat (RTables.sizes shippedV) I.a I.b (((101 / 100 : ℚ) • I.Dq).map (↑)) (I.xs.product I.ys) (I.xs.length * I.ys.length) r c
      ≤ mK / (dK * (nineDen * nineDen)) := fun r => by
    have h2 := I.rows hI hcK hrK r
    simp only [gMat_zero, add_zero] at h2
    rw [← Finset.sum_mul] at h2
    rw [le_div_iff₀ hdK]
    exact h2
  have hmG : ∀ r, ∑ c, gMat (RTables.sizes shippedV) I.a I.b |(I.Nxx : ℝ)| |(I.Nyy : ℝ)| |(I.Nxy : ℝ)| (I.xs.product I.ys) (I.xs.length * I.ys.length) r c
      ≤ mG / (dG * (nineDen * nineDen)) := fun r => by
    have h2 := I.rows hI hcG hrG r
    simp only [kMat_zero, zero_add] at h2
    rw [← Finset.sum_mul] at h2
    rw [le_div_iff₀ hdG]
    push_cast at h2
    exact h2
  rw [← hw] at hmK hmG
  have hcK' : (roundK : ℝ) * mK * den ≤ eta2 * kap * dK := by exact_mod_cast hcmpK
  have hcG' : (roundG : ℝ) * mG * den ≤ delta * kap * dG := by exact_mod_cast hcmpG
  have heta20' : (0 : ℝ) ≤ eta2 := by exact_mod_cast heta20
  have hdel0' : (0 : ℝ) ≤ delta := by exact_mod_cast hdel0
  have heta1' : (eta : ℝ) < 1 := by exact_mod_cast heta1
  have hK2 : (roundK : ℝ) * (mK / (dK * (nineDen * nineDen))) ≤ eta2 * (kap / (den * (nineDen * nineDen))) := by
    rw [← mul_div_assoc, ← mul_div_assoc, div_le_div_iff₀ hdK hden]
    have := mul_le_mul_of_nonneg_right hcK' hn2.le
    linarith
  have hG2 : (roundG : ℝ) * (mG / (dG * (nineDen * nineDen))) ≤ delta * (kap / (den * (nineDen * nineDen))) := by
    rw [← mul_div_assoc, ← mul_div_assoc, div_le_div_iff₀ hdG hden]
    have := mul_le_mul_of_nonneg_right hcG' hn2.le
    linarith
  have hkapR : (0 : ℝ) < kap / (den * (nineDen * nineDen)) := div_pos hkp hden
  have hKs : (0 : ℝ) ≤ mK / (dK * (nineDen * nineDen)) := by positivity
  have hGs : (0 : ℝ) ≤ mG / (dG * (nineDen * nineDen)) := by positivity
  obtain ⟨K', KG', h', pd', sG', hall⟩ := C121_multipliers F hu1 I.D D' (((101 / 100 : ℚ) • I.Dq).map (↑)) mu M d hD hd hX cs I.num haR hbR hm hn e he hh hcond I.K I.KG hK s hs
    (kap / (den * (nineDen * nineDen))) (mK / (dK * (nineDen * nineDen))) (mG / (dG * (nineDen * nineDen))) eta delta hkapR
    (fun x => by
      have := hlow x
      rw [div_mul_eq_mul_div, div_le_iff₀ hden]
      exact this) hmK hmG (by
      have a1 := mul_le_mul_of_nonneg_right h1 hkapR.le
      have a2 := mul_le_mul_of_nonneg_right p13 hKs
      have a3 := mul_le_mul_of_nonneg_right heta hkapR.le
      linarith) ((mul_le_mul_of_nonneg_right p8 hGs).trans hG2) (by linarith) heta1' hdel0'
  refine ⟨K', KG', h', pd', sG', fun i x hx => ?_⟩
  have hsym := C48_symmetric _ _ I.num hm hn I.K I.KG hK
  have hpd : I.K.PosDef := by
    simp only [IntPlate.lowOk, Bool.and_eq_true, Nat.ble_eq] at h0
    obtain ⟨⟨⟨_, hc⟩, hC⟩, h4⟩ := h0
    exact I.posDef hI hsym.1 hc hC (List.eq_nil_of_length_eq_zero (by omega))
  obtain ⟨e1, e2⟩ := hbr i x hx
  rw [Nat.zero_add] at e1 e2
  have hlo := e1 hpd hsym.2
  have hhi := e2 hpd hsym.2
  have hen := hends x (List.mem_of_getElem? hx)
  simp only [endsOk, Bool.and_eq_true, decide_eq_true_eq] at hen
  obtain ⟨⟨⟨x0, x1⟩, x2⟩, x3⟩ := hen
  have x0' : (0 : ℝ) < x.1 := by exact_mod_cast x0
  have x2' : (delta : ℝ) * x.2 < 1 := by exact_mod_cast x2
  have x3' : (eta : ℝ) + delta * highEnd eta delta x < 1 := by exact_mod_cast x3
  have bracket : ∀ lam, IsKth I.K I.KG (i + 1) lam → (x.1 : ℝ) ≤ lam ∧ lam ≤ x.2 := fun lam hl => by
    refine ⟨?_, hl.2 hhi⟩
    by_contra hle
    push Not at hle
    have e4 : i + 1 ≤ numModes I.K I.KG lam := hl.1
    have e5 := numModes_le_of_le (K := I.K) (KG := I.KG) hle.le
    omega
  obtain ⟨lam, hl, -, -⟩ := exists_kth hpd hsym.2 (Nat.succ_le_succ (Nat.zero_le i)) hhi
  obtain ⟨b1, b2⟩ := bracket lam hl
  have heta0 : (0 : ℝ) ≤ eta := by linarith
  obtain ⟨up, down⟩ := hall (i + 1) (by omega)
  have hdl : (delta : ℝ) * lam ≤ delta * x.2 := mul_le_mul_of_nonneg_left b2 hdel0'
  obtain ⟨lam', hl', hle⟩ := up lam hl (by linarith)
  have hH : (highEnd eta delta x : ℝ) = (1 + eta) * x.2 / (1 - delta * x.2) := by
    unfold highEnd; push_cast; ring
  have hup : lam' ≤ highEnd eta delta x := by
    rw [hH, le_div_iff₀ (by linarith)]
    have hp1 : 0 ≤ lam' := by
      by_contra hno
      push Not at hno
      obtain ⟨l, hle', hpl, -⟩ := numModes_jump pd' sG' ((Nat.succ_le_succ (Nat.zero_le i)).trans hl'.1)
      exact absurd (hpl.1.trans_le hle') (by linarith)
    have a1 := mul_le_mul_of_nonneg_left (show 1 - (delta : ℝ) * x.2 ≤ 1 - delta * lam by linarith) hp1
    have a2 := mul_le_mul_of_nonneg_left b2 (show (0 : ℝ) ≤ 1 + eta by linarith)
    linarith
  refine ⟨lam', hl', ?_, hup⟩
  have hdl' : (delta : ℝ) * lam' ≤ delta * highEnd eta delta x := mul_le_mul_of_nonneg_left hup hdel0'
  obtain ⟨lam2, hl2, hle2⟩ := down lam' hl' (by linarith)
  obtain ⟨b3, -⟩ := bracket lam2 hl2
  have hL : (lowEnd eta delta x : ℝ) = x.1 * (1 - eta - delta * highEnd eta delta x) := by
    unfold lowEnd; push_cast; ring
  rw [hL]
  have a1 := mul_le_mul_of_nonneg_right b3 (show (0 : ℝ) ≤ 1 - eta - delta * highEnd eta delta x by linarith)
  have a2 := mul_le_mul_of_nonneg_left (show 1 - (eta : ℝ) - delta * highEnd eta delta x ≤ 1 - eta - delta * lam' by linarith) (show (0 : ℝ) ≤ lam2 by linarith)
  linarith

end Composipy
