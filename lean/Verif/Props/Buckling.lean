import Verif.Model.Buckling
import Verif.Props.Coupled
import Verif.Lemmas.Pencil

/-!
# C53, C54: buckling multipliers
-/

namespace Composipy
open Polynomial Spec

/-! ## Contract of the eigensolver -/

/-- What `eigsh(A, k, M=M, which='SM', sigma=1, mode='cayley')` promises: `k` eigenpairs of `A x = w M x`, and
no eigenvalue left out has a smaller `|(w + 1)/(w - 1)|` than a returned one (written without division). -/
structure Spec.EigshOut {N : ℕ} (A M : SqMat N) (k : ℕ) (out : List (ℝ × (Fin N → ℝ))) : Prop where
  len : out.length = k
  pair : ∀ q ∈ out, q.2 ≠ 0 ∧ A.mulVec q.2 = q.1 • M.mulVec q.2
  best : ∀ w v, v ≠ 0 → A.mulVec v = w • M.mulVec v → (∀ q ∈ out, q.1 ≠ w) →
    ∀ q ∈ out, |q.1 + 1| * |w - 1| ≤ |w + 1| * |q.1 - 1|

/-- The solver keeps its contract on the matrices of this plate. -/
def Spec.Honest (S : EigSolver) {N : ℕ} (A M : SqMat N) : Prop :=
  ∀ k out, S N A M k = .ok out → EigshOut A M k out

/-- The pairs come in order of increasing `|(w + 1)/(w - 1)|`. -/
def Spec.CayleySorted {N : ℕ} (out : List (ℝ × (Fin N → ℝ))) : Prop :=
  out.Pairwise fun q q' => |q.1 + 1| * |q'.1 - 1| ≤ |q'.1 + 1| * |q.1 - 1|

/-- The contract can be met: for symmetric `A` and positive definite `M`, `k ≤ N`, there is an output keeping it. -/
theorem exists_eigshOut {N : ℕ} {A M : SqMat N} (hA : A.IsSymm) (hM : M.PosDef) (k : ℕ) (hk : k ≤ N) :
    ∃ out, EigshOut A M k out ∧ CayleySorted out := by
  obtain ⟨w, x, hp, hall⟩ := exists_eigenpairs hA hM
  let le : ℝ × (Fin N → ℝ) → ℝ × (Fin N → ℝ) → Prop := fun p q => cayKey p.1 ≤ cayKey q.1
  let L := (List.ofFn fun j => (w j, x j)).insertionSort le
  have hL : L.Pairwise le := List.pairwise_insertionSort le _
  have hmem : ∀ q, q ∈ L ↔ ∃ j, (w j, x j) = q := fun q => by
    rw [List.mem_insertionSort, List.mem_ofFn]
  have hlen : L.length = N := by rw [List.length_insertionSort, List.length_ofFn]
  refine ⟨L.take k, ⟨by rw [List.length_take, hlen, min_eq_left hk], ?_, ?_⟩, (hL.sublist (List.take_sublist k L)).imp fun h => cayKey_le.mp h⟩
  · intro q hq
    obtain ⟨j, rfl⟩ := (hmem q).mp (List.mem_of_mem_take hq)
    exact hp j
  · intro t v hv h hno q hq
    obtain ⟨j, hj⟩ := hall t v hv h
    have hjL : (w j, x j) ∈ L := (hmem _).mpr ⟨j, rfl⟩
    rw [← List.take_append_drop k L] at hL hjL
    rcases List.mem_append.mp hjL with h1 | h1
    · exact absurd hj (hno _ h1)
    · have := (List.pairwise_append.mp hL).2.2 q hq _ h1
      rw [← hj]
      exact cayKey_le.mp this

/-- A solver that keeps the contract on every symmetric-definite pencil exists. -/
theorem exists_honest : ∃ S : EigSolver, ∀ (N : ℕ) (A M : SqMat N), A.IsSymm → M.PosDef →
    Honest S A M ∧ (∀ k out, S N A M k = .ok out → CayleySorted out) ∧ ∀ k ≤ N, ∃ out, S N A M k = .ok out := by
  classical
  let S : EigSolver := fun N A M k =>
    if h : ∃ out, EigshOut A M k out ∧ CayleySorted out then .ok h.choose else .error .valueError
  refine ⟨S, fun N A M hA hM => ⟨fun k out h => ?_, fun k out h => ?_, fun k hk => ?_⟩⟩
  · by_cases he : ∃ out, EigshOut A M k out ∧ CayleySorted out
    · simp only [S, dif_pos he] at h
      rw [← Except.ok.inj h]
      exact he.choose_spec.1
    · simp only [S, dif_neg he] at h
      cases h
  · by_cases he : ∃ out, EigshOut A M k out ∧ CayleySorted out
    · simp only [S, dif_pos he] at h
      rw [← Except.ok.inj h]
      exact he.choose_spec.2
    · simp only [S, dif_neg he] at h
      cases h
  · have he := exists_eigshOut hA hM k hk
    exact ⟨he.choose, by simp only [S, dif_pos he]⟩

/-! ## C53 -/

/-- What a successful `buckling_analysis` did. -/
theorem buckling_inv {S : EigSolver} {D : Except PyErr M3} {c : Constraints} {p : PlateNum} {numEig : ℤ}
    {st : PlateState (p.m * p.n)} {vals : List PyFloat} {vecs : List (Fin (p.m * p.n) → ℝ)}
    (h : (bucklingAnalysis S D c p numEig st).1 = .ok (vals, vecs)) :
    ∃ s K KG out, computeIdx c p.m p.n = .ok s ∧ calcKKGD shipped D c p = .ok (K, KG) ∧
      0 < min numEig ((p.m * p.n : ℕ) - 2 : ℤ) ∧
      S _ KG K (min numEig ((p.m * p.n : ℕ) - 2 : ℤ)).toNat = .ok out ∧
      vals = out.map (fun q => npDiv (-1) q.1) ∧ vecs = out.map Prod.snd ∧
      (bucklingAnalysis S D c p numEig st).2 = ⟨some s, some (vals, vecs)⟩ := by
  unfold bucklingAnalysis at h ⊢
  cases D with
  | error e => simp at h
  | ok M =>
  cases hs : computeIdx c p.m p.n with
  | error e => simp [hs] at h
  | ok s =>
  cases hK : calcKKGD shipped (.ok M) c p with
  | error e => simp [hs, hK] at h
  | ok KK =>
  obtain ⟨K, KG⟩ := KK
  by_cases hk : min numEig ((p.m * p.n : ℕ) - 2 : ℤ) ≤ 0
  · simp only [hs, hK, eigshCall, if_pos hk] at h; cases h
  · cases hS : S _ KG K (min numEig ((p.m * p.n : ℕ) - 2 : ℤ)).toNat with
    | error e => simp only [hs, hK, eigshCall, if_neg hk, hS] at h; cases h
    | ok out =>
      simp only [hs, hK, eigshCall, if_neg hk, hS] at h ⊢
      cases h
      exact ⟨s, K, KG, out, rfl, rfl, not_le.mp hk, hS, rfl, rfl, rfl⟩

/-- **C53** every reported finite multiplier with its vector solves the buckling equation of the matrices of
`calc_K_KG_D`; the number of pairs is `min(num_eigvalues, m*n - 2)`; the pairs are stored in the object. -/
theorem C53_solves (S : EigSolver) (D : Except PyErr M3) (c : Constraints) (p : PlateNum) (numEig : ℤ)
    (st : PlateState (p.m * p.n)) (vals : List PyFloat) (vecs : List (Fin (p.m * p.n) → ℝ))
    (h : (bucklingAnalysis S D c p numEig st).1 = .ok (vals, vecs))
    (hS : ∀ K KG, calcKKGD shipped D c p = .ok (K, KG) → Honest S KG K) :
    ∃ K KG, calcKKGD shipped D c p = .ok (K, KG) ∧
      (vals.length : ℤ) = min numEig (p.m * p.n - 2) ∧ vecs.length = vals.length ∧
      (∀ (i : ℕ) (lam : ℝ) v, vals[i]? = some (.fin lam) → vecs[i]? = some v → Buckles K KG lam v ∧ lam ≠ 0) ∧
      (∀ (i : ℕ) (x : PyFloat) v, vals[i]? = some x → vecs[i]? = some v → (∀ r, x ≠ .fin r) → x = .ninf ∧ KG.mulVec v = 0) ∧
      (bucklingAnalysis S D c p numEig st).2.eig = some (vals, vecs) := by
  obtain ⟨s, K, KG, out, hs, hK, hk, hout, rfl, rfl, hst⟩ := buckling_inv h
  have hc := hS K KG hK _ _ hout
  refine ⟨K, KG, hK, ?_, by simp, ?_, ?_, by rw [hst]⟩
  · rw [List.length_map, hc.len, Int.toNat_of_nonneg hk.le]
    push_cast
    rfl
  · intro i lam v hi hv
    simp only [List.getElem?_map, Option.map_eq_some_iff] at hi hv
    obtain ⟨q, hq, hlam⟩ := hi
    obtain ⟨q', hq', rfl⟩ := hv
    obtain rfl : q = q' := by rw [hq] at hq'; exact Option.some.inj hq'
    obtain ⟨hne, hp⟩ := hc.pair q (List.mem_of_getElem? hq)
    unfold npDiv at hlam
    by_cases h0 : q.1 = 0
    · rw [if_pos h0] at hlam
      norm_num at hlam
      cases hlam
    · rw [if_neg h0] at hlam
      obtain rfl := (XF.fin.inj hlam)
      refine ⟨⟨hne, ?_⟩, div_ne_zero (by norm_num) h0⟩
      rw [Matrix.add_mulVec, Matrix.smul_mulVec, hp, smul_smul, div_mul_cancel₀ _ h0]
      simp
  · intro i x v hi hv hx
    simp only [List.getElem?_map, Option.map_eq_some_iff] at hi hv
    obtain ⟨q, hq, hlam⟩ := hi
    obtain ⟨q', hq', rfl⟩ := hv
    obtain rfl : q = q' := by rw [hq] at hq'; exact Option.some.inj hq'
    obtain ⟨hne, hp⟩ := hc.pair q (List.mem_of_getElem? hq)
    unfold npDiv at hlam
    by_cases h0 : q.1 = 0
    · rw [if_pos h0] at hlam
      refine ⟨?_, by rw [hp, h0, zero_smul]⟩
      rw [← hlam]
      norm_num
    · rw [if_neg h0] at hlam
      exact absurd hlam.symm (hx _)

/-- **C53** at most two shapes (`m*n ≤ 2`), or a request for no eigenvalue, is refused with `ValueError`. -/
theorem C53_refused (S : EigSolver) (D : Except PyErr M3) (c : Constraints) (p : PlateNum) (numEig : ℤ)
    (st : PlateState (p.m * p.n)) (hK : ∃ K, calcKKGD shipped D c p = .ok K) (h : p.m * p.n ≤ 2 ∨ numEig ≤ 0) :
    (bucklingAnalysis S D c p numEig st).1 = .error .valueError := by
  obtain ⟨⟨K, KG⟩, hK⟩ := hK
  cases D with
  | error e => simp [calcKKGD] at hK
  | ok M =>
  cases hs : computeIdx c p.m p.n with
  | error e => simp [calcKKGD, constraintQuads_eq, hs] at hK
  | ok s =>
    have hk : min numEig ((p.m * p.n : ℕ) - 2 : ℤ) ≤ 0 := by
      rcases h with h | h
      · exact (min_le_right _ _).trans (by omega)
      · exact (min_le_left _ _).trans h
    simp only [bucklingAnalysis, hs, hK, eigshCall, if_pos hk]

/-- **C53** a failing call leaves previously stored eigenpairs in the object. -/
theorem C53_failure_keeps (S : EigSolver) (D : Except PyErr M3) (c : Constraints) (p : PlateNum) (numEig : ℤ)
    (st : PlateState (p.m * p.n)) (e : PyErr) (h : (bucklingAnalysis S D c p numEig st).1 = .error e) :
    (bucklingAnalysis S D c p numEig st).2.eig = st.eig := by
  unfold bucklingAnalysis at h ⊢
  cases D with
  | error e => rfl
  | ok M =>
  cases hs : computeIdx c p.m p.n with
  | error e => rfl
  | ok s =>
  cases hK : calcKKGD shipped (.ok M) c p with
  | error e => simp only [hs, hK] at h ⊢
  | ok KK =>
  obtain ⟨K, KG⟩ := KK
  cases hE : eigshCall S KG K (min numEig ((p.m * p.n : ℕ) - 2 : ℤ)) with
  | error e => simp only [hs, hK, hE] at h ⊢
  | ok out => simp only [hs, hK, hE] at h; cases h

/-! ## C54 -/

/-- `lam` is a positive buckling multiplier. -/
def Spec.PosMult {N : ℕ} (K KG : SqMat N) (lam : ℝ) : Prop := 0 < lam ∧ ∃ v, Buckles K KG lam v

theorem buckles_pencil {N : ℕ} {K KG : SqMat N} {lam : ℝ} {v : Fin N → ℝ} (hl : lam ≠ 0) :
    Buckles K KG lam v ↔ v ≠ 0 ∧ KG.mulVec v = (-1 / lam) • K.mulVec v := by
  unfold Buckles
  refine and_congr_right fun _ => ?_
  rw [Matrix.add_mulVec, Matrix.smul_mulVec]
  constructor
  · intro h
    have h' : KG.mulVec v = lam⁻¹ • (lam • KG.mulVec v) := by rw [smul_smul, inv_mul_cancel₀ hl, one_smul]
    rw [h', eq_neg_of_add_eq_zero_right h, smul_neg, ← neg_smul]
    congr 1
    rw [neg_div, one_div]
  · intro h
    rw [h, smul_smul, mul_div_cancel₀ _ hl]
    simp

/-- `|(w+1)/(w-1)|` in terms of the multiplier. -/
theorem cayley_key {lam : ℝ} (h : lam ≠ 0) : |(-1 / lam) + 1| * |lam| = |lam - 1| ∧ |(-1 / lam) - 1| * |lam| = |lam + 1| := by
  constructor
  · rw [← abs_mul]
    congr 1
    field_simp
    ring
  · rw [← abs_mul, ← abs_neg]
    congr 1
    field_simp
    ring

/-- Multipliers of the reported pairs, and nothing else, are reported. -/
theorem reported_iff {N : ℕ} {out : List (ℝ × (Fin N → ℝ))} {lam : ℝ} :
    XF.fin lam ∈ out.map (fun q => npDiv (-1) q.1) ↔ lam ≠ 0 ∧ ∃ q ∈ out, q.1 = -1 / lam := by
  simp only [List.mem_map, npDiv]
  constructor
  · rintro ⟨q, hq, h⟩
    by_cases h0 : q.1 = 0
    · rw [if_pos h0] at h; norm_num at h; cases h
    · rw [if_neg h0] at h
      have h := XF.fin.inj h
      refine ⟨by rw [← h]; exact div_ne_zero (by norm_num) h0, q, hq, ?_⟩
      rw [← h]; field_simp
  · rintro ⟨hl, q, hq, h⟩
    refine ⟨q, hq, ?_⟩
    rw [if_neg (by rw [h]; exact div_ne_zero (by norm_num) hl), h]
    congr 1
    field_simp

/-- **C54** (partial: the claim without the hypothesis `1 ≤ lam0` fails, see `C54_small_multiplier_missed`)
if the smallest positive multiplier is at least 1 then it is among the reported values, and no reported positive
value is smaller. -/
theorem C54_critical_reported_partial (S : EigSolver) (D : Except PyErr M3) (c : Constraints) (p : PlateNum) (numEig : ℤ)
    (st : PlateState (p.m * p.n)) (vals : List PyFloat) (vecs : List (Fin (p.m * p.n) → ℝ))
    (h : (bucklingAnalysis S D c p numEig st).1 = .ok (vals, vecs))
    (K KG : SqMat (p.m * p.n)) (hK : calcKKGD shipped D c p = .ok (K, KG)) (hS : Honest S KG K)
    (lam0 : ℝ) (h0 : PosMult K KG lam0) (hmin : ∀ lam, PosMult K KG lam → lam0 ≤ lam) (h1 : 1 ≤ lam0) :
    XF.fin lam0 ∈ vals ∧ ∀ lam, 0 < lam → XF.fin lam ∈ vals → lam0 ≤ lam := by
  obtain ⟨s, K', KG', out, hs, hK', hk, hout, rfl, rfl, hst⟩ := buckling_inv h
  rw [hK] at hK'
  obtain ⟨rfl, rfl⟩ := Prod.mk.inj (Except.ok.inj hK')
  have hc := hS _ _ hout
  obtain ⟨hpos, v0, hv0⟩ := h0
  have hne := hpos.ne'
  constructor
  · rw [reported_iff]
    refine ⟨hne, ?_⟩
    by_contra hno
    push Not at hno
    obtain ⟨hv, hp⟩ := (buckles_pencil hne).mp hv0
    have hlen : 0 < out.length := by rw [hc.len]; omega
    obtain ⟨q, hq⟩ := List.exists_mem_of_length_pos hlen
    have hb := hc.best _ v0 hv hp hno q hq
    obtain ⟨hqv, hqp⟩ := hc.pair q hq
    obtain ⟨k1, k2⟩ := cayley_key hne
    -- multiply by lam0
    have hb' : |q.1 + 1| * |lam0 + 1| ≤ |lam0 - 1| * |q.1 - 1| := by
      rw [← k1, ← k2]
      have := mul_le_mul_of_nonneg_right hb (abs_nonneg lam0)
      nlinarith [this]
    rw [abs_of_pos (by linarith : 0 < lam0 + 1), abs_of_nonneg (by linarith : 0 ≤ lam0 - 1)] at hb'
    by_cases hq0 : q.1 = 0
    · rw [hq0] at hb'; norm_num at hb'; linarith
    · set mu := -1 / q.1 with hmu
      have hmu0 : mu ≠ 0 := div_ne_zero (by norm_num) hq0
      have hq1 : q.1 = -1 / mu := by rw [hmu]; field_simp
      obtain ⟨m1, m2⟩ := cayley_key hmu0
      have hb2 : |mu - 1| * (lam0 + 1) ≤ (lam0 - 1) * |mu + 1| := by
        rw [← m1, ← m2, ← hq1]
        have := mul_le_mul_of_nonneg_right hb' (abs_nonneg mu)
        nlinarith [this]
      have hbk : Buckles K KG mu q.2 := (buckles_pencil hmu0).mpr ⟨hqv, by rw [← hq1]; exact hqp⟩
      rcases lt_or_gt_of_ne hmu0 with hneg | hposmu
      · -- negative multiplier
        have e1 : |mu - 1| = 1 - mu := by rw [abs_of_neg (by linarith)]; ring
        have e2 : |mu + 1| ≤ 1 - mu := abs_le.mpr ⟨by linarith, by linarith⟩
        rw [e1] at hb2
        have := mul_le_mul_of_nonneg_left e2 (by linarith : 0 ≤ lam0 - 1)
        nlinarith
      · have hge := hmin mu ⟨hposmu, q.2, hbk⟩
        have hne' : mu ≠ lam0 := fun h => hno q hq (by rw [hq1, h])
        have hgt : lam0 < mu := lt_of_le_of_ne hge (Ne.symm hne')
        rw [abs_of_nonneg (by linarith : 0 ≤ mu - 1), abs_of_pos (by linarith : 0 < mu + 1)] at hb2
        nlinarith
  · intro lam hlam hmem
    obtain ⟨hl, q, hq, hq1⟩ := reported_iff.mp hmem
    obtain ⟨hqv, hqp⟩ := hc.pair q hq
    exact hmin lam ⟨hlam, q.2, (buckles_pencil hl).mpr ⟨hqv, by rw [← hq1]; exact hqp⟩⟩

/-- **C54** refuted in general: if 1 is a multiplier and a smaller positive one exists, then asking for one eigenvalue
reports exactly the value 1, whatever solver keeps the contract. -/
theorem C54_small_multiplier_missed (S : EigSolver) (D : Except PyErr M3) (c : Constraints) (p : PlateNum)
    (st : PlateState (p.m * p.n)) (vals : List PyFloat) (vecs : List (Fin (p.m * p.n) → ℝ))
    (h : (bucklingAnalysis S D c p 1 st).1 = .ok (vals, vecs))
    (K KG : SqMat (p.m * p.n)) (hK : calcKKGD shipped D c p = .ok (K, KG)) (hS : Honest S KG K)
    (h1 : PosMult K KG 1) : vals = [.fin 1] := by
  obtain ⟨s, K', KG', out, hs, hK', hk, hout, rfl, rfl, hst⟩ := buckling_inv h
  rw [hK] at hK'
  obtain ⟨rfl, rfl⟩ := Prod.mk.inj (Except.ok.inj hK')
  have hc := hS _ _ hout
  have hlen : out.length = 1 := by
    rw [hc.len]; omega
  obtain ⟨q, rfl⟩ := List.length_eq_one_iff.mp hlen
  obtain ⟨-, v, hv⟩ := h1
  obtain ⟨hv0, hp⟩ := (buckles_pencil one_ne_zero).mp hv
  have hq1 : q.1 = -1 := by
    by_contra hne
    have := hc.best (-1) v hv0 (by simpa using hp) (by simpa using hne) q (by simp)
    norm_num at this
    have hq : q.1 + 1 = 0 := abs_eq_zero.mp (le_antisymm (by linarith) (abs_nonneg _))
    exact hne (by linarith)
  simp [npDiv, hq1]

/-- **C54** refuted for every number of requested values: if more than `num_eigvalues` distinct multipliers lie in
`[lam0, 1]` (an overloaded plate), then the multiplier `lam0` is not reported. -/
theorem C54_overloaded_missed (S : EigSolver) (D : Except PyErr M3) (c : Constraints) (p : PlateNum) (numEig : ℤ)
    (st : PlateState (p.m * p.n)) (vals : List PyFloat) (vecs : List (Fin (p.m * p.n) → ℝ))
    (h : (bucklingAnalysis S D c p numEig st).1 = .ok (vals, vecs))
    (K KG : SqMat (p.m * p.n)) (hK : calcKKGD shipped D c p = .ok (K, KG)) (hS : Honest S KG K)
    (F : Finset ℝ) (lam0 : ℝ) (h0 : lam0 ∈ F) (hF : ∀ lam ∈ F, PosMult K KG lam ∧ lam0 ≤ lam ∧ lam ≤ 1)
    (hcard : min numEig (p.m * p.n - 2) < F.card) : XF.fin lam0 ∉ vals := by
  obtain ⟨s, K', KG', out, hs, hK', hk, hout, rfl, rfl, hst⟩ := buckling_inv h
  rw [hK] at hK'
  obtain ⟨rfl, rfl⟩ := Prod.mk.inj (Except.ok.inj hK')
  have hc := hS _ _ hout
  intro hmem
  obtain ⟨hl0, q, hq, hq1⟩ := reported_iff.mp hmem
  -- some multiplier of F is not reported
  have hex : ∃ lam ∈ F, ∀ q ∈ out, q.1 ≠ -1 / lam := by
    by_contra hno
    push Not at hno
    have hsub : F.image (fun lam => -1 / lam) ⊆ (out.map Prod.fst).toFinset := by
      intro x hx
      obtain ⟨lam, hlam, rfl⟩ := Finset.mem_image.mp hx
      obtain ⟨q, hq, he⟩ := hno lam hlam
      exact List.mem_toFinset.mpr (List.mem_map.mpr ⟨q, hq, he⟩)
    have h1 := Finset.card_le_card hsub
    rw [Finset.card_image_of_injOn] at h1
    · have h2 := (out.map Prod.fst).toFinset_card_le
      rw [List.length_map, hc.len] at h2
      push_cast at hk h2
      omega
    · intro x hx y hy hxy
      have hx0 := (hF x hx).1.1.ne'
      have hy0 := (hF y hy).1.1.ne'
      simp only at hxy
      field_simp at hxy
      linarith
  obtain ⟨lam, hlam, hun⟩ := hex
  obtain ⟨⟨hpos, v, hv⟩, hge, hle⟩ := hF lam hlam
  obtain ⟨hv0, hp⟩ := (buckles_pencil hpos.ne').mp hv
  have hb := hc.best _ v hv0 hp hun q hq
  have hne : lam ≠ lam0 := fun hh => hun q hq (by rw [hq1, hh])
  have hgt : lam0 < lam := lt_of_le_of_ne hge (Ne.symm hne)
  have h0pos : 0 < lam0 := (hF lam0 h0).1.1
  obtain ⟨k1, k2⟩ := cayley_key hpos.ne'
  obtain ⟨m1, m2⟩ := cayley_key hl0
  rw [hq1] at hb
  have hb2 : |lam0 - 1| * |lam + 1| ≤ |lam - 1| * |lam0 + 1| := by
    rw [← k1, ← k2, ← m1, ← m2]
    have := mul_le_mul_of_nonneg_right hb (mul_nonneg (abs_nonneg lam) (abs_nonneg lam0))
    nlinarith [this]
  rw [abs_of_nonpos (by linarith : lam0 - 1 ≤ 0), abs_of_nonpos (by linarith : lam - 1 ≤ 0),
    abs_of_pos (by linarith : 0 < lam + 1), abs_of_pos (by linarith : 0 < lam0 + 1)] at hb2
  nlinarith

/-! ### A concrete overloaded plate -/

theorem pint_coeffs {P : ℝ[X]} (c : ℕ → ℝ) (n : ℕ) (h : ∀ x, P.eval x = ∑ i ∈ Finset.range n, c i * x ^ i) :
    pint P = ∑ i ∈ Finset.range n, c i * (if i % 2 = 0 then 2 / ((i : ℝ) + 1) else 0) := by
  have : P = ∑ i ∈ Finset.range n, C (c i) * X ^ i := by
    refine Polynomial.funext fun x => ?_
    rw [h, eval_finsetSum]
    simp
  rw [this]
  clear h this
  induction n with
  | zero => simp [pint]
  | succ n ih => rw [Finset.sum_range_succ, Finset.sum_range_succ, pint_add, pint_mono, ih]

/-- Value, first and second derivative of shapes 4 and 5. -/
theorem eval45 (x : ℝ) :
    (shape 4).eval x = 1 / 8 * x ^ 4 - 1 / 4 * x ^ 2 + 1 / 8 ∧
    (derivative (shape 4)).eval x = 1 / 2 * x ^ 3 - 1 / 2 * x ∧
    (derivative (derivative (shape 4))).eval x = 3 / 2 * x ^ 2 - 1 / 2 ∧
    (shape 5).eval x = 1 / 8 * x ^ 5 - 1 / 4 * x ^ 3 + 1 / 8 * x ∧
    (derivative (shape 5)).eval x = 5 / 8 * x ^ 4 - 3 / 4 * x ^ 2 + 1 / 8 ∧
    (derivative (derivative (shape 5))).eval x = 5 / 2 * x ^ 3 - 3 / 2 * x := by
  rw [shape4, shape5]
  refine ⟨?_, ?_, ?_, ?_, ?_, ?_⟩ <;>
  simp only [derivative_add, derivative_sub, derivative_mul, derivative_X_pow, derivative_X, derivative_C, eval_add, eval_sub,
    eval_mul, eval_pow, eval_X, eval_C, derivative_one, eval_one, eval_zero, derivative_zero] <;> norm_num <;> ring

theorem int_coeffs {P Q : ℝ[X]} (l : List ℝ)
    (h : ∀ x, P.eval x * Q.eval x = ∑ i ∈ Finset.range l.length, l.getD i 0 * x ^ i) :
    ∫ x in (-1 : ℝ)..1, P.eval x * Q.eval x =
      ∑ i ∈ Finset.range l.length, l.getD i 0 * (if i % 2 = 0 then 2 / ((i : ℝ) + 1) else 0) := by
  rw [← pint_coeffs (P := P * Q) (fun i => l.getD i 0) l.length (fun x => by rw [eval_mul, h])]
  simp only [pint, eval_mul]

/-- The exact integrals needed for a clamped plate with two shapes in each direction. -/
theorem tables45 :
    exactV.ff 4 4 = 4 / 315 ∧ exactV.ff 5 5 = 4 / 3465 ∧ exactV.ff 4 5 = 0 ∧ exactV.ff 5 4 = 0 ∧
    exactV.fxi_fxi 4 4 = 4 / 105 ∧ exactV.fxi_fxi 5 5 = 4 / 315 ∧ exactV.fxi_fxi 4 5 = 0 ∧ exactV.fxi_fxi 5 4 = 0 ∧
    exactV.fxixi_fxixi 4 4 = 2 / 5 ∧ exactV.fxixi_fxixi 5 5 = 2 / 7 ∧ exactV.fxixi_fxixi 4 5 = 0 ∧
    exactV.fxixi_fxixi 5 4 = 0 := by
  refine ⟨?_, ?_, ?_, ?_, ?_, ?_, ?_, ?_, ?_, ?_, ?_, ?_⟩
  · refine (int_coeffs [1 / 64, 0, -1 / 16, 0, 3 / 32, 0, -1 / 16, 0, 1 / 64] fun x => ?_).trans ?_
    · obtain ⟨h1, h2, h3, h4, h5, h6⟩ := eval45 x
      simp only [h1, h2, h3, h4, h5, h6, List.length_cons, List.length_nil, Finset.sum_range_succ, Finset.sum_range_zero, List.getD_cons_succ, List.getD_cons_zero]
      ring
    · norm_num [Finset.sum_range_succ]
  · refine (int_coeffs [0, 0, 1 / 64, 0, -1 / 16, 0, 3 / 32, 0, -1 / 16, 0, 1 / 64] fun x => ?_).trans ?_
    · obtain ⟨h1, h2, h3, h4, h5, h6⟩ := eval45 x
      simp only [h1, h2, h3, h4, h5, h6, List.length_cons, List.length_nil, Finset.sum_range_succ, Finset.sum_range_zero, List.getD_cons_succ, List.getD_cons_zero]
      ring
    · norm_num [Finset.sum_range_succ]
  · refine (int_coeffs [0, 1 / 64, 0, -1 / 16, 0, 3 / 32, 0, -1 / 16, 0, 1 / 64] fun x => ?_).trans ?_
    · obtain ⟨h1, h2, h3, h4, h5, h6⟩ := eval45 x
      simp only [h1, h2, h3, h4, h5, h6, List.length_cons, List.length_nil, Finset.sum_range_succ, Finset.sum_range_zero, List.getD_cons_succ, List.getD_cons_zero]
      ring
    · norm_num [Finset.sum_range_succ]
  · refine (int_coeffs [0, 1 / 64, 0, -1 / 16, 0, 3 / 32, 0, -1 / 16, 0, 1 / 64] fun x => ?_).trans ?_
    · obtain ⟨h1, h2, h3, h4, h5, h6⟩ := eval45 x
      simp only [h1, h2, h3, h4, h5, h6, List.length_cons, List.length_nil, Finset.sum_range_succ, Finset.sum_range_zero, List.getD_cons_succ, List.getD_cons_zero]
      ring
    · norm_num [Finset.sum_range_succ]
  · refine (int_coeffs [0, 0, 1 / 4, 0, -1 / 2, 0, 1 / 4] fun x => ?_).trans ?_
    · obtain ⟨h1, h2, h3, h4, h5, h6⟩ := eval45 x
      simp only [h1, h2, h3, h4, h5, h6, List.length_cons, List.length_nil, Finset.sum_range_succ, Finset.sum_range_zero, List.getD_cons_succ, List.getD_cons_zero]
      ring
    · norm_num [Finset.sum_range_succ]
  · refine (int_coeffs [1 / 64, 0, -3 / 16, 0, 23 / 32, 0, -15 / 16, 0, 25 / 64] fun x => ?_).trans ?_
    · obtain ⟨h1, h2, h3, h4, h5, h6⟩ := eval45 x
      simp only [h1, h2, h3, h4, h5, h6, List.length_cons, List.length_nil, Finset.sum_range_succ, Finset.sum_range_zero, List.getD_cons_succ, List.getD_cons_zero]
      ring
    · norm_num [Finset.sum_range_succ]
  · refine (int_coeffs [0, -1 / 16, 0, 7 / 16, 0, -11 / 16, 0, 5 / 16] fun x => ?_).trans ?_
    · obtain ⟨h1, h2, h3, h4, h5, h6⟩ := eval45 x
      simp only [h1, h2, h3, h4, h5, h6, List.length_cons, List.length_nil, Finset.sum_range_succ, Finset.sum_range_zero, List.getD_cons_succ, List.getD_cons_zero]
      ring
    · norm_num [Finset.sum_range_succ]
  · refine (int_coeffs [0, -1 / 16, 0, 7 / 16, 0, -11 / 16, 0, 5 / 16] fun x => ?_).trans ?_
    · obtain ⟨h1, h2, h3, h4, h5, h6⟩ := eval45 x
      simp only [h1, h2, h3, h4, h5, h6, List.length_cons, List.length_nil, Finset.sum_range_succ, Finset.sum_range_zero, List.getD_cons_succ, List.getD_cons_zero]
      ring
    · norm_num [Finset.sum_range_succ]
  · refine (int_coeffs [1 / 4, 0, -3 / 2, 0, 9 / 4] fun x => ?_).trans ?_
    · obtain ⟨h1, h2, h3, h4, h5, h6⟩ := eval45 x
      simp only [h1, h2, h3, h4, h5, h6, List.length_cons, List.length_nil, Finset.sum_range_succ, Finset.sum_range_zero, List.getD_cons_succ, List.getD_cons_zero]
      ring
    · norm_num [Finset.sum_range_succ]
  · refine (int_coeffs [0, 0, 9 / 4, 0, -15 / 2, 0, 25 / 4] fun x => ?_).trans ?_
    · obtain ⟨h1, h2, h3, h4, h5, h6⟩ := eval45 x
      simp only [h1, h2, h3, h4, h5, h6, List.length_cons, List.length_nil, Finset.sum_range_succ, Finset.sum_range_zero, List.getD_cons_succ, List.getD_cons_zero]
      ring
    · norm_num [Finset.sum_range_succ]
  · refine (int_coeffs [0, 3 / 4, 0, -7 / 2, 0, 15 / 4] fun x => ?_).trans ?_
    · obtain ⟨h1, h2, h3, h4, h5, h6⟩ := eval45 x
      simp only [h1, h2, h3, h4, h5, h6, List.length_cons, List.length_nil, Finset.sum_range_succ, Finset.sum_range_zero, List.getD_cons_succ, List.getD_cons_zero]
      ring
    · norm_num [Finset.sum_range_succ]
  · refine (int_coeffs [0, 3 / 4, 0, -7 / 2, 0, 15 / 4] fun x => ?_).trans ?_
    · obtain ⟨h1, h2, h3, h4, h5, h6⟩ := eval45 x
      simp only [h1, h2, h3, h4, h5, h6, List.length_cons, List.length_nil, Finset.sum_range_succ, Finset.sum_range_zero, List.getD_cons_succ, List.getD_cons_zero]
      ring
    · norm_num [Finset.sum_range_succ]

/-- A clamped square plate with two shapes per direction under compression `t`. -/
noncomputable def demoPlate (t : ℝ) : PlateNum := ⟨1, 1, -t, 0, 0, 2, 2⟩

/-- Its bending matrix: `D11 = D22 = d`, `D66 = e`, the rest 0. -/
noncomputable def demoD (d e : ℝ) : M3 := Matrix.diagonal ![d, d, e]

/-- Its buckling loads. -/
noncomputable def demoLoads (d e : ℝ) (r : Fin (2 * 2)) : ℝ := d * ![84, 372, 1116 / 11, 180] r + e * ![48, 176, 48, 176] r

/-- Diagonal of its geometric matrix under unit load. -/
noncomputable def demoG : Fin (2 * 2) → ℝ := ![16 / 33075, 16 / 363825, 16 / 99225, 16 / 1091475]

theorem demoG_pos (r : Fin (2 * 2)) : 0 < demoG r := by
  fin_cases r <;> norm_num [demoG]

/-- Both matrices are diagonal, so the multipliers are the buckling loads divided by `t`. -/
theorem demo_matrices (d e t : ℝ) (hd : 0 < d) (he : 0 < e) (ht : 0 < t) : ∃ K KG : SqMat (2 * 2),
    calcKKGD shipped (.ok (demoD d e)) (.str wCLAMPED) (demoPlate t) = .ok (K, KG) ∧ K.PosDef ∧ KG.IsSymm ∧
    (∀ lam, PosMult K KG lam ↔ ∃ r, lam = demoLoads d e r / t) ∧ (∀ lam v, Buckles K KG lam v → 0 < lam) ∧
    ∀ v, KG.mulVec v = 0 → v = 0 := by
  obtain ⟨s, hs, hw⟩ := clamped_idx 2 2
  have hw' : s.w = [(4, 4), (4, 5), (5, 4), (5, 5)] := by rw [hw]; rfl
  have hK := calcKKGD_ok shipped_exact (demoD d e) (.str wCLAMPED) (demoPlate t) s hs one_ne_zero one_ne_zero (by
    rw [hw']; simp)
  obtain ⟨t1, t2, t3, t4, t5, t6, t7, t8, t9, t10, t11, t12⟩ := tables45
  have o1 : demoD d e 0 0 = d := by simp [demoD]
  have o2 : demoD d e 1 0 = 0 := by simp [demoD]
  have o3 : demoD d e 1 1 = d := by simp [demoD]
  have o4 : demoD d e 2 0 = 0 := by simp [demoD]
  have o5 : demoD d e 2 1 = 0 := by simp [demoD]
  have o6 : demoD d e 2 2 = e := by simp [demoD]
  have hdK : kMat exactV 1 1 (demoD d e) s.w (2 * 2) = Matrix.diagonal fun r => demoLoads d e r * demoG r := by
    ext r c
    simp only [kMat, Matrix.of_apply, hw']
    fin_cases r <;> fin_cases c <;>
      norm_num [k33v, o1, o2, o3, o4, o5, o6, demoLoads, demoG, t1, t2, t3, t4, t5, t6, t7, t8, t9, t10, t11, t12, Matrix.diagonal_apply] <;>
      first | ring | skip
  have hdG : gMat exactV 1 1 (-t) 0 0 s.w (2 * 2) = Matrix.diagonal fun r => -t * demoG r := by
    ext r c
    simp only [gMat, Matrix.of_apply, hw']
    fin_cases r <;> fin_cases c <;>
      norm_num [g33v, demoG, t1, t2, t3, t4, t5, t6, t7, t8, t9, t10, t11, t12, Matrix.diagonal_apply]
  have hL : ∀ r, 0 < demoLoads d e r := fun r => by fin_cases r <;> norm_num [demoLoads] <;> positivity
  have key : ∀ (lam : ℝ) (v : Fin (2 * 2) → ℝ), ((Matrix.diagonal fun r => demoLoads d e r * demoG r) +
      lam • Matrix.diagonal fun r => -t * demoG r).mulVec v = fun r => (demoLoads d e r - lam * t) * demoG r * v r := by
    intro lam v
    funext r
    rw [Matrix.add_mulVec, Matrix.smul_mulVec, Pi.add_apply, Pi.smul_apply, Matrix.mulVec_diagonal, Matrix.mulVec_diagonal]
    simp only [smul_eq_mul]
    ring
  have lam_eq : ∀ (lam : ℝ) (v : Fin (2 * 2) → ℝ), Buckles (kMat exactV 1 1 (demoD d e) s.w (2 * 2))
      (gMat exactV 1 1 (-t) 0 0 s.w (2 * 2)) lam v → ∃ r, lam = demoLoads d e r / t := by
    rintro lam v ⟨hv, h⟩
    rw [hdK, hdG] at h
    obtain ⟨r, hr⟩ := Function.ne_iff.mp hv
    rw [key] at h
    have h1 := congrFun h r
    simp only [Pi.zero_apply, mul_eq_zero] at h1
    rcases h1 with (h1 | h1) | h1
    · exact ⟨r, by rw [eq_div_iff ht.ne']; linarith⟩
    · exact absurd h1 (demoG_pos r).ne'
    · exact absurd h1 hr
  refine ⟨kMat exactV 1 1 (demoD d e) s.w (2 * 2), gMat exactV 1 1 (-t) 0 0 s.w (2 * 2), hK, ?_, ?_, ?_, ?_, ?_⟩
  · rw [hdK]
    exact Matrix.PosDef.diagonal fun r => mul_pos (hL r) (demoG_pos r)
  · rw [hdG]
    exact Matrix.diagonal_transpose _
  · intro lam
    constructor
    · rintro ⟨hpos, v, h⟩
      exact lam_eq lam v h
    · rintro ⟨r, rfl⟩
      rw [hdK, hdG]
      refine ⟨div_pos (hL r) ht, Pi.single r 1, by simp, ?_⟩
      rw [key]
      funext i
      by_cases hi : i = r
      · subst hi
        rw [div_mul_cancel₀ _ ht.ne']
        simp
      · simp [hi]
  · intro lam v h
    obtain ⟨r, rfl⟩ := lam_eq lam v h
    exact div_pos (hL r) ht
  · intro v h
    rw [hdG] at h
    funext r
    have h1 := congrFun h r
    rw [Matrix.mulVec_diagonal] at h1
    have h2 : -t * demoG r ≠ 0 := mul_ne_zero (neg_ne_zero.mpr ht.ne') (demoG_pos r).ne'
    simpa [h2, ht.ne', (demoG_pos r).ne'] using h1

/-- For this plate a solver keeping its contract makes `buckling_analysis()` succeed. -/
theorem demo_runs (d e t : ℝ) (K KG : SqMat (2 * 2))
    (hK : calcKKGD shipped (.ok (demoD d e)) (.str wCLAMPED) (demoPlate t) = .ok (K, KG)) (hpd : K.PosDef) (hsym : KG.IsSymm) :
    ∃ S : EigSolver, Honest S KG K ∧
      ∃ vals vecs, (bucklingAnalysis S (.ok (demoD d e)) (.str wCLAMPED) (demoPlate t) 5 (.fresh _)).1 = .ok (vals, vecs) := by
  obtain ⟨S, hS⟩ := exists_honest
  obtain ⟨h1, -, h2⟩ := hS _ KG K hsym hpd
  obtain ⟨out, hout⟩ := h2 2 (by norm_num)
  obtain ⟨s, hs, -⟩ := clamped_idx 2 2
  have hs' : computeIdx (.str wCLAMPED) (demoPlate t).m (demoPlate t).n = .ok s := hs
  have hk : min (5 : ℤ) (((demoPlate t).m * (demoPlate t).n : ℕ) - 2 : ℤ) = 2 := by norm_num [demoPlate]
  have hb : (bucklingAnalysis S (.ok (demoD d e)) (.str wCLAMPED) (demoPlate t) 5 (.fresh _)).1 =
      .ok (out.map fun q => npDiv (-1) q.1, out.map Prod.snd) := by
    have hout' : S ((demoPlate t).m * (demoPlate t).n) KG K 2 = .ok out := hout
    unfold bucklingAnalysis
    simp only [hs', hK, hk, eigshCall]
    rw [if_neg (by norm_num), show (2 : ℤ).toNat = 2 from rfl, hout']
    rfl
  exact ⟨S, h1, _, _, hb⟩

/-- **C54** refuted with default arguments: on a clamped square plate that carries less than its load, every solver keeping
its contract makes `buckling_analysis()` omit the critical multiplier. -/
theorem C54_false : ∃ (D : M3) (p : PlateNum) (lam0 : ℝ) (K KG : SqMat (p.m * p.n)), D.PosDef ∧
    calcKKGD shipped (.ok D) (.str wCLAMPED) p = .ok (K, KG) ∧ PosMult K KG lam0 ∧ (∀ lam, PosMult K KG lam → lam0 ≤ lam) ∧
    (∃ S : EigSolver, Honest S KG K ∧ ∃ r, (bucklingAnalysis S (.ok D) (.str wCLAMPED) p 5 (.fresh _)).1 = .ok r) ∧
    ∀ S : EigSolver, Honest S KG K → ∀ st vals vecs,
      (bucklingAnalysis S (.ok D) (.str wCLAMPED) p 5 st).1 = .ok (vals, vecs) → XF.fin lam0 ∉ vals := by
  obtain ⟨K, KG, hK, hpd, hsym, hm, -⟩ := demo_matrices 1 1 548 one_pos one_pos (by norm_num)
  refine ⟨demoD 1 1, demoPlate 548, 132 / 548, K, KG, ?_, hK, (hm _).mpr ⟨0, by norm_num [demoLoads]⟩, ?_, ?_, ?_⟩
  · exact Matrix.PosDef.diagonal fun i => by fin_cases i <;> simp
  · intro lam h
    obtain ⟨r, rfl⟩ := (hm lam).mp h
    fin_cases r <;> norm_num [demoLoads]
  · obtain ⟨S, h1, vals, vecs, h⟩ := demo_runs 1 1 548 K KG hK hpd hsym
    exact ⟨S, h1, _, h⟩
  · intro S hS st vals vecs h
    refine C54_overloaded_missed S _ _ _ _ st vals vecs h K KG hK hS {132 / 548, 548 / 548, 356 / 548} _ (by simp) ?_ ?_
    · intro lam hlam
      simp only [Finset.mem_insert, Finset.mem_singleton] at hlam
      rcases hlam with rfl | rfl | rfl
      · exact ⟨(hm _).mpr ⟨0, by norm_num [demoLoads]⟩, le_rfl, by norm_num⟩
      · exact ⟨(hm _).mpr ⟨1, by norm_num [demoLoads]⟩, by norm_num, by norm_num⟩
      · exact ⟨(hm _).mpr ⟨3, by rw [show demoLoads 1 1 3 = 1 * 180 + 1 * 176 from rfl]; norm_num⟩, by norm_num, by norm_num⟩
    · have : ({132 / 548, 548 / 548, 356 / 548} : Finset ℝ).card = 3 := by
        rw [Finset.card_insert_of_notMem, Finset.card_insert_of_notMem, Finset.card_singleton] <;> norm_num
      rw [this]
      norm_num [demoPlate]

/-- Non-vacuity of C53 and of the partial C54: under unit load the critical multiplier of the same plate is 132, and
`buckling_analysis()` reports it. -/
example : ∃ (S : EigSolver) (vals : List PyFloat) (vecs : List (Fin (2 * 2) → ℝ)),
    (bucklingAnalysis S (.ok (demoD 1 1)) (.str wCLAMPED) (demoPlate 1) 5 (.fresh _)).1 = .ok (vals, vecs) ∧
      vals.length = 2 ∧ XF.fin 132 ∈ vals ∧ ∀ lam, 0 < lam → XF.fin lam ∈ vals → 132 ≤ lam := by
  obtain ⟨K, KG, hK, hpd, hsym, hm, -⟩ := demo_matrices 1 1 1 one_pos one_pos one_pos
  obtain ⟨S, h1, vals, vecs, h⟩ := demo_runs 1 1 1 K KG hK hpd hsym
  obtain ⟨-, -, -, hlen, -⟩ := C53_solves S _ _ _ _ _ vals vecs h (fun K' KG' h' => by
    rw [hK] at h'
    obtain ⟨rfl, rfl⟩ := Prod.mk.inj (Except.ok.inj h')
    exact h1)
  refine ⟨S, vals, vecs, h, ?_, C54_critical_reported_partial S _ _ _ _ _ vals vecs h K KG hK h1 132 ?_ ?_ (by norm_num)⟩
  · norm_num [demoPlate] at hlen
    exact_mod_cast hlen
  · exact (hm _).mpr ⟨0, by norm_num [demoLoads]⟩
  · intro lam hl
    obtain ⟨r, rfl⟩ := (hm lam).mp hl
    fin_cases r <;> norm_num [demoLoads]

end Composipy
