import Verif.Gen.DocSsss
import Verif.Gen.DocCccc
import Verif.Gen.DocSsfs
import Verif.Gen.DocShear
import Verif.Gen.DocKasP
import Verif.Gen.DocKasC
import Verif.Gen.DocKasF
import Verif.Gen.DocOpt
import Verif.Gen.DocTestP
import Verif.Gen.DocTestC

/-!
# C118: the multipliers printed in the notebooks

The notebooks under `doc/notebooks` show what `buckling_analysis` printed for eight plates. The theorems below say that for every solver that
keeps the contract of `eigsh` the values reported in exact arithmetic round to the printed ones, all five of them where five are printed. The
numbers come from certificates that Lean's kernel checks: a sum of squares for each lower bound and vectors of negative energy for each upper
bound.
-/

namespace Composipy
open Spec Matrix

/-- The values reported for a plate agree with the printed ones, in order, to within `half`; and with some solver that keeps the contract the
call with the default number of values returns. -/
def Spec.Documents (D : Except PyErr M3) (cs : Constraints) (p : PlateNum) (printed : List ℝ) (half : ℝ) : Prop :=
  ∃ K KG, calcKKGD shipped D cs p = .ok (K, KG) ∧ K.PosDef ∧ KG.IsSymm ∧
    (∀ S : EigSolver, (∀ k out, S _ KG K k = .ok out → EigshFull KG K k out ∧ CayleySorted out) → ∀ numEig st vals vecs,
      (bucklingAnalysis S D cs p numEig st).1 = .ok (vals, vecs) → (vals.length : ℤ) = min numEig ((p.m * p.n : ℕ) - 2) ∧
      ∀ i v d, vals[i]? = some v → printed[i]? = some d → ∃ lam, v = .fin lam ∧ IsKth K KG (i + 1) lam ∧ |lam - d| ≤ half) ∧
    ∃ S : EigSolver, (∀ k out, S _ KG K k = .ok out → EigshFull KG K k out ∧ CayleySorted out) ∧
      ∃ vals vecs, (bucklingAnalysis S D cs p 5 (PlateState.fresh _)).1 = .ok (vals, vecs)

theorem forall₂_some {α β : Type} {R : α → β → Prop} {l : List α} {r : List β} (h : List.Forall₂ R l r) (i : ℕ) (a : α) (ha : l[i]? = some a) :
    ∃ b, r[i]? = some b ∧ R a b := by
  induction h generalizing i with
  | nil => simp at ha
  | cons h _ ih =>
    cases i with
    | zero => exact ⟨_, rfl, by rw [List.getElem?_cons_zero] at ha; rw [← Option.some.inj ha]; exact h⟩
    | succ i => rw [List.getElem?_cons_succ] at ha; obtain ⟨b, e1, e2⟩ := ih i ha; exact ⟨b, by rw [List.getElem?_cons_succ]; exact e1, e2⟩

theorem documents_of (I : IntPlate) (cs : Constraints) (p : PlateNum) (hp : p = I.num) {i : ShapeIdx}
    (hs : computeIdx cs I.xs.length I.ys.length = .ok i) (hw : i.w = I.xs.product I.ys) (ha : I.a ≠ 0) (hb : I.b ≠ 0) (hmn : 7 ≤ p.m * p.n)
    {den : ℕ} {c : Coef9} {C : Cert} (h0 : I.lowOk 0 den c C 0 = true) {brs : List (ℚ × ℚ)} (hbr : I.Brackets 0 brs)
    (h1 : ∃ x, brs[0]? = some x ∧ 1 ≤ x.1) {D : Except PyErr M3} (hD : D = .ok (I.Dq.map (↑))) {printed : List ℝ} {half : ℝ}
    (hpr : List.Forall₂ (fun (d : ℝ) (x : ℚ × ℚ) => d - half ≤ x.1 ∧ (x.2 : ℝ) ≤ d + half) printed brs) : Documents D cs p printed half := by
  subst hD
  have hmn' : 7 ≤ I.xs.length * I.ys.length := by rw [hp] at hmn; exact hmn
  have hm : 1 ≤ I.xs.length := Nat.pos_of_ne_zero fun h => by rw [h] at hmn'; omega
  have hn : 1 ≤ I.ys.length := Nat.pos_of_ne_zero fun h => by rw [h] at hmn'; omega
  obtain ⟨K, KG, hK, hpd, hsym, h⟩ := I.reported cs p hp i hs hw ha hb hm hn h0 brs hbr h1
  refine ⟨K, KG, hK, hpd, hsym, fun S hS numEig st vals vecs hrun => ?_, ?_⟩
  · obtain ⟨h2, h3⟩ := h S hS numEig st vals vecs hrun
    refine ⟨h2, fun i v d hv hd => ?_⟩
    obtain ⟨x, hx, hlo, hhi⟩ := forall₂_some hpr i d hd
    obtain ⟨lam, e1, e2, e3, e4⟩ := h3 i v x hv hx
    refine ⟨lam, e1, e2, abs_le.mpr ⟨?_, ?_⟩⟩ <;> linarith
  · obtain ⟨S, hS⟩ := exists_full
    obtain ⟨e1, e2⟩ := hS _ KG K hsym hpd
    obtain ⟨out, hout⟩ := e2 5 (by omega)
    refine ⟨S, e1, out.map (fun q => npDiv (-1) q.1), out.map Prod.snd, ?_⟩
    have hs' : computeIdx cs p.m p.n = .ok i := by rw [hp]; exact hs
    have hmin : min (5 : ℤ) ((p.m * p.n : ℕ) - 2) = 5 := by omega
    rw [show (I.Dq.map (↑) : M3) = I.D from rfl]
    have hc : eigshCall S KG K 5 = .ok out := by
      rw [eigshCall, if_neg (by norm_num)]
      exact hout
    unfold bucklingAnalysis
    simp only [hs', hK, hmin]
    rw [hc]

theorem studyStack_built : ∃ l, Lam.init (.angles [45, -45, 45, -45, 0, 0, 90, 90, 90, 90, 0, 0, -45, 45, -45, 45])
    (.single (Spec.realMat (mat 137900 11700 (31/100) 4820 (1524/10000)))) = .ok l ∧ l.D = .ok ((exactD studyStack).map (↑)) := by
  obtain ⟨l, hl, hs, hlay⟩ := (C101_built [1, -1, 1, -1, 0, 0, 2, 2, 2, 2, 0, 0, -1, 1, -1, 1] (mat 137900 11700 (31/100) 4820 (1524/10000)) []).1
  refine ⟨l, ?_, ((C101_stiffness l hs studyStack hlay).1 (by decide +kernel)).2.2⟩
  rw [← hl]; norm_num

/-- **C118** `Critical_buckling_varying_BCs.ipynb`, `panel_SSSS`  [doc/notebooks/Critical_buckling_varying_BCs.ipynb:80-104] -/
theorem C118_ssss : ∃ l, Lam.init (.angles [45, -45, 0, 90, 45, -45, 0, 90, 45, -45, -45, 45, 90, 0, -45, 45, 90, 0, -45, 45])
      (.single (Spec.realMat (mat 60800 58250 (7/100) 4550 (21/100)))) = .ok l ∧
    Documents l.D (.str wPINNED) ⟨360, 360, -1, 0, 0, 10, 10⟩
      [97.04915682, 144.47730786, 246.83882036, 388.19669784, 393.21258067] 5e-9 := by
  obtain ⟨l, hl, hD⟩ := testBuckling_built
  refine ⟨l, hl, documents_of ssssPlate _ _ (by simp [IntPlate.num, ssssPlate]) rfl rfl (by decide) (by decide) (by norm_num) ssssZero_ok ssss_brackets
    ⟨_, rfl, by norm_num⟩ hD ?_⟩
  exact .cons ⟨by norm_num, by norm_num⟩ <| .cons ⟨by norm_num, by norm_num⟩ <| .cons ⟨by norm_num, by norm_num⟩ <| .cons ⟨by norm_num, by norm_num⟩ <| .cons ⟨by norm_num, by norm_num⟩ <| .nil

/-- **C118** `panel_CCCC`  [doc/notebooks/Critical_buckling_varying_BCs.ipynb:147-159] -/
theorem C118_cccc : ∃ l, Lam.init (.angles [45, -45, 0, 90, 45, -45, 0, 90, 45, -45, -45, 45, 90, 0, -45, 45, 90, 0, -45, 45])
      (.single (Spec.realMat (mat 60800 58250 (7/100) 4550 (21/100)))) = .ok l ∧
    Documents l.D (.str wCLAMPED) ⟨360, 540, 0, -1, -1, 10, 10⟩
      [138.79310181, 146.27293322, 214.40196835, 235.95368935, 345.90300267] 5e-9 := by
  obtain ⟨l, hl, hD⟩ := testBuckling_built
  refine ⟨l, hl, documents_of ccccPlate _ _ (by simp [IntPlate.num, ccccPlate]) rfl rfl (by decide) (by decide) (by norm_num) ccccZero_ok cccc_brackets
    ⟨_, rfl, by norm_num⟩ hD ?_⟩
  exact .cons ⟨by norm_num, by norm_num⟩ <| .cons ⟨by norm_num, by norm_num⟩ <| .cons ⟨by norm_num, by norm_num⟩ <| .cons ⟨by norm_num, by norm_num⟩ <| .cons ⟨by norm_num, by norm_num⟩ <| .nil

/-- **C118** `panel_SSFS`  [doc/notebooks/Critical_buckling_varying_BCs.ipynb:404-423] -/
theorem C118_ssfs : ∃ l, Lam.init (.angles [45, -45, 0, 90, 45, -45, 0, 90, 45, -45, -45, 45, 90, 0, -45, 45, 90, 0, -45, 45])
      (.single (Spec.realMat (mat 60800 58250 (7/100) 4550 (21/100)))) = .ok l ∧
    Documents l.D (.dict (some (.word wPinned)) (some (.word wPinned)) (some (.word wFree)) (some (.word wPinned))) ⟨540, 360, -1, 0, 0, 10, 10⟩
      [20.12080055, 47.13886913, 92.5739614, 156.53663617, 185.19779529] 5e-9 := by
  obtain ⟨l, hl, hD⟩ := testBuckling_built
  refine ⟨l, hl, documents_of ssfsPlate _ _ (by simp [IntPlate.num, ssfsPlate]) rfl rfl (by decide) (by decide) (by norm_num) ssfsZero_ok ssfs_brackets
    ⟨_, rfl, by norm_num⟩ hD ?_⟩
  exact .cons ⟨by norm_num, by norm_num⟩ <| .cons ⟨by norm_num, by norm_num⟩ <| .cons ⟨by norm_num, by norm_num⟩ <| .cons ⟨by norm_num, by norm_num⟩ <| .cons ⟨by norm_num, by norm_num⟩ <| .nil

/-- **C118** `panel_CCCC_nxy`  [doc/notebooks/Critical_buckling_varying_BCs.ipynb:668-680] -/
theorem C118_shear : ∃ l, Lam.init (.angles [45, -45, 0, 90, 45, -45, 0, 90, 45, -45, -45, 45, 90, 0, -45, 45, 90, 0, -45, 45])
      (.single (Spec.realMat (mat 60800 58250 (7/100) 4550 (21/100)))) = .ok l ∧
    Documents l.D (.str wCLAMPED) ⟨360, 360, 0, 0, -1, 10, 10⟩
      [338.84283307, 389.26571459, 776.82143839, 824.28455938, 882.94931083] 5e-9 := by
  obtain ⟨l, hl, hD⟩ := testBuckling_built
  refine ⟨l, hl, documents_of shearPlate _ _ (by simp [IntPlate.num, shearPlate]) rfl rfl (by decide) (by decide) (by norm_num) shearZero_ok shear_brackets
    ⟨_, rfl, by norm_num⟩ hD ?_⟩
  exact .cons ⟨by norm_num, by norm_num⟩ <| .cons ⟨by norm_num, by norm_num⟩ <| .cons ⟨by norm_num, by norm_num⟩ <| .cons ⟨by norm_num, by norm_num⟩ <| .cons ⟨by norm_num, by norm_num⟩ <| .nil

/-- **C118** the pinned plate of `Critical_buckling_verification_study.ipynb`  [doc/notebooks/Critical_buckling_verification_study.ipynb:57-94] -/
theorem C118_kasP : ∃ l, Lam.init (.angles [45, -45, 45, -45, 0, 0, 90, 90, 90, 90, 0, 0, -45, 45, -45, 45])
      (.single (Spec.realMat (mat 137900 11700 (31/100) 4820 (1524/10000)))) = .ok l ∧
    Documents l.D (.str wPINNED) ⟨100, 100, -1, -1/2, 0, 7, 7⟩
      [225.9] 0.05 := by
  obtain ⟨l, hl, hD⟩ := studyStack_built
  refine ⟨l, hl, documents_of kasPPlate _ _ (by simp [IntPlate.num, kasPPlate]) rfl rfl (by decide) (by decide) (by norm_num) kasPZero_ok kasP_brackets
    ⟨_, rfl, by norm_num⟩ hD ?_⟩
  exact .cons ⟨by norm_num, by norm_num⟩ <| .nil

/-- **C118** the clamped plate  [doc/notebooks/Critical_buckling_verification_study.ipynb:123-142] -/
theorem C118_kasC : ∃ l, Lam.init (.angles [45, -45, 45, -45, 0, 0, 90, 90, 90, 90, 0, 0, -45, 45, -45, 45])
      (.single (Spec.realMat (mat 137900 11700 (31/100) 4820 (1524/10000)))) = .ok l ∧
    Documents l.D (.str wCLAMPED) ⟨100, 100, -1, -1/2, 0, 7, 7⟩
      [495.0] 0.05 := by
  obtain ⟨l, hl, hD⟩ := studyStack_built
  refine ⟨l, hl, documents_of kasCPlate _ _ (by simp [IntPlate.num, kasCPlate]) rfl rfl (by decide) (by decide) (by norm_num) kasCZero_ok kasC_brackets
    ⟨_, rfl, by norm_num⟩ hD ?_⟩
  exact .cons ⟨by norm_num, by norm_num⟩ <| .nil

/-- **C118** the plate with a free edge and the default number of terms  [doc/notebooks/Critical_buckling_verification_study.ipynb:163-187] -/
theorem C118_kasF : ∃ l, Lam.init (.angles [45, -45, 45, -45, 0, 0, 90, 90, 90, 90, 0, 0, -45, 45, -45, 45])
      (.single (Spec.realMat (mat 137900 11700 (31/100) 4820 (1524/10000)))) = .ok l ∧
    Documents l.D (.dict (some (.flags pinnedFlags)) (some (.flags pinnedFlags)) (some (.flags [])) (some (.flags pinnedFlags))) ⟨100, 100, -1, -1/2, 0, 10, 10⟩
      [89.6] 0.05 := by
  obtain ⟨l, hl, hD⟩ := studyStack_built
  refine ⟨l, hl, documents_of kasFPlate _ _ (by simp [IntPlate.num, kasFPlate]) rfl rfl (by decide) (by decide) (by norm_num) kasFZero_ok kasF_brackets
    ⟨_, rfl, by norm_num⟩ hD ?_⟩
  exact .cons ⟨by norm_num, by norm_num⟩ <| .nil

/-- **C118** the plate of `Optimization_buckling.ipynb`  [doc/notebooks/Optimization_buckling.ipynb:27-80] -/
theorem C118_opt : ∃ l, Lam.init (.angles [45, -45, 0, 90, 45, -45, 0, 90, 45, -45, -45, 45, 90, 0, -45, 45, 90, 0, -45, 45])
      (.single (Spec.realMat (mat 60800 58250 (7/100) 4550 (21/100)))) = .ok l ∧
    Documents l.D (.dict (some (.flags pinnedFlags)) (some (.flags pinnedFlags)) (some (.flags [])) (some (.flags pinnedFlags))) ⟨360, 360, -1, -1/2, 1/2, 7, 7⟩
      [26.6] 0.05 := by
  obtain ⟨l, hl, hD⟩ := testBuckling_built
  refine ⟨l, hl, documents_of optPlate _ _ (by simp [IntPlate.num, optPlate]) rfl rfl (by decide) (by decide) (by norm_num) optZero_ok opt_brackets
    ⟨_, rfl, by norm_num⟩ hD ?_⟩
  exact .cons ⟨by norm_num, by norm_num⟩ <| .nil

/-- **C118** `verification_plates.ipynb`  [doc/notebooks/verification_plates.ipynb:50-82] -/
theorem C118_testP : ∃ l, Lam.init (.angles [45, -45, 0, 90, 45, -45, 0, 90, 45, -45, -45, 45, 90, 0, -45, 45, 90, 0, -45, 45])
      (.single (Spec.realMat (mat 60800 58250 (7/100) 4550 (21/100)))) = .ok l ∧
    Documents l.D (.dict (some (.flags pinnedFlags)) (some (.flags pinnedFlags)) (some (.flags pinnedFlags)) (some (.flags pinnedFlags))) ⟨360, 360, -1, -1, 0, 10, 10⟩
      [48.52457849227318] 5e-15 := by
  obtain ⟨l, hl, hD⟩ := testBuckling_built
  refine ⟨l, hl, documents_of testPPlate _ _ (by simp [IntPlate.num, testPPlate]) rfl rfl (by decide) (by decide) (by norm_num) testPZero_ok testP_brackets
    ⟨_, rfl, by norm_num⟩ hD ?_⟩
  exact .cons ⟨by norm_num, by norm_num⟩ <| .nil

/-- **C118** the clamped plate of `tests/test_plate_buckling.py`, where the reference value is 119.76079572  [tests/test_plate_buckling.py:16-55] -/
theorem C118_testC : ∃ l, Lam.init (.angles [45, -45, 0, 90, 45, -45, 0, 90, 45, -45, -45, 45, 90, 0, -45, 45, 90, 0, -45, 45])
      (.single (Spec.realMat (mat 60800 58250 (7/100) 4550 (21/100)))) = .ok l ∧
    Documents l.D (.str wCLAMPED) ⟨360, 360, -1, -1, 0, 10, 10⟩
      [119.7607275] 1e-7 := by
  obtain ⟨l, hl, hD⟩ := testBuckling_built
  refine ⟨l, hl, documents_of testCPlate _ _ (by simp [IntPlate.num, testCPlate]) rfl rfl (by decide) (by decide) (by norm_num) testCZero_ok testC_brackets
    ⟨_, rfl, by norm_num⟩ hD ?_⟩
  exact .cons ⟨by norm_num, by norm_num⟩ <| .nil

end Composipy
