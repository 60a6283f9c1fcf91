import Verif.Gen.DesignCorners
import Verif.Gen.DesignBest
import Verif.Props.Convex

/-!
# C119: the optimal designs printed in `Optimization_buckling.ipynb`
-/

namespace Composipy
open Spec Matrix

/-- The panel of the notebook  [doc/notebooks/Optimization_buckling.ipynb:27-80] -/
noncomputable def bookPanel : Panel := ⟨360, 360, 60800, 58250, 0.07, 4550, 7, 7,
  .dict (some (.flags pinnedFlags)) (some (.flags pinnedFlags)) (some (.flags [])) (some (.flags pinnedFlags))⟩

/-- The invariants of its material. -/
noncomputable def bookU : Invariants :=
  ⟨116559546325 / 2420583, 1033600000 / 806861, 9401751225 / 806861, 38121733675 / 2420583, 13072968775 / 806861⟩

theorem bookU_eq : (panelMat bookPanel).invariants = .ok bookU := by
  show (do let Q ← OrthoMat.Q0 _; return invariantsOf Q) = Except.ok bookU
  rw [OrthoMat.Q0_of_ne _ (by norm_num [OrthoMat.v21, bookPanel])]
  rw [ok_bind, pure_eq_ok]
  congr 1
  simp only [invariantsOf, bookU, OrthoMat.v21, bookPanel, Matrix.of_apply, Matrix.cons_val]
  norm_num

theorem bookPanel_ok : PanelOk bookPanel := by norm_num [PanelOk, bookPanel, abs_le]

theorem book_D (x1 x3 : ℚ) : panelD bookPanel 4.2 x1 x3 = .ok (designPlate x1 x3).D := by
  rw [panelD_eq bookPanel bookU bookU_eq]
  congr 1
  ext i j
  fin_cases i <;> fin_cases j <;>
    simp [lpStiffness, invariantQ, IntPlate.D, designPlate, designD, bookInv, bookU] <;> first | ring1 | (left; norm_num)

theorem book_built (x1 x3 : ℚ) : calcKKGD shipped (panelD bookPanel 4.2 x1 x3) bookPanel.c (panelPlate bookPanel (-1) (-1/2) (1/2))
    = .ok ((designPlate x1 x3).K, (designPlate x1 x3).KG) := by
  rw [book_D]
  have h := (designPlate x1 x3).built rfl bookPanel.c _ rfl rfl (by show (360 : ℚ) ≠ 0; norm_num) (by show (360 : ℚ) ≠ 0; norm_num)
  have key : ∀ a b x y s : ℝ, a = (designPlate x1 x3).a → b = (designPlate x1 x3).b → x = (designPlate x1 x3).Nxx → y = (designPlate x1 x3).Nyy →
      s = (designPlate x1 x3).Nxy → calcKKGD shipped (.ok (designPlate x1 x3).D) bookPanel.c ⟨a, b, x, y, s, 7, 7⟩
        = .ok ((designPlate x1 x3).K, (designPlate x1 x3).KG) := by
    rintro _ _ _ _ _ rfl rfl rfl rfl rfl
    exact h
  exact key 360 360 (-1) (-1/2) (1/2) (by simp [designPlate]) (by simp [designPlate]) (by simp [designPlate]) (by simp [designPlate])
    (by simp [designPlate])

/-! ## The forms of all designs -/

/-- The energy of a design 4.2 thick under `mu` times the load, from the forms of its matrices. -/
noncomputable def bookForm {N : ℕ} (K0 K1 K3 KG : SqMat N) (mu x1 x3 : ℝ) (v : Fin N → ℝ) : ℝ :=
  4.2 ^ 3 * (v ⬝ᵥ K0.mulVec v + x1 * (v ⬝ᵥ K1.mulVec v) + x3 * (v ⬝ᵥ K3.mulVec v)) + mu * (v ⬝ᵥ KG.mulVec v)

theorem bookForm_affine {N : ℕ} (K0 K1 K3 KG : SqMat N) (mu x1 x3 : ℝ) (v : Fin N → ℝ) : bookForm K0 K1 K3 KG mu x1 x3 v
    = bookForm K0 K1 K3 KG mu 0 0 v + x1 * (bookForm K0 K1 K3 KG mu 1 0 v - bookForm K0 K1 K3 KG mu 0 0 v)
      + x3 * (bookForm K0 K1 K3 KG mu 0 1 v - bookForm K0 K1 K3 KG mu 0 0 v) := by
  simp only [bookForm]
  ring

/-- The matrices of all designs, and what they are for rational ones. -/
theorem book_forms : ∃ K0 K1 K3 KG : SqMat (7 * 7), KG.IsSymm ∧
    (∀ T x1 x3, calcKKGD shipped (panelD bookPanel T x1 x3) bookPanel.c (panelPlate bookPanel (-1) (-1/2) (1/2))
      = .ok (T ^ 3 • (K0 + x1 • K1 + x3 • K3), KG)) ∧
    ∀ (x1 x3 mu : ℚ) (v : Fin (7 * 7) → ℝ), v ⬝ᵥ (designPlate x1 x3).K.mulVec v + mu * (v ⬝ᵥ (designPlate x1 x3).KG.mulVec v)
      = bookForm K0 K1 K3 KG mu x1 x3 v := by
  have hb := book_built 0 0
  obtain ⟨K0, K1, K3, h⟩ := panel_form bookPanel bookPanel_ok (-1) (-1/2) (1/2) 4.2 _ _ _ _ hb
  refine ⟨K0, K1, K3, (designPlate 0 0).KG, (C48_symmetric _ _ (panelPlate bookPanel (-1) (-1/2) (1/2)) (by norm_num [panelPlate, bookPanel])
    (by norm_num [panelPlate, bookPanel]) _ _ hb).2, h, fun x1 x3 mu v => ?_⟩
  obtain ⟨e1, e2⟩ := Prod.mk.inj (Except.ok.inj ((book_built x1 x3).symm.trans (h 4.2 x1 x3)))
  rw [e1, e2]
  exact congrArg (· + (mu : ℝ) * (v ⬝ᵥ (designPlate 0 0).KG.mulVec v)) (design_form (4.2 ^ 3) K0 K1 K3 (x1 : ℝ) (x3 : ℝ) v)

theorem low_form {x1 x3 mu : ℚ} {den : ℕ} {c : Coef9} {C : Cert} (h : (designPlate x1 x3).lowOk mu den c C 0 = true) (v : Fin (7 * 7) → ℝ)
    (hv : v ≠ 0) : 0 < v ⬝ᵥ (designPlate x1 x3).K.mulVec v + mu * (v ⬝ᵥ (designPlate x1 x3).KG.mulVec v) := by
  simp only [IntPlate.lowOk, Bool.and_eq_true, Nat.ble_eq] at h
  obtain ⟨⟨⟨hI, hc⟩, hC⟩, h4⟩ := h
  have hu : C.ucols = [] := List.eq_nil_of_length_eq_zero (by omega)
  exact (designPlate x1 x3).pos hI hc hC v hv (by rw [hu]; simp)

theorem form_val {x1 x3 mu : ℚ} {den : ℕ} {c : Coef9} {k u x : ℕ} {val : ℤ} (h : (designPlate x1 x3).formOk mu den c k u x val = true) :
    ((unpackV u x : Fin (7 * 7) → ℝ) ⬝ᵥ (designPlate x1 x3).K.mulVec (unpackV u x)
      + mu * ((unpackV u x : Fin (7 * 7) → ℝ) ⬝ᵥ (designPlate x1 x3).KG.mulVec (unpackV u x))) * (den * (nineDen * nineDen)) = val ∧
    (0 : ℝ) < den * (nineDen * nineDen) := by
  simp only [IntPlate.formOk, Bool.and_eq_true] at h
  exact ⟨(designPlate x1 x3).quad h.1.1 h.1.2 h.2, coefOk_pos h.1.2⟩

theorem mix_pos {a b t : ℝ} (ha : 0 < a) (hb : 0 < b) (h1 : -1 ≤ t) (h2 : t ≤ 1) : 0 < (1 + t) * a + (1 - t) * b := by
  rcases h1.lt_or_eq with h | rfl
  · have := mul_pos (show 0 < 1 + t by linarith) ha
    have := mul_nonneg (show 0 ≤ 1 - t by linarith) hb.le
    linarith
  · linarith

/-- What the certificates say about the forms of the designs. -/
structure BookFacts (K0 K1 K3 KG : SqMat (7 * 7)) : Prop where
  symm : KG.IsSymm
  built : ∀ T x1 x3, calcKKGD shipped (panelD bookPanel T x1 x3) bookPanel.c (panelPlate bookPanel (-1) (-1/2) (1/2))
    = .ok (T ^ 3 • (K0 + x1 • K1 + x3 • K3), KG)
  zero : ∀ x1 x3, -1 ≤ x1 → x1 ≤ 1 → -1 ≤ x3 → x3 ≤ 1 → ∀ v ≠ 0, 0 < bookForm K0 K1 K3 KG 0 x1 x3 v
  low : ∀ x1 x3, -1 ≤ x1 → x1 ≤ 1 → -1 ≤ x3 → x3 ≤ 1 → ∀ v ≠ 0, 0 < bookForm K0 K1 K3 KG 25 x1 x3 v
  mikiBest : ∀ v ≠ 0, 0 < bookForm K0 K1 K3 KG (33486474463 / 1250000000) (486831 / 1000000) (-13219 / 500000) v
  mikiPrinted : ∀ v ≠ 0, 0 < bookForm K0 K1 K3 KG (267891 / 10000) (487 / 1000) (-13 / 500) v
  natBest : ∀ v ≠ 0, 0 < bookForm K0 K1 K3 KG (53785616407 / 2000000000) (677067 / 1000000) (-41630277511 / 500000000000) v
  natPrinted : ∀ v ≠ 0, 0 < bookForm K0 K1 K3 KG (268927 / 10000) (677 / 1000) (-83 / 1000) v
  mikiLeft : ∃ (v : Fin (7 * 7) → ℝ) (s : ℝ), v ≠ 0 ∧ 0 < s ∧ bookForm K0 K1 K3 KG (33486474463 / 1250000000) 0 0 v * s
      = -67247063574903854383876358156214357921959586772337226827365523348894543681635174777230030550170719347323924542881050489600 ∧
    bookForm K0 K1 K3 KG (33486474463 / 1250000000) 1 0 v * s
      = 67234513674039305560311603969498451577530093975112110627621169696851677214980889222769969449829280652676075457118949510400 ∧
    bookForm K0 K1 K3 KG (33486474463 / 1250000000) 0 1 v * s
      = -134470885162373249510809386659634331026953885231734426087487184552194286115939072318249594707809813920438506659892195489600
  mikiRight : ∃ (v : Fin (7 * 7) → ℝ) (s : ℝ), v ≠ 0 ∧ 0 < s ∧ bookForm K0 K1 K3 KG (33486474463 / 1250000000) 0 0 v * s
      = -67248798486948212576129539962020319786247310857831975581542750582052815421780149913496377995996886595725367994900786313876 ∧
    bookForm K0 K1 K3 KG (33486474463 / 1250000000) 1 0 v * s
      = 67234447375537313856222883596558991365003904312547410360535586176150685702381066086503622004003113404274632005099213686124 ∧
    bookForm K0 K1 K3 KG (33486474463 / 1250000000) 0 1 v * s
      = -134507516028815689843457046811853484412886356684894768990016976775059658864245906469271795196951371214909034436612482563876
  natLeft : ∃ (v : Fin (7 * 7) → ℝ) (s : ℝ), v ≠ 0 ∧ 0 < s ∧ bookForm K0 K1 K3 KG (53785616407 / 2000000000) 0 0 v * s
      = -150221334841910207778217744744228667574721526127246504662192673669250784443853927762400995781471635843894192398587512539128 ∧
    bookForm K0 K1 K3 KG (53785616407 / 2000000000) 1 0 v * s
      = 62019985425650183072456744282033550599714253433266830346763903819273564792790424237599004218528364156105807601412487460872 ∧
    bookForm K0 K1 K3 KG (53785616407 / 2000000000) 0 1 v * s
      = -228526663504553686216983295246184858951477949423128043454078834884145636571252333306476956063490287725625193560451109539128
  natRight : ∃ (v : Fin (7 * 7) → ℝ) (s : ℝ), v ≠ 0 ∧ 0 < s ∧ bookForm K0 K1 K3 KG (53785616407 / 2000000000) 0 0 v * s
      = -150236939257551242780884218219437925497701462639065701585220141674211930781577432577140621116187620993590640706805415252860 ∧
    bookForm K0 K1 K3 KG (53785616407 / 2000000000) 1 0 v * s
      = 62011753171216468582404670381515917937878956409432111064601626837184687568279540222859378883812379006409359293194584747140 ∧
    bookForm K0 K1 K3 KG (53785616407 / 2000000000) 0 1 v * s
      = -228669734871668316549225037515086893570460367970761651646174239951012013886883785647192207920255994792322168194602385252860

theorem book_facts : ∃ K0 K1 K3 KG, BookFacts K0 K1 K3 KG := by
  obtain ⟨K0, K1, K3, KG, hG, hb, hf⟩ := book_forms
  have hbox : ∀ mu : ℝ, (∀ v ≠ 0, 0 < bookForm K0 K1 K3 KG mu 1 1 v) → (∀ v ≠ 0, 0 < bookForm K0 K1 K3 KG mu 1 (-1) v) →
      (∀ v ≠ 0, 0 < bookForm K0 K1 K3 KG mu (-1) 1 v) → (∀ v ≠ 0, 0 < bookForm K0 K1 K3 KG mu (-1) (-1) v) →
      ∀ x1 x3, -1 ≤ x1 → x1 ≤ 1 → -1 ≤ x3 → x3 ≤ 1 → ∀ v ≠ 0, 0 < bookForm K0 K1 K3 KG mu x1 x3 v := by
    intro mu h1 h2 h3 h4 x1 x3 a1 a2 a3 a4 v hv
    have e1 := mix_pos (h1 v hv) (h3 v hv) a1 a2
    have e2 := mix_pos (h2 v hv) (h4 v hv) a1 a2
    have e3 := mix_pos e1 e2 a3 a4
    have e4 : (1 + x3) * ((1 + x1) * bookForm K0 K1 K3 KG mu 1 1 v + (1 - x1) * bookForm K0 K1 K3 KG mu (-1) 1 v)
        + (1 - x3) * ((1 + x1) * bookForm K0 K1 K3 KG mu 1 (-1) v + (1 - x1) * bookForm K0 K1 K3 KG mu (-1) (-1) v)
        = 4 * bookForm K0 K1 K3 KG mu x1 x3 v := by
      simp only [bookForm]
      ring
    linarith
  have low' : ∀ {x1 x3 mu : ℚ} {den : ℕ} {c : Coef9} {C : Cert}, (designPlate x1 x3).lowOk mu den c C 0 = true → ∀ (y1 y3 nu : ℝ), y1 = x1 → y3 = x3 →
      nu = mu → ∀ v ≠ 0, 0 < bookForm K0 K1 K3 KG nu y1 y3 v := by
    rintro x1 x3 mu den c C h _ _ _ rfl rfl rfl v hv
    rw [← hf]
    exact low_form h v hv
  have val' : ∀ {x1 x3 mu : ℚ} {den : ℕ} {c : Coef9} {k u x : ℕ} {val : ℤ}, (designPlate x1 x3).formOk mu den c k u x val = true →
      ∀ (y1 y3 nu w : ℝ), y1 = x1 → y3 = x3 → nu = mu → w = val → bookForm K0 K1 K3 KG nu y1 y3 (unpackV u x) * (den * (nineDen * nineDen)) = w := by
    rintro x1 x3 mu den c k u x val h _ _ _ _ rfl rfl rfl rfl
    rw [← hf]
    exact (form_val h).1
  have ne' : ∀ (mu x1 x3 : ℝ) (v : Fin (7 * 7) → ℝ) (s w : ℝ), bookForm K0 K1 K3 KG mu x1 x3 v * s = w → w ≠ 0 → v ≠ 0 := by
    rintro mu x1 x3 v s w h hw rfl
    apply hw
    rw [← h]
    simp [bookForm]
  refine ⟨K0, K1, K3, KG, hG, hb, ?_, ?_, ?_, ?_, ?_, ?_, ?_, ?_, ?_, ?_⟩
  · exact hbox 0 (low' cornerPPZero_ok _ _ _ (by norm_num) (by norm_num) (by norm_num))
      (low' cornerPMZero_ok _ _ _ (by norm_num) (by norm_num) (by norm_num))
      (low' cornerMPZero_ok _ _ _ (by norm_num) (by norm_num) (by norm_num))
      (low' cornerMMZero_ok _ _ _ (by norm_num) (by norm_num) (by norm_num))
  · exact hbox 25 (low' cornerPPLow_ok _ _ _ (by norm_num) (by norm_num) (by norm_num))
      (low' cornerPMLow_ok _ _ _ (by norm_num) (by norm_num) (by norm_num))
      (low' cornerMPLow_ok _ _ _ (by norm_num) (by norm_num) (by norm_num))
      (low' cornerMMLow_ok _ _ _ (by norm_num) (by norm_num) (by norm_num))
  · exact low' mikiBest_ok _ _ _ (by norm_num) (by norm_num) (by norm_num)
  · exact low' mikiPrinted_ok _ _ _ (by norm_num) (by norm_num) (by norm_num)
  · exact low' natBest_ok _ _ _ (by norm_num) (by norm_num) (by norm_num)
  · exact low' natPrinted_ok _ _ _ (by norm_num) (by norm_num) (by norm_num)
  · have h := val' mikiLeft_0 0 0 _ _ (by norm_num) (by norm_num) rfl rfl
    refine ⟨_, _, ne' _ _ _ _ _ _ h (by norm_num), (form_val mikiLeft_0).2, ?_, ?_, ?_⟩
    · exact val' mikiLeft_0 _ _ _ _ (by norm_num) (by norm_num) (by norm_num) (by norm_num)
    · exact val' mikiLeft_1 _ _ _ _ (by norm_num) (by norm_num) (by norm_num) (by norm_num)
    · exact val' mikiLeft_2 _ _ _ _ (by norm_num) (by norm_num) (by norm_num) (by norm_num)
  · have h := val' mikiRight_0 0 0 _ _ (by norm_num) (by norm_num) rfl rfl
    refine ⟨_, _, ne' _ _ _ _ _ _ h (by norm_num), (form_val mikiRight_0).2, ?_, ?_, ?_⟩
    · exact val' mikiRight_0 _ _ _ _ (by norm_num) (by norm_num) (by norm_num) (by norm_num)
    · exact val' mikiRight_1 _ _ _ _ (by norm_num) (by norm_num) (by norm_num) (by norm_num)
    · exact val' mikiRight_2 _ _ _ _ (by norm_num) (by norm_num) (by norm_num) (by norm_num)
  · have h := val' natLeft_0 0 0 _ _ (by norm_num) (by norm_num) rfl rfl
    refine ⟨_, _, ne' _ _ _ _ _ _ h (by norm_num), (form_val natLeft_0).2, ?_, ?_, ?_⟩
    · exact val' natLeft_0 _ _ _ _ (by norm_num) (by norm_num) (by norm_num) (by norm_num)
    · exact val' natLeft_1 _ _ _ _ (by norm_num) (by norm_num) (by norm_num) (by norm_num)
    · exact val' natLeft_2 _ _ _ _ (by norm_num) (by norm_num) (by norm_num) (by norm_num)
  · have h := val' natRight_0 0 0 _ _ (by norm_num) (by norm_num) rfl rfl
    refine ⟨_, _, ne' _ _ _ _ _ _ h (by norm_num), (form_val natRight_0).2, ?_, ?_, ?_⟩
    · exact val' natRight_0 _ _ _ _ (by norm_num) (by norm_num) (by norm_num) (by norm_num)
    · exact val' natRight_1 _ _ _ _ (by norm_num) (by norm_num) (by norm_num) (by norm_num)
    · exact val' natRight_2 _ _ _ _ (by norm_num) (by norm_num) (by norm_num) (by norm_num)

/-! ## What follows for the designs -/

variable {K0 K1 K3 KG : SqMat (7 * 7)}

theorem BookFacts.side (F : BookFacts K0 K1 K3 KG) {v : Fin (7 * 7) → ℝ} (hv : v ≠ 0) {L s A0 A1 A3 : ℝ} (hL : 25 < L) (hs : 0 < s)
    (h0 : bookForm K0 K1 K3 KG L 0 0 v * s = A0) (h1 : bookForm K0 K1 K3 KG L 1 0 v * s = A1) (h3 : bookForm K0 K1 K3 KG L 0 1 v * s = A3) {mu x1 x3 : ℝ}
    (hmu : L ≤ mu) (hnn : 0 ≤ bookForm K0 K1 K3 KG mu x1 x3 v) : (mu - L) * ((A1 - A0 - A3) / (L - 25)) ≤ A0 + x1 * (A1 - A0) + x3 * (A3 - A0) := by
  have hlow := F.low (-1) 1 (by norm_num) (by norm_num) (by norm_num) (by norm_num) v hv
  have e1 : bookForm K0 K1 K3 KG 25 (-1) 1 v * s = A0 - A1 + A3 - (L - 25) * (v ⬝ᵥ KG.mulVec v) * s := by
    rw [← h0, ← h1, ← h3]
    simp only [bookForm]
    ring
  have e2 : bookForm K0 K1 K3 KG mu x1 x3 v * s = A0 + x1 * (A1 - A0) + x3 * (A3 - A0) + (mu - L) * (v ⬝ᵥ KG.mulVec v) * s := by
    rw [← h0, ← h1, ← h3]
    simp only [bookForm]
    ring
  have e3 := mul_pos hlow hs
  have e4 := mul_nonneg hnn hs.le
  rw [e1] at e3
  rw [e2] at e4
  have hp : 0 < L - 25 := by linarith
  have e5 : (A1 - A0 - A3) / (L - 25) ≤ -((v ⬝ᵥ KG.mulVec v) * s) := by
    rw [div_le_iff₀ hp]
    linarith
  have := mul_le_mul_of_nonneg_left e5 (show 0 ≤ mu - L by linarith)
  linarith

theorem BookFacts.work (F : BookFacts K0 K1 K3 KG) : ∃ v, v ≠ 0 ∧ v ⬝ᵥ KG.mulVec v < 0 := by
  obtain ⟨v, s, hv, hs, h0, h1, h3⟩ := F.mikiLeft
  refine ⟨v, hv, ?_⟩
  have hz := mul_pos (F.zero (-1) 1 (by norm_num) (by norm_num) (by norm_num) (by norm_num) v hv) hs
  have e : bookForm K0 K1 K3 KG 0 (-1) 1 v * s = bookForm K0 K1 K3 KG (33486474463 / 1250000000) 0 0 v * s
      - bookForm K0 K1 K3 KG (33486474463 / 1250000000) 1 0 v * s + bookForm K0 K1 K3 KG (33486474463 / 1250000000) 0 1 v * s
      - 33486474463 / 1250000000 * (v ⬝ᵥ KG.mulVec v) * s := by
    simp only [bookForm]
    ring
  rw [e, h0, h1, h3] at hz
  by_contra hge
  push Not at hge
  have := mul_nonneg hge hs.le
  linarith

theorem bookForm_scale (T : ℝ) (hT : 0 < T) (l x1 x3 : ℝ) (v : Fin (7 * 7) → ℝ) :
    v ⬝ᵥ (T ^ 3 • (K0 + x1 • K1 + x3 • K3)).mulVec v + l * (v ⬝ᵥ KG.mulVec v)
      = (T / 4.2) ^ 3 * bookForm K0 K1 K3 KG (l * (4.2 / T) ^ 3) x1 x3 v := by
  rw [design_form, bookForm]
  have := hT.ne'
  field_simp

/-- The matrices of a design within the bounds. -/
theorem BookFacts.design (F : BookFacts K0 K1 K3 KG) {T x1 x3 : ℝ} (hT : 0 < T) (a1 : -1 ≤ x1) (a2 : x1 ≤ 1) (a3 : -1 ≤ x3) (a4 : x3 ≤ 1) :
    (T ^ 3 • (K0 + x1 • K1 + x3 • K3)).PosDef ∧ (∃ nu, PosMult (T ^ 3 • (K0 + x1 • K1 + x3 • K3)) KG nu) ∧
    (∀ l, 0 ≤ l → (Carries (T ^ 3 • (K0 + x1 • K1 + x3 • K3)) KG l ↔ ∀ v, 0 ≤ bookForm K0 K1 K3 KG (l * (4.2 / T) ^ 3) x1 x3 v)) ∧
    ∀ mu, (∀ v ≠ 0, 0 < bookForm K0 K1 K3 KG mu x1 x3 v) → ∀ nu, PosMult (T ^ 3 • (K0 + x1 • K1 + x3 • K3)) KG nu → mu < nu * (4.2 / T) ^ 3 := by
  have hT3 : 0 < (T / 4.2) ^ 3 := by positivity
  have hsym : (T ^ 3 • (K0 + x1 • K1 + x3 • K3)).IsSymm :=
    (C48_symmetric _ _ (panelPlate bookPanel (-1) (-1/2) (1/2)) (by norm_num [panelPlate, bookPanel]) (by norm_num [panelPlate, bookPanel]) _ _
      (F.built T x1 x3)).1
  have hpd : (T ^ 3 • (K0 + x1 • K1 + x3 • K3)).PosDef := posDef_of_pos hsym fun v hv => by
    have h := bookForm_scale (K0 := K0) (K1 := K1) (K3 := K3) (KG := KG) T hT 0 x1 x3 v
    rw [zero_mul, add_zero, zero_mul] at h
    rw [h]
    exact mul_pos hT3 (F.zero x1 x3 a1 a2 a3 a4 v hv)
  have hpos : ∀ v : Fin (7 * 7) → ℝ, v ≠ 0 → 0 < v ⬝ᵥ (T ^ 3 • (K0 + x1 • K1 + x3 • K3)).mulVec v := fun v hv => by
    simpa using hpd.dotProduct_mulVec_pos hv
  refine ⟨hpd, ?_, fun l hl => ?_, fun mu hmu nu hnu => ?_⟩
  · obtain ⟨v, hv, hW⟩ := F.work
    have hE := hpos v hv
    obtain ⟨nu, -, h⟩ := posMult_le hpd F.symm hv (lam := (v ⬝ᵥ (T ^ 3 • (K0 + x1 • K1 + x3 • K3)).mulVec v) / -(v ⬝ᵥ KG.mulVec v))
      (div_pos hE (by linarith)) (le_of_eq (by
        have := hW.ne
        field_simp
        ring))
    exact ⟨nu, h⟩
  · rw [carries_iff hpd F.symm hl]
    refine forall_congr' fun v => ?_
    rw [bookForm_scale T hT]
    exact ⟨fun h => nonneg_of_mul_nonneg_right h hT3, fun h => mul_nonneg hT3.le h⟩
  · obtain ⟨h0, v, hv, he⟩ := hnu
    have hE := hpos v hv
    have h2 : v ⬝ᵥ (T ^ 3 • (K0 + x1 • K1 + x3 • K3)).mulVec v + nu * (v ⬝ᵥ KG.mulVec v) = 0 := by
      have := congrArg (v ⬝ᵥ ·) he
      simpa [add_mulVec, smul_mulVec, dotProduct_add] using this
    rw [bookForm_scale T hT] at h2
    have h3 := (mul_eq_zero.mp h2).resolve_left hT3.ne'
    have h4 := hmu v hv
    have h5 := F.zero x1 x3 a1 a2 a3 a4 v hv
    by_contra hge
    push Not at hge
    have e1 : bookForm K0 K1 K3 KG mu x1 x3 v = bookForm K0 K1 K3 KG (nu * (4.2 / T) ^ 3) x1 x3 v + (mu - nu * (4.2 / T) ^ 3) * (v ⬝ᵥ KG.mulVec v) := by
      simp only [bookForm]
      ring
    have e2 : bookForm K0 K1 K3 KG 0 x1 x3 v = bookForm K0 K1 K3 KG (nu * (4.2 / T) ^ 3) x1 x3 v - nu * (4.2 / T) ^ 3 * (v ⬝ᵥ KG.mulVec v) := by
      simp only [bookForm]
      ring
    rw [h3] at e1 e2
    have hc : 0 < nu * (4.2 / T) ^ 3 := by positivity
    have hW : v ⬝ᵥ KG.mulVec v < 0 := by
      by_contra hW
      push Not at hW
      have := mul_nonneg hc.le hW
      linarith
    have := mul_nonpos_of_nonneg_of_nonpos (show 0 ≤ mu - nu * (4.2 / T) ^ 3 by linarith) hW.le
    linarith

/-- Designs within Miki's constraints that carry as much as the best one known. -/
theorem BookFacts.miki (F : BookFacts K0 K1 K3 KG) {mu x1 x3 : ℝ} (g2 : -0.0001 ≤ x3 - 2 * x1 + 1) (hmu : 33486474463 / 1250000000 ≤ mu)
    (h : ∀ v, 0 ≤ bookForm K0 K1 K3 KG mu x1 x3 v) : |x1 - 0.487| ≤ 0.0005 ∧ |x3 - -0.026| ≤ 0.0005 ∧ mu ≤ 33486474463 / 1250000000 + 1e-8 := by
  obtain ⟨v, s, hv, hs, h0, h1, h3⟩ := F.mikiLeft
  obtain ⟨w, t, hw, ht, k0, k1, k3⟩ := F.mikiRight
  have hl := F.side hv (by norm_num) hs h0 h1 h3 hmu (h v)
  have hr := F.side hw (by norm_num) ht k0 k1 k3 hmu (h w)
  obtain ⟨d, rfl⟩ : ∃ d, mu = 33486474463 / 1250000000 + d := ⟨mu - 33486474463 / 1250000000, by ring⟩
  rw [add_sub_cancel_left] at hl hr
  have hd : 0 ≤ d := by linarith
  clear h hmu h0 h1 h3 k0 k1 k3 hs ht hv hw
  norm_num at hl hr g2
  refine ⟨abs_le.mpr ⟨?_, ?_⟩, abs_le.mpr ⟨?_, ?_⟩, ?_⟩
  all_goals norm_num
  all_goals linarith

/-- The same for designs within the other constraint. -/
theorem BookFacts.nat (F : BookFacts K0 K1 K3 KG) {mu x1 x3 : ℝ} (g : -0.0001 ≤ x3 - 2 * x1 ^ 2 + 1) (hmu : 53785616407 / 2000000000 ≤ mu)
    (h : ∀ v, 0 ≤ bookForm K0 K1 K3 KG mu x1 x3 v) : |x1 - 0.677| ≤ 0.0005 ∧ |x3 - -0.083| ≤ 0.0005 ∧ mu ≤ 53785616407 / 2000000000 + 1e-7 := by
  obtain ⟨v, s, hv, hs, h0, h1, h3⟩ := F.natLeft
  obtain ⟨w, t, hw, ht, k0, k1, k3⟩ := F.natRight
  have hl := F.side hv (by norm_num) hs h0 h1 h3 hmu (h v)
  have hr := F.side hw (by norm_num) ht k0 k1 k3 hmu (h w)
  obtain ⟨d, rfl⟩ : ∃ d, mu = 53785616407 / 2000000000 + d := ⟨mu - 53785616407 / 2000000000, by ring⟩
  rw [add_sub_cancel_left] at hl hr
  have hd : 0 ≤ d := by linarith
  have g2 : -0.0001 ≤ x3 - 2 * (2 * 0.677067 * x1 - 0.677067 ^ 2) + 1 := by nlinarith [sq_nonneg (x1 - 0.677067)]
  clear h hmu h0 h1 h3 k0 k1 k3 hs ht hv hw g
  norm_num at hl hr g2
  refine ⟨abs_le.mpr ⟨?_, ?_⟩, abs_le.mpr ⟨?_, ?_⟩, ?_⟩
  all_goals norm_num
  all_goals linarith

/-! ## The problems of the notebook -/

theorem book_norm : normalizeCriticalLoad (-1) (-1/2) (1/2) = .ok (-1, -1/2, 1/2, 1) := by
  have := normalize_eq (-1) (-1/2) (1/2) (by norm_num)
  norm_num at this ⊢
  exact this

theorem BookFacts.problem (F : BookFacts K0 K1 K3 KG) (S : EigSolver) (hS : GoodSolver S) (pen : Bool) :
    ∃ prob, (maximizeBucklingLoad S bookPanel 4.2 (-1) (-1/2) (1/2) pen).2 = .ok prob ∧
      (∀ v, Feas prob v ↔ ∃ x1 x3, v = [x1, x3] ∧ (x1, x3) ∈ MaxSet pen) ∧
      (∀ x1 x3, (x1, x3) ∈ MaxSet pen → ∃ lam, prob.obj [x1, x3] = .ok (.fin (-lam)) ∧ (∀ v, 0 ≤ bookForm K0 K1 K3 KG lam x1 x3 v) ∧
        ∀ mu, (∀ v ≠ 0, 0 < bookForm K0 K1 K3 KG mu x1 x3 v) → mu < lam) ∧
      (∀ v, LocalMinOn prob Set.univ v → GlobalMinOn prob Set.univ v) ∧ ∃ v, GlobalMinOn prob Set.univ v := by
  obtain ⟨prob, hp⟩ : ∃ prob, (maximizeBucklingLoad S bookPanel 4.2 (-1) (-1/2) (1/2) pen).2 = .ok prob := by
    simp only [maximizeBucklingLoad, book_norm, ok_bind, pure_eq_ok]
    exact ⟨_, rfl⟩
  have hbounds : prob.bounds = [(-1, 1), (-1, 1)] := by
    have hp' := hp
    simp only [maximizeBucklingLoad, book_norm, ok_bind, pure_eq_ok, Except.ok.injEq] at hp'
    rw [← hp']
  have hin : ∀ x1 x3 : ℝ, InBounds prob.bounds [x1, x3] ↔ (-1 ≤ x1 ∧ x1 ≤ 1) ∧ -1 ≤ x3 ∧ x3 ≤ 1 := fun x1 x3 => by
    rw [hbounds]
    simp [InBounds]
  have hfeas : ∀ v, Feas prob v ↔ ∃ x1 x3, v = [x1, x3] ∧ (x1, x3) ∈ MaxSet pen := by
    intro v
    constructor
    · rintro ⟨hb, hc⟩
      obtain ⟨x1, x3, rfl, -⟩ := forall₂_two (by rw [← hbounds]; exact hb)
      exact ⟨x1, x3, rfl, (hin _ _).mp hb, (C59_feasible_set S _ _ _ _ _ pen prob hp x1 x3 hb).mp hc⟩
    · rintro ⟨x1, x3, rfl, hb, hc⟩
      have hb' := (hin _ _).mpr hb
      exact ⟨hb', (C59_feasible_set S _ _ _ _ _ pen prob hp _ _ hb').mpr hc⟩
  have hsound : ∀ x1 x3, (x1, x3) ∈ MaxSet pen → Sound bookPanel 4.2 x1 x3 (-1) (-1/2) (1/2) := by
    rintro x1 x3 ⟨⟨⟨a1, a2⟩, a3, a4⟩, -⟩
    obtain ⟨hpd, hex, -, hlt⟩ := F.design (T := 4.2) (by norm_num) a1 a2 a3 a4
    refine ⟨_, _, F.built 4.2 x1 x3, hpd, hex, fun nu hnu => ?_⟩
    have := hlt 25 (F.low x1 x3 a1 a2 a3 a4) nu hnu
    norm_num at this
    linarith
  obtain ⟨-, hloc, hmin, -⟩ := C104_maximize S hS bookPanel bookPanel_ok (by norm_num [bookPanel]) 4.2 (-1) (-1/2) (1/2) pen prob hp (by
    intro x y s M hn x1 x3 hf
    rw [book_norm] at hn
    cases hn
    obtain ⟨y1, y3, he, hm⟩ := (hfeas _).mp hf
    simp only [List.cons.injEq, and_true] at he
    obtain ⟨rfl, rfl⟩ := he
    exact hsound _ _ hm)
  refine ⟨prob, hp, hfeas, fun x1 x3 hx => ?_, hloc, hmin⟩
  obtain ⟨K, KG', hK, hpd, hex, hc⟩ := hsound x1 x3 hx
  obtain ⟨lam, hn, hm, hl⟩ := ncr_sound S hS bookPanel bookPanel_ok (by norm_num [bookPanel]) 4.2 x1 x3 _ _ _ K KG' hK hpd hex hc
  obtain ⟨rfl, rfl⟩ := Prod.mk.inj (Except.ok.inj ((F.built 4.2 x1 x3).symm.trans hK))
  obtain ⟨⟨⟨a1, a2⟩, a3, a4⟩, -⟩ := hx
  obtain ⟨-, -, hcar, hlt⟩ := F.design (T := 4.2) (by norm_num) a1 a2 a3 a4
  refine ⟨lam, ?_, ?_, fun mu hmu => ?_⟩
  · obtain ⟨x, y, s, M, hn', h1, -⟩ := C59_objective S bookPanel 4.2 (-1) (-1/2) (1/2) pen prob hp x1 x3
    rw [book_norm] at hn'
    cases hn'
    exact h1 lam hn
  · have := (hcar lam hm.1.le).mp hl
    norm_num at this
    exact this
  · have := hlt mu hmu lam hm
    norm_num at this
    exact this

/-- **C119** `maximize_buckling_load` of `Optimization_buckling.ipynb` with `penalty=True`: there is an optimum, every local optimum has the printed
lamination parameters to the printed digits, its load multiplier is 26.78917957 within 2e-8, and the printed design itself is feasible and carries
more than 26.7891  [doc/notebooks/Optimization_buckling.ipynb:119-153] -/
theorem C119_maximize (S : EigSolver) (hS : GoodSolver S) :
    ∃ prob, (maximizeBucklingLoad S bookPanel 4.2 (-1) (-1/2) (1/2) true).2 = .ok prob ∧ (∃ v, GlobalMinOn prob Set.univ v) ∧
      (∀ v, LocalMinOn prob Set.univ v → GlobalMinOn prob Set.univ v ∧ ∃ x1 x3 lam, v = [x1, x3] ∧ |x1 - 0.487| ≤ 0.0005 ∧ |x3 - -0.026| ≤ 0.0005 ∧
        prob.obj v = .ok (.fin (-lam)) ∧ |lam - 26.78917957| ≤ 2e-8) ∧
      Feas prob [0.487, -0.026] ∧ ∃ lam, prob.obj [0.487, -0.026] = .ok (.fin (-lam)) ∧ 26.7891 < lam := by
  obtain ⟨K0, K1, K3, KG, F⟩ := book_facts
  obtain ⟨prob, hp, hfeas, hval, hloc, hmin⟩ := F.problem S hS true
  have hbest : ((486831 / 1000000 : ℝ), (-13219 / 500000 : ℝ)) ∈ MaxSet true := by simp [MaxSet]; norm_num
  have hpr : ((0.487 : ℝ), (-0.026 : ℝ)) ∈ MaxSet true := by simp [MaxSet]; norm_num
  refine ⟨prob, hp, hmin, fun v hv => ⟨hloc v hv, ?_⟩, (hfeas _).mpr ⟨_, _, rfl, hpr⟩, ?_⟩
  · obtain ⟨-, hf, o, ho, hglob⟩ := hloc v hv
    obtain ⟨x1, x3, rfl, hx⟩ := (hfeas v).mp hf
    obtain ⟨lam, h1, h2, -⟩ := hval x1 x3 hx
    obtain ⟨l', k1, -, k3⟩ := hval _ _ hbest
    have e1 := k3 _ F.mikiBest
    obtain rfl := XF.fin.inj (Except.ok.inj (ho.symm.trans h1))
    have e2 := hglob _ trivial ((hfeas _).mpr ⟨_, _, rfl, hbest⟩) _ k1
    obtain ⟨r1, r2, r3⟩ := F.miki (mu := lam) (x1 := x1) (x3 := x3) (by have := hx.2; simp only [if_true] at this; exact this.2) (by linarith) h2
    refine ⟨x1, x3, lam, rfl, r1, r2, h1, abs_le.mpr ⟨?_, ?_⟩⟩
    · norm_num at e1 e2 ⊢; linarith
    · norm_num at r3 ⊢; linarith
  · obtain ⟨lam, h1, -, h3⟩ := hval _ _ hpr
    refine ⟨lam, h1, ?_⟩
    have := h3 (267891 / 10000) (by have := F.mikiPrinted; norm_num at this ⊢; exact this)
    norm_num at this ⊢
    exact this

/-- **C119** the same with `penalty=False`  [doc/notebooks/Optimization_buckling.ipynb:163-201] -/
theorem C119_natural (S : EigSolver) (hS : GoodSolver S) :
    ∃ prob, (maximizeBucklingLoad S bookPanel 4.2 (-1) (-1/2) (1/2) false).2 = .ok prob ∧ (∃ v, GlobalMinOn prob Set.univ v) ∧
      (∀ v, LocalMinOn prob Set.univ v → GlobalMinOn prob Set.univ v ∧ ∃ x1 x3 lam, v = [x1, x3] ∧ |x1 - 0.677| ≤ 0.0005 ∧ |x3 - -0.083| ≤ 0.0005 ∧
        prob.obj v = .ok (.fin (-lam)) ∧ |lam - 26.8928082| ≤ 2e-7) ∧
      Feas prob [0.677, -0.083] ∧ ∃ lam, prob.obj [0.677, -0.083] = .ok (.fin (-lam)) ∧ 26.8927 < lam := by
  obtain ⟨K0, K1, K3, KG, F⟩ := book_facts
  obtain ⟨prob, hp, hfeas, hval, hloc, hmin⟩ := F.problem S hS false
  have hbest : ((677067 / 1000000 : ℝ), (-41630277511 / 500000000000 : ℝ)) ∈ MaxSet false := by simp [MaxSet]; norm_num
  have hpr : ((0.677 : ℝ), (-0.083 : ℝ)) ∈ MaxSet false := by simp [MaxSet]; norm_num
  refine ⟨prob, hp, hmin, fun v hv => ⟨hloc v hv, ?_⟩, (hfeas _).mpr ⟨_, _, rfl, hpr⟩, ?_⟩
  · obtain ⟨-, hf, o, ho, hglob⟩ := hloc v hv
    obtain ⟨x1, x3, rfl, hx⟩ := (hfeas v).mp hf
    obtain ⟨lam, h1, h2, -⟩ := hval x1 x3 hx
    obtain ⟨l', k1, -, k3⟩ := hval _ _ hbest
    have e1 := k3 _ F.natBest
    obtain rfl := XF.fin.inj (Except.ok.inj (ho.symm.trans h1))
    have e2 := hglob _ trivial ((hfeas _).mpr ⟨_, _, rfl, hbest⟩) _ k1
    obtain ⟨r1, r2, r3⟩ := F.nat (mu := lam) (x1 := x1) (x3 := x3) (by have := hx.2; simp only [Bool.false_eq_true, if_false] at this; exact this)
      (by linarith) h2
    refine ⟨x1, x3, lam, rfl, r1, r2, h1, abs_le.mpr ⟨?_, ?_⟩⟩
    · norm_num at e1 e2 ⊢; linarith
    · norm_num at r3 ⊢; linarith
  · obtain ⟨lam, h1, -, h3⟩ := hval _ _ hpr
    refine ⟨lam, h1, ?_⟩
    have := h3 (268927 / 10000) (by have := F.natPrinted; norm_num at this ⊢; exact this)
    norm_num at this ⊢
    exact this

/-! ## The lightest panel -/

theorem book_norm_weight : normalizeCriticalLoad (-26.6) (-13.3) 13.3 = .ok (-1, -1/2, 1/2, 26.6) := by
  have := normalize_eq (-26.6) (-13.3) 13.3 (by norm_num)
  norm_num at this ⊢
  exact this

theorem BookFacts.stout (F : BookFacts K0 K1 K3 KG) {T x1 x3 : ℝ} (hT : 0.5 ≤ T) (a1 : -1 ≤ x1) (a2 : x1 ≤ 1) (a3 : -1 ≤ x3) (a4 : x3 ≤ 1) :
    Stout bookPanel T x1 x3 (-1) (-1/2) (1/2) (1 / 26.6) := by
  have hT0 : 0 < T := lt_of_lt_of_le (by norm_num) hT
  obtain ⟨hpd, hex, -, hlt⟩ := F.design hT0 a1 a2 a3 a4
  refine ⟨_, _, F.built T x1 x3, hpd, hex, fun nu hnu => ?_⟩
  have h1 := hlt 25 (F.low x1 x3 a1 a2 a3 a4) nu hnu
  have h2 : 4.2 / T ≤ 8.4 := by
    rw [div_le_iff₀ hT0]
    norm_num at hT ⊢
    linarith
  have h3 : (4.2 / T) ^ 3 ≤ 8.4 ^ 3 := pow_le_pow_left₀ (by positivity) h2 3
  have h4 := mul_le_mul_of_nonneg_left h3 hnu.1.le
  norm_num at h1 h4 ⊢
  linarith

/-- Feasible designs of `minimize_panel_weight` that are at least 0.5 thick. -/
theorem BookFacts.weight_char (F : BookFacts K0 K1 K3 KG) (S : EigSolver) (hS : GoodSolver S) (x0 : List ℝ) (prob : MinProblem)
    (hp : (minimizePanelWeight S bookPanel (-26.6) (-13.3) 13.3 x0).2 = .ok prob) {T x1 x3 : ℝ} (hT : 0.5 ≤ T) :
    Feas prob [T, x1, x3] ↔ WtSet (T, x1, x3) ∧ ∀ v, 0 ≤ bookForm K0 K1 K3 KG (26.6 * (4.2 / T) ^ 3) x1 x3 v := by
  have hT0 : 0 < T := lt_of_lt_of_le (by norm_num) hT
  rw [weight_feas S bookPanel _ _ _ x0 prob hp _ _ _ _ book_norm_weight]
  constructor
  · rintro ⟨⟨T', y1, y3⟩, he, hq, e, hne, hMe⟩
    simp only [List.cons.injEq, and_true] at he
    obtain ⟨rfl, rfl, rfl⟩ := he
    refine ⟨hq, ?_⟩
    obtain ⟨-, ⟨a1, a2⟩, a3, a4⟩ := hq.1
    simp only at a1 a2 a3 a4 hne
    obtain ⟨K', KG', hK', hpd, -, hlow⟩ := F.stout hT a1 a2 a3 a4
    obtain ⟨rfl, rfl⟩ := Prod.mk.inj (Except.ok.inj ((F.built T x1 x3).symm.trans hK'))
    obtain ⟨vals, vecs, e', hrun, he', hne', -, s1, s2⟩ := ncr_first S hS bookPanel bookPanel_ok (by norm_num [bookPanel]) T x1 x3 _ _ _ _ _ hK' hpd
    obtain rfl := Except.ok.inj (hne.symm.trans hne')
    refine ((F.design hT0 a1 a2 a3 a4).2.2.1 26.6 (by norm_num)).mp fun nu hnu => ?_
    refine hMe.trans (head_le hrun hK' s1 s2 he' (by norm_num at hMe ⊢; linarith) hnu ?_)
    have h3 := hlow nu hnu
    rw [div_lt_iff₀ (by norm_num)] at h3
    have h4 := mul_le_mul_of_nonneg_right hMe hnu.1.le
    linarith
  · rintro ⟨hq, hw⟩
    refine ⟨(T, x1, x3), rfl, hq, ?_⟩
    obtain ⟨-, ⟨a1, a2⟩, a3, a4⟩ := hq.1
    simp only at a1 a2 a3 a4
    obtain ⟨hpd, hex, hcar, -⟩ := F.design hT0 a1 a2 a3 a4
    have hc := (hcar 26.6 (by norm_num)).mpr hw
    obtain ⟨lam, h1, hm, -⟩ := ncr_sound S hS bookPanel bookPanel_ok (by norm_num [bookPanel]) T x1 x3 _ _ _ _ _ (F.built T x1 x3) hpd hex
      (fun nu hnu => le_trans (by norm_num) (hc nu hnu))
    exact ⟨lam, h1, hc _ hm⟩

/-- **C119** `minimize_panel_weight` of `Optimization_buckling.ipynb`: there is a local optimum, and every local optimum at least 0.5 thick has the
printed thickness and lamination parameters to the printed digits  [doc/notebooks/Optimization_buckling.ipynb:222-241] -/
theorem C119_weight (S : EigSolver) (hS : GoodSolver S) (x0 : List ℝ) :
    ∃ prob, (minimizePanelWeight S bookPanel (-26.6) (-13.3) 13.3 x0).2 = .ok prob ∧ (∃ v, LocalMinOn prob Set.univ v) ∧
      ∀ T x1 x3, 0.5 ≤ T → LocalMinOn prob Set.univ [T, x1, x3] → |T - 4.190| ≤ 0.0005 ∧ |x1 - 0.487| ≤ 0.0005 ∧ |x3 - -0.026| ≤ 0.0005 := by
  obtain ⟨K0, K1, K3, KG, F⟩ := book_facts
  obtain ⟨prob, hp⟩ : ∃ prob, (minimizePanelWeight S bookPanel (-26.6) (-13.3) 13.3 x0).2 = .ok prob := by
    simp only [minimizePanelWeight, book_norm_weight, ok_bind, pure_eq_ok]
    exact ⟨_, rfl⟩
  have hobj : ∀ T x1 x3, prob.obj [T, x1, x3] = .ok (.fin (T ^ 3)) := by
    intro T x1 x3
    have hp' := hp
    simp only [minimizePanelWeight, book_norm_weight, ok_bind, pure_eq_ok, Except.ok.injEq] at hp'
    rw [← hp']
    rfl
  obtain ⟨hloc, hex, -⟩ := C104_weight S hS bookPanel bookPanel_ok (by norm_num [bookPanel]) _ _ _ x0 prob hp _ _ _ _ book_norm_weight (by norm_num)
    0.5 (fun q hq hT => F.stout hT hq.1.2.1.1 hq.1.2.1.2 hq.1.2.2.1 hq.1.2.2.2)
  -- the thickness at which the best design just carries the load
  obtain ⟨c, hc0, hc3⟩ : ∃ c : ℝ, 0 < c ∧ c ^ 3 = 26.6 * 4.2 ^ 3 / (33486474463 / 1250000000) := by
    refine ⟨(26.6 * 4.2 ^ 3 / (33486474463 / 1250000000)) ^ ((3 : ℕ)⁻¹ : ℝ), by positivity, ?_⟩
    exact Real.rpow_inv_natCast_pow (by norm_num) (by norm_num)
  have hc1 : 4.18 < c := lt_of_pow_lt_pow_left₀ 3 hc0.le (by rw [hc3]; norm_num)
  have hc2 : c < 4.1905 := lt_of_pow_lt_pow_left₀ 3 (by norm_num) (by rw [hc3]; norm_num)
  have hbest : Feas prob [c, 486831 / 1000000, -13219 / 500000] := by
    refine (F.weight_char S hS x0 prob hp (by norm_num at hc1 ⊢; linarith)).mpr ⟨?_, fun v => ?_⟩
    · norm_num [WtSet] at hc1 hc2 ⊢
      constructor <;> linarith
    · rw [div_pow, hc3, show (26.6 : ℝ) * (4.2 ^ 3 / (26.6 * 4.2 ^ 3 / (33486474463 / 1250000000))) = 33486474463 / 1250000000 by norm_num]
      by_cases hv : v = 0
      · rw [hv]
        simp [bookForm]
      · exact (F.mikiBest v hv).le
  have hmain : ∀ T x1 x3, 0.5 ≤ T → GlobalMinOn prob {w | ∃ T r, w = T :: r ∧ 0.5 ≤ T} [T, x1, x3] →
      |T - 4.190| ≤ 0.0005 ∧ |x1 - 0.487| ≤ 0.0005 ∧ |x3 - -0.026| ≤ 0.0005 := by
    rintro T x1 x3 hT ⟨-, hf, o, ho, hglob⟩
    have hT0 : 0 < T := lt_of_lt_of_le (by norm_num) hT
    obtain ⟨hq, hform⟩ := (F.weight_char S hS x0 prob hp hT).mp hf
    have h1 := hglob _ ⟨c, _, rfl, by norm_num at hc1 ⊢; linarith⟩ hbest _ (hobj _ _ _)
    rw [← XF.fin.inj (Except.ok.inj ((hobj _ _ _).symm.trans ho)), hc3] at h1
    have hT3 : 0 < T ^ 3 := by positivity
    have hmu : 33486474463 / 1250000000 ≤ 26.6 * (4.2 / T) ^ 3 := by
      rw [div_pow, ← mul_div_assoc, le_div_iff₀ hT3]
      rw [le_div_iff₀ (by norm_num)] at h1
      linarith
    obtain ⟨r1, r2, r3⟩ := F.miki hq.2.2 hmu hform
    refine ⟨?_, r1, r2⟩
    rw [div_pow, ← mul_div_assoc, div_le_iff₀ hT3] at r3
    have e1 : T < 4.1905 := lt_of_pow_lt_pow_left₀ 3 (by norm_num) (by norm_num at h1 ⊢; linarith)
    have e2 : 4.1895 < T := lt_of_pow_lt_pow_left₀ 3 hT0.le (by norm_num at r3 ⊢; linarith)
    rw [abs_le]
    norm_num at e1 e2 ⊢
    constructor <;> linarith
  refine ⟨prob, hp, ?_, fun T x1 x3 hT hl => ?_⟩
  · obtain ⟨v, ⟨T, r, rfl, hT⟩, hf, o, ho, hmin⟩ := hex ⟨_, ⟨c, _, rfl, by norm_num at hc1 ⊢; linarith⟩, hbest⟩
    obtain ⟨q, he, -⟩ := (weight_feas S bookPanel _ _ _ x0 prob hp _ _ _ _ book_norm_weight _).mp hf
    simp only [List.cons.injEq] at he
    obtain ⟨rfl, rfl⟩ := he
    have hTT := (abs_le.mp (hmain _ _ _ hT ⟨⟨_, _, rfl, hT⟩, hf, o, ho, hmin⟩).1).1
    refine ⟨_, trivial, hf, o, ho, 1, one_pos, fun z _ hzf hz o' ho' => ?_⟩
    cases hz with
    | cons hz1 hz2 =>
      refine hmin _ ⟨_, _, rfl, ?_⟩ hzf o' ho'
      have := (abs_lt.mp hz1).2
      norm_num at hTT ⊢
      linarith
  · obtain ⟨-, hf, o, ho, eps, heps, hmin⟩ := hl
    exact hmain T x1 x3 hT (hloc [T, x1, x3] ⟨⟨_, _, rfl, hT⟩, hf, o, ho, eps, heps, fun z _ => hmin z trivial⟩)

/-- A solver as the theorems ask for exists. -/
example : ∃ S : EigSolver, GoodSolver S := exists_goodSolver

end Composipy
