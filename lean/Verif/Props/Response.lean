import Verif.Props.Margins

/-!
# C71-C76: symmetries of laminate stiffness and response
-/

namespace Composipy
open Spec Matrix

/-! ## C71: turning the laminate and the loads together -/

/-- The layup turned by `phi` degrees: every angle is increased by `phi`. -/
def Spec.turnLayup (phi : ℝ) (L : List (ℝ × Mat)) : List (ℝ × Mat) := L.map fun p => (p.1 + phi, p.2)

theorem cosd_add (t p : ℝ) : cosd (t + p) = cosd t * cosd p - sind t * sind p := by
  simp only [cosd, sind, show (t + p) * Real.pi / 180 = t * Real.pi / 180 + p * Real.pi / 180 by ring, Real.cos_add]

theorem sind_add (t p : ℝ) : sind (t + p) = sind t * cosd p + cosd t * sind p := by
  simp only [cosd, sind, show (t + p) * Real.pi / 180 = t * Real.pi / 180 + p * Real.pi / 180 by ring, Real.sin_add]

theorem Teng_add (t p : ℝ) : Teng (t + p) = Teng t * Teng p := by
  ext i j
  fin_cases i <;> fin_cases j <;>
    simp [Teng, Matrix.mul_apply, Fin.sum_univ_three, cosd_add, sind_add] <;> ring

theorem Treal_add (t p : ℝ) : Treal (t + p) = Treal t * Treal p := by
  ext i j
  fin_cases i <;> fin_cases j <;>
    simp [Treal, Matrix.mul_apply, Fin.sum_univ_three, cosd_add, sind_add] <;> ring

theorem rotQ_add (t p : ℝ) (Q : M3) : rotQ (t + p) Q = rotQ p (rotQ t Q) := by
  simp only [rotQ, Teng_add, Matrix.transpose_mul, Matrix.mul_assoc]

/-- `rotQ phi` as a linear map. -/
noncomputable def rotQL (phi : ℝ) : M3 →ₗ[ℝ] M3 where
  toFun := rotQ phi
  map_add' := fun A B => by simp [rotQ, Matrix.mul_add, Matrix.add_mul]
  map_smul' := fun c A => by simp [rotQ]

theorem plyQ!_turn (t phi : ℝ) (m : Mat) : plyQ! (t + phi, m) = rotQ phi (plyQ! (t, m)) := by
  unfold plyQ!
  rw [plyQ_eq, plyQ_eq]
  cases m.Q0 with
  | ok Q => exact rotQ_add t phi Q
  | error e => simp [rotQ]

theorem allOk_turn (phi : ℝ) (L : List (ℝ × Mat)) : AllOk (turnLayup phi L) ↔ AllOk L := by
  simp only [AllOk, plyQ_ok_iff, turnLayup, List.mem_map]
  constructor
  · intro h p hp; exact h (p.1 + phi, p.2) ⟨p, hp, rfl⟩
  · rintro h q ⟨p, hp, rfl⟩; exact h p hp

theorem map_layer_turn (phi : ℝ) (L : List (ℝ × Mat)) :
    (turnLayup phi L).map layer = (L.map layer).map fun p => (p.1, rotQL phi p.2) := by
  simp only [turnLayup, List.map_map]
  apply List.map_congr_left
  intro p _
  simp only [Function.comp_apply, layer, plyQ!_turn]
  rfl

theorem bottom_turn (phi : ℝ) (L : List (ℝ × Mat)) : bottom (turnLayup phi L) = bottom L := by
  simp [bottom, totalThickness_eq, turnLayup, Function.comp_def]

theorem mom_turn (w : ℝ → ℝ → ℝ) (phi : ℝ) (L : List (ℝ × Mat)) :
    mom w (bottom (turnLayup phi L)) ((turnLayup phi L).map layer) = rotQ phi (mom w (bottom L) (L.map layer)) := by
  rw [map_layer_turn, bottom_turn, mom_map_linear (rotQL phi)]
  rfl

theorem turn_ABD_eq (l l' : Lam) (hs : IsStack l) (hs' : IsStack l') (phi : ℝ) (h : l'.layup = turnLayup phi l.layup) :
    l'.A = rotQ phi <$> l.A ∧ l'.B = rotQ phi <$> l.B ∧ l'.D = rotQ phi <$> l.D := by
  have hok : AllOk l'.layup ↔ AllOk l.layup := by rw [h, allOk_turn]
  rw [hs.A_eq, hs'.A_eq, hs.D_eq, hs'.D_eq, Lam.B, Lam.B]
  refine ⟨?_, ?_, ?_⟩ <;> exact loopMatrix_congr _ hok fun _ => by rw [h, mom_turn]

/-- **C71** turning every ply by `phi` turns `A`, `B` and `D` as plane stiffness tensors by `phi`. -/
theorem C71_stiffness_turns (l l' : Lam) (hs : IsStack l) (hs' : IsStack l') (phi : ℝ)
    (h : l'.layup = turnLayup phi l.layup) (A B D : M3) (hA : l.A = .ok A) (hB : l.B = .ok B) (hD : l.D = .ok D) :
    ∃ A' B' D', l'.A = .ok A' ∧ l'.B = .ok B' ∧ l'.D = .ok D' ∧ IsRotatedStiffness phi A A' ∧
      IsRotatedStiffness phi B B' ∧ IsRotatedStiffness phi D D' := by
  obtain ⟨h1, h2, h3⟩ := turn_ABD_eq l l' hs hs' phi h
  rw [hA] at h1
  rw [hB] at h2
  rw [hD] at h3
  exact ⟨_, _, _, h1, h2, h3, rotQ_isRotated _ _, rotQ_isRotated _ _, rotQ_isRotated _ _⟩

/-- The loads `N'`, seen from axes turned by `phi`, are the loads `N` (forces and moments are plane tensors). -/
def Spec.LoadsTurn (phi : ℝ) (N N' : V6) : Prop :=
  stressTensor (fun i => N (.inl i)) = rotate phi (stressTensor fun i => N' (.inl i)) ∧
  stressTensor (fun i => N (.inr i)) = rotate phi (stressTensor fun i => N' (.inr i))

/-- The mid-plane response `e'`, seen from axes turned by `phi`, is `e`. -/
def Spec.ResponseTurns (phi : ℝ) (e e' : V6) : Prop :=
  strainTensor (fun i => e (.inl i)) = rotate phi (strainTensor fun i => e' (.inl i)) ∧
  strainTensor (fun i => e (.inr i)) = rotate phi (strainTensor fun i => e' (.inr i))

theorem stressTensor_inj {s s' : V3} (h : stressTensor s = stressTensor s') : s = s' := by
  have h00 := congrFun (congrFun h 0) 0
  have h01 := congrFun (congrFun h 0) 1
  have h11 := congrFun (congrFun h 1) 1
  simp only [stressTensor, Matrix.of_apply, Matrix.cons_val', Matrix.cons_val_zero, Matrix.cons_val_one,
    Matrix.cons_val_fin_one] at h00 h01 h11
  ext i
  fin_cases i
  · exact h00
  · exact h11
  · exact h01

/-- Block diagonal matrix turning membrane and bending strains. -/
noncomputable def T6 (phi : ℝ) : M6 := Matrix.fromBlocks (Teng phi) 0 0 (Teng phi)

theorem T6_turn (phi : ℝ) (A B D : M3) :
    Matrix.fromBlocks (rotQ phi A) (rotQ phi B) (rotQ phi B) (rotQ phi D) =
      (T6 phi)ᵀ * Matrix.fromBlocks A B B D * T6 phi := by
  simp [T6, Matrix.fromBlocks_transpose, Matrix.fromBlocks_multiply, rotQ]

theorem T6_det_ne (phi : ℝ) : (T6 phi).det ≠ 0 := by
  rw [T6, Matrix.det_fromBlocks_zero₂₁]
  exact mul_ne_zero (Teng_det_ne phi) (Teng_det_ne phi)

theorem turn_eps0 (l l' : Lam) (hs : IsStack l) (hs' : IsStack l') (phi : ℝ) (h : l'.layup = turnLayup phi l.layup)
    (N N' : V6) (hN : (T6 phi)ᵀ *ᵥ N = N') :
    epsilon0 l' N' = (fun e => (T6 phi)⁻¹ *ᵥ e) <$> epsilon0 l N := by
  obtain ⟨h1, h2, h3⟩ := turn_ABD_eq l l' hs hs' phi h
  by_cases hall : AllOk l.layup
  · have hA := hs.A_eq.trans (l.loopMatrix_ok wA hall)
    have hB : l.B = _ := l.loopMatrix_ok wB hall
    have hD := hs.D_eq.trans (l.loopMatrix_ok wD hall)
    rw [hA] at h1
    rw [hB] at h2
    rw [hD] at h3
    have hM := C14_ABD_readable l _ _ _ hA hB hD
    have hM' := C14_ABD_readable l' _ _ _ h1 h2 h3
    rw [T6_turn] at hM'
    set M := Matrix.fromBlocks (mom wA (bottom l.layup) (l.layup.map layer)) (mom wB (bottom l.layup) (l.layup.map layer))
      (mom wB (bottom l.layup) (l.layup.map layer)) (mom wD (bottom l.layup) (l.layup.map layer)) with hMdef
    have hT := T6_det_ne phi
    have hTu := hT.isUnit
    have hdet : ((T6 phi)ᵀ * M * T6 phi).det = 0 ↔ M.det = 0 := by
      rw [Matrix.det_mul, Matrix.det_mul, Matrix.det_transpose]
      simp [hT]
    simp only [epsilon0, hM, hM', ok_bind, npInv, hdet]
    by_cases hd : M.det = 0
    · simp [hd]
    · simp only [hd, if_false, ok_bind, pure_eq_ok, ok_map, Except.ok.injEq]
      rw [← hN, Matrix.mulVec_mulVec, Matrix.mulVec_mulVec]
      congr 1
      rw [Matrix.mul_inv_rev, Matrix.mul_inv_rev, Matrix.mul_assoc, Matrix.mul_assoc,
        Matrix.nonsing_inv_mul _ (by rw [Matrix.det_transpose]; exact hTu), Matrix.mul_one]
  · have hall' : ¬ AllOk l'.layup := by rw [h, allOk_turn]; exact hall
    rw [hs.epsilon0_err N hall, hs'.epsilon0_err N' hall']
    rfl

theorem T6_inv (phi : ℝ) : (T6 phi)⁻¹ = Matrix.fromBlocks (Treal phi)ᵀ 0 0 (Treal phi)ᵀ := by
  apply Matrix.inv_eq_left_inv
  have h : (Treal phi)ᵀ * Teng phi = 1 := by
    have := congrArg Matrix.transpose (TengT_mul_Treal phi)
    rwa [Matrix.transpose_mul, Matrix.transpose_transpose, Matrix.transpose_one] at this
  simp [T6, Matrix.fromBlocks_multiply, h]

theorem loadsTurn_iff (phi : ℝ) (N N' : V6) : LoadsTurn phi N N' ↔ (T6 phi)ᵀ *ᵥ N = N' := by
  have key : ∀ s s' : V3, stressTensor s = rotate phi (stressTensor s') ↔ (Teng phi)ᵀ *ᵥ s = s' := by
    intro s s'
    rw [← rotate_stress]
    constructor
    · intro h
      rw [stressTensor_inj h, Matrix.mulVec_mulVec, TengT_mul_Treal, Matrix.one_mulVec]
    · intro h
      rw [← h, Matrix.mulVec_mulVec, Treal_mul_TengT, Matrix.one_mulVec]
  unfold LoadsTurn
  rw [key, key, T6, Matrix.fromBlocks_transpose, Matrix.fromBlocks_mulVec]
  simp only [Matrix.transpose_zero, Matrix.zero_mulVec, add_zero, zero_add]
  constructor
  · rintro ⟨h1, h2⟩
    ext i
    cases i with
    | inl i => exact congrFun h1 i
    | inr i => exact congrFun h2 i
  · intro h
    refine ⟨?_, ?_⟩
    · ext i; exact congrFun h (.inl i)
    · ext i; exact congrFun h (.inr i)

theorem strainAt_T6 (phi : ℝ) (e : V6) (z : ℝ) : strainAt ((T6 phi)⁻¹ *ᵥ e) z = (Treal phi)ᵀ *ᵥ strainAt e z := by
  rw [T6_inv, Matrix.fromBlocks_mulVec]
  simp only [Matrix.zero_mulVec, add_zero, zero_add, strainAt, Matrix.mulVec_add, Matrix.mulVec_smul]
  rfl

/-- **C71** the response of the turned laminate to the turned loads is the turned response; it exists for one exactly when
it does for the other, and exceptions agree. -/
theorem C71_response_turns (l l' : Lam) (hs : IsStack l) (hs' : IsStack l') (phi : ℝ) (h : l'.layup = turnLayup phi l.layup)
    (N N' : V6) (hN : LoadsTurn phi N N') :
    (∀ e, epsilon0 l N = .ok e → ∃ e', epsilon0 l' N' = .ok e' ∧ ResponseTurns phi e e') ∧
    (∀ x, epsilon0 l N = .error x ↔ epsilon0 l' N' = .error x) := by
  have hE := turn_eps0 l l' hs hs' phi h N N' ((loadsTurn_iff phi N N').mp hN)
  constructor
  · intro e he
    rw [he] at hE
    refine ⟨_, hE, ?_⟩
    have hTT : Teng phi * (Treal phi)ᵀ = 1 := by
      have := congrArg Matrix.transpose (Treal_mul_TengT phi)
      rwa [Matrix.transpose_mul, Matrix.transpose_transpose, Matrix.transpose_one] at this
    have hsplit : (T6 phi)⁻¹ *ᵥ e = Sum.elim ((Treal phi)ᵀ *ᵥ (e ∘ Sum.inl)) ((Treal phi)ᵀ *ᵥ (e ∘ Sum.inr)) := by
      rw [T6_inv, Matrix.fromBlocks_mulVec]
      simp
    show ResponseTurns phi e ((T6 phi)⁻¹ *ᵥ e)
    rw [hsplit]
    constructor
    · show _ = rotate phi (strainTensor ((Treal phi)ᵀ *ᵥ (e ∘ Sum.inl)))
      rw [← rotate_strain, Matrix.mulVec_mulVec, hTT, Matrix.one_mulVec]
      rfl
    · show _ = rotate phi (strainTensor ((Treal phi)ᵀ *ᵥ (e ∘ Sum.inr)))
      rw [← rotate_strain, Matrix.mulVec_mulVec, hTT, Matrix.one_mulVec]
      rfl
  · intro x
    rw [hE]
    cases epsilon0 l N <;> simp

theorem zAt_turn {l l' : Lam} {phi : ℝ} (h : l'.layup = turnLayup phi l.layup) (i : ℕ) : l'.zAt i = l.zAt i := by
  unfold Lam.zAt
  congr 1
  rw [Lam.zPosition, Lam.zPosition, zPositionOf_eq, zPositionOf_eq, h]
  simp [totalThickness_eq, turnLayup, Function.comp_def]

theorem QAt_turn {l l' : Lam} {phi : ℝ} (h : l'.layup = turnLayup phi l.layup) (i : ℕ) (hi : i < l.layup.length) :
    l'.QAt i = rotQ phi (l.QAt i) ∧ l'.angleAt i = l.angleAt i + phi ∧ l'.allowAt i = l.allowAt i := by
  have hlen : i < l'.layup.length := by rw [h]; simpa [turnLayup] using hi
  have hget : l'.layup[i] = ((l.layup[i]).1 + phi, (l.layup[i]).2) := by
    simp only [h, turnLayup, List.getElem_map]
  refine ⟨?_, ?_, ?_⟩
  · rw [Lam.QAt_eq l' i hlen, Lam.QAt_eq l i hi, hget, plyQ!_turn]
  · rw [IsStack.angleAt_eq i hlen, IsStack.angleAt_eq i hi, hget]
  · unfold Lam.allowAt
    rw [List.getElem?_eq_getElem hlen, List.getElem?_eq_getElem hi, hget]
    rcases l.layup[i] with ⟨a, m⟩
    cases m <;> rfl

theorem turn_m12 (phi t : ℝ) (Q : M3) (v : V3) :
    Treal (t + phi) *ᵥ (rotQ phi Q *ᵥ ((Treal phi)ᵀ *ᵥ v)) = Treal t *ᵥ (Q *ᵥ v) := by
  have hTT : Teng phi * (Treal phi)ᵀ = 1 := by
    have := congrArg Matrix.transpose (Treal_mul_TengT phi)
    rwa [Matrix.transpose_mul, Matrix.transpose_transpose, Matrix.transpose_one] at this
  rw [Treal_add, rotQ]
  simp only [Matrix.mulVec_mulVec, Matrix.mul_assoc]
  rw [hTT, Matrix.mul_one, ← Matrix.mul_assoc (Treal phi), Treal_mul_TengT, Matrix.one_mul]

theorem flatMap_range_congr {α : Type} (f g : ℕ → List α) (n : ℕ) (h : ∀ i < n, f i = g i) :
    (List.range n).flatMap f = (List.range n).flatMap g := by
  rw [List.flatMap_def, List.flatMap_def]
  congr 1
  exact List.map_congr_left fun i hi => h i (List.mem_range.mp hi)

/-- **C71** the margin table of the turned laminate under the turned loads is the table of the original laminate, with
`phi` added to the angles: margins of safety and critical modes do not depend on the choice of plate axes. -/
theorem C71_margins_invariant (l l' : Lam) (hs : IsStack l) (hs' : IsStack l') (phi : ℝ)
    (h : l'.layup = turnLayup phi l.layup) (N N' : V6) (hN : LoadsTurn phi N N') :
    calculateMargin l' N' = (fun R : List MarginRow => R.map fun r => { r with angle := r.angle + phi }) <$>
      calculateMargin l N := by
  have hlen : l'.layup.length = l.layup.length := by rw [h]; simp [turnLayup]
  by_cases ha : HasAllowables l
  · have ha' : HasAllowables l' := by
      intro p hp
      rw [h, turnLayup] at hp
      obtain ⟨q, hq, rfl⟩ := List.mem_map.mp hp
      exact ha q hq
    rw [hs.margin_eq ha, hs'.margin_eq ha', turn_eps0 l l' hs hs' phi h N N' ((loadsTurn_iff phi N N').mp hN)]
    cases epsilon0 l N with
    | error e => rfl
    | ok e =>
      simp only [ok_map, Except.ok.injEq, marginRows, hlen, List.map_flatMap]
      apply flatMap_range_congr
      intro i hi
      obtain ⟨h1, h2, h3⟩ := QAt_turn h i hi
      simp only [h1, h2, h3, strainAt_T6, zAt_turn h, turn_m12, List.map_cons, List.map_nil]
  · have ha' : ¬ HasAllowables l' := by
      intro hc
      apply ha
      intro p hp
      exact hc (p.1 + phi, p.2) (by rw [h, turnLayup]; exact List.mem_map_of_mem hp)
    rw [(C35_computable l hs N).2.1 ha, (C35_computable l' hs' N').2.1 ha']
    rfl

/-- **C71** likewise the material-axis stresses of every row are unchanged and the plate-axis stresses turn. -/
theorem C71_stress_turns (l l' : Lam) (hs : IsStack l) (hs' : IsStack l') (phi : ℝ)
    (h : l'.layup = turnLayup phi l.layup) (N N' : V6) (hN : LoadsTurn phi N N') (S : List Row)
    (hS : calculateStress l N = .ok S) :
    ∃ S', calculateStress l' N' = .ok S' ∧ List.Forall₂ (fun r r' : Row => r'.ply = r.ply ∧ r'.z = r.z ∧
      r'.position = r.position ∧ r'.angle = r.angle + phi ∧ r'.m12 = r.m12 ∧
      stressTensor r.xy = rotate phi (stressTensor r'.xy)) S S' := by
  have hlen : l'.layup.length = l.layup.length := by rw [h]; simp [turnLayup]
  have hTT : Teng phi * (Treal phi)ᵀ = 1 := by
    have := congrArg Matrix.transpose (Treal_mul_TengT phi)
    rwa [Matrix.transpose_mul, Matrix.transpose_transpose, Matrix.transpose_one] at this
  rw [hs.stress_eq] at hS
  rw [hs'.stress_eq, turn_eps0 l l' hs hs' phi h N N' ((loadsTurn_iff phi N N').mp hN)]
  cases he : epsilon0 l N with
  | error e => simp [he] at hS
  | ok e =>
    simp only [he, ok_map, Except.ok.injEq] at hS
    subst hS
    refine ⟨_, rfl, ?_⟩
    have hxy : ∀ (Q : M3) (v : V3), stressTensor (Q *ᵥ v) =
        rotate phi (stressTensor (rotQ phi Q *ᵥ ((Treal phi)ᵀ *ᵥ v))) := by
      intro Q v
      rw [← rotate_stress]
      congr 1
      rw [rotQ]
      simp only [Matrix.mulVec_mulVec, Matrix.mul_assoc]
      rw [hTT, Matrix.mul_one, ← Matrix.mul_assoc (Treal phi), Treal_mul_TengT, Matrix.one_mul]
    have hall : ∀ n ≤ l.layup.length, List.Forall₂ (fun r r' : Row => r'.ply = r.ply ∧ r'.z = r.z ∧
        r'.position = r.position ∧ r'.angle = r.angle + phi ∧ r'.m12 = r.m12 ∧
        stressTensor r.xy = rotate phi (stressTensor r'.xy))
        ((List.range n).flatMap fun i =>
          [⟨i + 1, l.zAt i, .bot, l.angleAt i, l.QAt i *ᵥ strainAt e (l.zAt i),
            Treal (l.angleAt i) *ᵥ (l.QAt i *ᵥ strainAt e (l.zAt i))⟩,
          ⟨i + 1, l.zAt (i + 1), .top, l.angleAt i, l.QAt i *ᵥ strainAt e (l.zAt (i + 1)),
            Treal (l.angleAt i) *ᵥ (l.QAt i *ᵥ strainAt e (l.zAt (i + 1)))⟩])
        ((List.range n).flatMap fun i =>
          [⟨i + 1, l'.zAt i, .bot, l'.angleAt i, l'.QAt i *ᵥ strainAt ((T6 phi)⁻¹ *ᵥ e) (l'.zAt i),
            Treal (l'.angleAt i) *ᵥ (l'.QAt i *ᵥ strainAt ((T6 phi)⁻¹ *ᵥ e) (l'.zAt i))⟩,
          ⟨i + 1, l'.zAt (i + 1), .top, l'.angleAt i, l'.QAt i *ᵥ strainAt ((T6 phi)⁻¹ *ᵥ e) (l'.zAt (i + 1)),
            Treal (l'.angleAt i) *ᵥ (l'.QAt i *ᵥ strainAt ((T6 phi)⁻¹ *ᵥ e) (l'.zAt (i + 1)))⟩]) := by
      intro n
      induction n with
      | zero => intro _; exact List.Forall₂.nil
      | succ n ih =>
        intro hn
        rw [List.range_succ, List.flatMap_append, List.flatMap_append]
        refine List.rel_append (ih (by omega)) ?_
        obtain ⟨h1, h2, -⟩ := QAt_turn h n (by omega)
        simp only [List.flatMap_cons, List.flatMap_nil, List.append_nil, h1, h2, strainAt_T6, zAt_turn h, turn_m12]
        exact .cons ⟨rfl, rfl, rfl, rfl, rfl, hxy _ _⟩ (.cons ⟨rfl, rfl, rfl, rfl, rfl, hxy _ _⟩ .nil)
    have := hall l.layup.length le_rfl
    simpa only [stressRows, hlen] using this

end Composipy
