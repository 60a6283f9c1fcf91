import Verif.Props.Material

/-!
# C12: rotated ply stiffness
-/

namespace Composipy
open Spec Matrix

theorem rotate_stress (t : ℝ) (s : Fin 3 → ℝ) :
    stressTensor (Treal t *ᵥ s) = rotate t (stressTensor s) := by
  ext i j
  fin_cases i <;> fin_cases j <;>
    simp [stressTensor, rotate, basis, Treal, cosd, sind, Matrix.mul_apply, Fin.sum_univ_two,
      Matrix.mulVec, dotProduct, Fin.sum_univ_three] <;> ring

theorem rotate_strain (t : ℝ) (e : Fin 3 → ℝ) :
    strainTensor (Teng t *ᵥ e) = rotate t (strainTensor e) := by
  ext i j
  fin_cases i <;> fin_cases j <;>
    simp [strainTensor, rotate, basis, Teng, cosd, sind, Matrix.mul_apply, Fin.sum_univ_two,
      Matrix.mulVec, dotProduct, Fin.sum_univ_three] <;> ring

theorem strainTensor_injective {e e' : Fin 3 → ℝ} (h : strainTensor e = strainTensor e') : e = e' := by
  have h0 := congrFun (congrFun h 0) 0
  have h1 := congrFun (congrFun h 1) 1
  have h2 := congrFun (congrFun h 0) 1
  simp [strainTensor] at h0 h1 h2
  ext i; fin_cases i <;> simp [h0, h1, h2]

theorem stressTensor_injective {e e' : Fin 3 → ℝ} (h : stressTensor e = stressTensor e') : e = e' := by
  have h0 := congrFun (congrFun h 0) 0
  have h1 := congrFun (congrFun h 1) 1
  have h2 := congrFun (congrFun h 0) 1
  simp [stressTensor] at h0 h1 h2
  ext i; fin_cases i <;> simp [h0, h1, h2]

theorem Treal_rotQ (t : ℝ) (Q : M3) : Treal t * rotQ t Q = Q * Teng t := by
  rw [rotQ, ← Matrix.mul_assoc, ← Matrix.mul_assoc, Treal_mul_TengT, Matrix.one_mul]

theorem rotQ_isRotated (t : ℝ) (Q : M3) : IsRotatedStiffness t Q (rotQ t Q) := by
  intro e e' h
  rw [← rotate_strain] at h
  rw [strainTensor_injective h, ← rotate_stress, Matrix.mulVec_mulVec, Matrix.mulVec_mulVec,
    Treal_rotQ]

/-- The tensor law determines the rotated stiffness. -/
theorem isRotated_unique (t : ℝ) (Q Qb : M3) (h : IsRotatedStiffness t Q Qb) : Qb = rotQ t Q := by
  apply Matrix.ext_of_mulVec_single
  intro i
  have h1 := h (Pi.single i 1) (Teng t *ᵥ Pi.single i 1) (rotate_strain _ _)
  have h2 := rotQ_isRotated t Q (Pi.single i 1) (Teng t *ᵥ Pi.single i 1) (rotate_strain _ _)
  rw [h1, ← rotate_stress, ← rotate_stress] at h2
  have h3 := stressTensor_injective h2
  have h4 := congrArg (fun y => (Treal t)⁻¹ *ᵥ y) h3
  simpa [Matrix.mulVec_mulVec, Matrix.nonsing_inv_mul _ (Treal_det_isUnit t)] using h4

/-- **C12** entries of `Q_layup`: entry `k` is the rotated stiffness of layer `k`, and `Q_layup`
succeeds exactly when all layers do. -/
theorem C12_Qlayup_entries (l : Lam) (Qs : List M3) :
    l.Qlayup = .ok Qs ↔ List.Forall₂ (fun p Q => plyQ p = .ok Q) l.layup Qs := by
  unfold Lam.Qlayup
  induction l.layup generalizing Qs with
  | nil => cases Qs <;> simp [List.mapM_nil]
  | cons p ps ih =>
    rw [List.mapM_cons]
    cases hp : plyQ p with
    | error e => cases Qs <;> simp [hp]
    | ok Q =>
      cases hps : List.mapM plyQ ps with
      | error e =>
        cases Qs with
        | nil => simp
        | cons Q' Qs =>
          have := ih Qs
          rw [hps] at this
          simp at this
          simp [this]
      | ok Q2 =>
        cases Qs with
        | nil => simp
        | cons Q' Qs =>
          have := ih Qs
          rw [hps] at this
          simp only [Except.ok.injEq] at this
          simp [← this, hp]

/-- **C12** rotation never fails by itself, and the result is the stiffness of the turned material
(the unique one obeying the tensor law). -/
theorem C12_rotation_law (t : ℝ) (m : Mat) :
    (∀ Q, m.Q0 = .ok Q → ∃ Qb, plyQ (t, m) = .ok Qb ∧ IsRotatedStiffness t Q Qb ∧
      ∀ Qb', IsRotatedStiffness t Q Qb' → Qb' = Qb) ∧
    (∀ e, plyQ (t, m) = .error e ↔ m.Q0 = .error e) := by
  rw [plyQ_eq]
  constructor
  · intro Q hQ
    rw [hQ]
    exact ⟨_, rfl, rotQ_isRotated t Q, fun Qb' h => isRotated_unique t Q Qb' h⟩
  · intro e
    cases m.Q0 <;> simp

theorem Mat.Q0_isSymm (m : Mat) (Q : M3) (h : m.Q0 = .ok Q) : Q.IsSymm := by
  cases m with
  | ortho m =>
    by_cases hd : 1 - m.v12 * m.v21 = 0
    · rw [Mat.Q0, m.Q0_of_eq hd] at h; cases h
    · rw [Mat.Q0, m.Q0_of_ne hd] at h; cases h
      ext i j; fin_cases i <;> fin_cases j <;> simp
  | iso m =>
    by_cases hd : 1 - m.v * m.v = 0
    · rw [Mat.Q0] at h; simp [IsoMat.Q0, pyDiv, hd] at h
    · rw [Mat.Q0, m.Q0_of_ne hd] at h; cases h
      ext i j; fin_cases i <;> fin_cases j <;> simp

/-- Every readable `Q_0` has the orthotropic pattern of zeros. -/
theorem Mat.Q0_form (m : Mat) (Q : M3) (h : m.Q0 = .ok Q) :
    ∃ a b d g, Q = !![a, b, 0; b, d, 0; 0, 0, g] := by
  cases m with
  | ortho m =>
    by_cases hd : 1 - m.v12 * m.v21 = 0
    · rw [Mat.Q0, m.Q0_of_eq hd] at h; cases h
    · rw [Mat.Q0, m.Q0_of_ne hd] at h; cases h
      exact ⟨_, _, _, _, rfl⟩
  | iso m =>
    by_cases hd : 1 - m.v * m.v = 0
    · rw [Mat.Q0] at h; simp [IsoMat.Q0, pyDiv, hd] at h
    · rw [Mat.Q0, m.Q0_of_ne hd] at h; cases h
      exact ⟨_, _, _, _, rfl⟩

/-- **C12** the rotated stiffness is symmetric. -/
theorem C12_symmetric (t : ℝ) (m : Mat) (Qb : M3) (h : plyQ (t, m) = .ok Qb) : Qb.IsSymm := by
  rw [plyQ_eq] at h
  cases hQ : m.Q0 with
  | error e => simp [hQ] at h
  | ok Q =>
    simp only [hQ, ok_map, Except.ok.injEq] at h
    rw [← h]
    exact rotQ_isSymm t (m.Q0_isSymm Q hQ)

/-- **C12** the rotated stiffness has the strain energy of `Q_0` in the rotated strain. -/
theorem C12_energy (t : ℝ) (m : Mat) (Q Qb : M3) (hQ : m.Q0 = .ok Q) (h : plyQ (t, m) = .ok Qb)
    (e e' : Fin 3 → ℝ) (he : strainTensor e' = rotate t (strainTensor e)) :
    e ⬝ᵥ (Qb *ᵥ e) = e' ⬝ᵥ (Q *ᵥ e') := by
  simp only [plyQ_eq, hQ, ok_map, Except.ok.injEq] at h
  rw [← rotate_strain] at he
  rw [← h, rotQ_quad, strainTensor_injective he]

/-- **C12** positive definiteness is inherited at every angle. -/
theorem C12_posDef (t : ℝ) (m : Mat) (Q Qb : M3) (hQ : m.Q0 = .ok Q) (h : plyQ (t, m) = .ok Qb)
    (hpd : IsPD Q) : IsPD Qb := by
  simp only [plyQ_eq, hQ, ok_map, Except.ok.injEq] at h
  rw [← h]; exact rotQ_isPD t hpd

/-- **C12** zero degrees. -/
theorem C12_zero (m : Mat) : plyQ (0, m) = m.Q0 := by
  have : ∀ Q, rotQ 0 Q = Q := by
    intro Q
    have h1 : Teng 0 = 1 := by
      ext i j; fin_cases i <;> fin_cases j <;> simp [Teng, Matrix.one_apply]
    simp [rotQ, h1]
  rw [plyQ_eq]
  cases m.Q0 <;> simp [this]

/-- **C12** ninety degrees exchanges the two directions. -/
theorem C12_ninety (m : Mat) (Q : M3) (hQ : m.Q0 = .ok Q) :
    plyQ (90, m) = .ok !![Q 1 1, Q 1 0, 0; Q 0 1, Q 0 0, 0; 0, 0, Q 2 2] := by
  obtain ⟨a, b, d, g, rfl⟩ := m.Q0_form Q hQ
  rw [plyQ_eq, hQ]
  simp only [ok_map, Except.ok.injEq]
  ext i j
  fin_cases i <;> fin_cases j <;> simp [rotQ, Teng, Matrix.mul_apply, Fin.sum_univ_three]

/-- Sign flip of the shear-coupling entries. -/
def Spec.flipShear (Q : M3) : M3 :=
  !![Q 0 0, Q 0 1, -Q 0 2; Q 1 0, Q 1 1, -Q 1 2; -Q 2 0, -Q 2 1, Q 2 2]

/-- **C12** opposite angle: only the shear-coupling entries change sign. -/
theorem C12_opposite_angle (t : ℝ) (m : Mat) : plyQ (-t, m) = flipShear <$> plyQ (t, m) := by
  rw [plyQ_eq, plyQ_eq]
  cases hQ : m.Q0 with
  | error e => rfl
  | ok Q =>
    obtain ⟨a, b, d, g, rfl⟩ := m.Q0_form Q hQ
    simp only [ok_map, Except.ok.injEq]
    ext i j
    fin_cases i <;> fin_cases j <;>
      simp [rotQ, Teng, flipShear, Matrix.mul_apply, Fin.sum_univ_three] <;> ring

/-- **C12** the stiffness repeats every 180 degrees. -/
theorem C12_period (t : ℝ) (m : Mat) : plyQ (t + 180, m) = plyQ (t, m) := by
  have : Teng (t + 180) = Teng t := by
    ext i j
    fin_cases i <;> fin_cases j <;> simp [Teng, cosd_add_180, sind_add_180]
  rw [plyQ_eq, plyQ_eq]
  cases m.Q0 <;> simp [rotQ, this]

/-- **C12** `T_layup` lists, per layer, the stress and strain rotation matrices. -/
theorem C12_Tlayup (l : Lam) (k : Nat) (hk : k < l.layup.length) (v : Fin 3 → ℝ) :
    ∃ Tr Te, l.Tlayup[k]? = some (Tr, Te) ∧
      stressTensor (Tr *ᵥ v) = rotate (l.layup[k]).1 (stressTensor v) ∧
      strainTensor (Te *ᵥ v) = rotate (l.layup[k]).1 (strainTensor v) := by
  refine ⟨Treal (l.layup[k]).1, Teng (l.layup[k]).1, ?_, rotate_stress _ _, rotate_strain _ _⟩
  simp [Lam.Tlayup, List.getElem?_eq_getElem hk]

/-- Non-vacuity: a carbon ply at 30 degrees. -/
example : ∃ Qb, plyQ (30, .ortho ⟨132000, 10300, 1/4, 5500, 0.1, 0, 0, 0, 0, 0⟩) = .ok Qb ∧ IsPD Qb := by
  obtain ⟨Q, hQ, hpd⟩ := (C05_Q0_posDef_iff ⟨132000, 10300, 1/4, 5500, 0.1, 0, 0, 0, 0, 0⟩
    (by norm_num) (by norm_num) (by norm_num)).mpr (by norm_num)
  obtain ⟨Qb, h, -⟩ := (C12_rotation_law 30 (.ortho ⟨132000, 10300, 1/4, 5500, 0.1, 0, 0, 0, 0, 0⟩)).1 Q hQ
  exact ⟨Qb, h, C12_posDef 30 (.ortho _) Q Qb hQ h hpd⟩

end Composipy
