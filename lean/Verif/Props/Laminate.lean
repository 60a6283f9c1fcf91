import Verif.Lemmas.Integral

/-!
# C10, C11, C13 - C18, C21, C22: stacks and their stiffness
-/

namespace Composipy
open Spec Matrix

/-! ## C10 -/

/-- **C10** a single material is used for every angle, in order. -/
theorem C10_single (s : List ℝ) (m : Mat) :
    ∃ l, Lam.init (.angles s) (.single m) = .ok l ∧ l.layup = s.map fun a => (a, m) := by
  refine ⟨_, rfl, ?_⟩
  simp only
  induction s with
  | nil => rfl
  | cons a s ih =>
    simp only [List.length_cons, List.range_succ_eq_map, List.map_cons, List.zip_cons_cons, List.map_map]
    congr 1

/-- **C10** a list needs one ply per angle and is paired in order. -/
theorem C10_list (s : List ℝ) (ps : List Mat) :
    (ps.length = s.length → ∃ l, Lam.init (.angles s) (.list ps) = .ok l ∧
      l.layup.length = s.length ∧
      ∀ k (h : k < s.length) (h' : k < ps.length), l.layup[k]? = some (s[k], ps[k])) ∧
    (ps.length ≠ s.length → Lam.init (.angles s) (.list ps) = .error .valueError) := by
  constructor
  · intro h
    refine ⟨_, by simp only [Lam.init, h, ne_eq, not_true_eq_false, if_false]; rfl, ?_, ?_⟩
    · simp [h]
    · intro k h1 h2
      simp [List.getElem?_zip_eq_some, h1, h2]
  · intro h
    simp [Lam.init, h]

/-- Non-vacuity for C10: a hybrid laminate of two materials. -/
example (m1 m2 : Mat) : ∃ l, Lam.init (.angles [0, 45]) (.list [m1, m2]) = .ok l ∧
    l.layup = [(0, m1), (45, m2)] := ⟨_, rfl, rfl⟩

/-! ## C11 -/

theorem zList_last (z : ℝ) (ts : List ℝ) : (zList z ts).getLast? = some (z + ts.sum) := by
  induction ts generalizing z with
  | nil => simp [zList]
  | cons t ts ih =>
    cases ts with
    | nil => simp [zList]
    | cons t' ts =>
      have := ih (z + t)
      simp only [zList, List.getLast?_cons_cons] at this ⊢
      rw [this]; simp [add_assoc]

/-- **C11** interfaces: one more than plies, from `-h/2` to `h/2`, spaced by the ply thicknesses. -/
theorem C11_z_position (l : Lam) :
    l.zPosition.length = l.layup.length + 1 ∧
    l.zPosition.head? = some (-(height l.layup) / 2) ∧
    l.zPosition.getLast? = some (height l.layup / 2) ∧
    ∀ k (h : k < l.layup.length), ∃ a, l.zPosition[k]? = some a ∧
      l.zPosition[k + 1]? = some (a + (l.layup[k]).2.thickness) := by
  have hh : totalThickness l.layup = height l.layup := totalThickness_eq _
  rw [Lam.zPosition, zPositionOf_eq, hh]
  refine ⟨by simp [zList_length], ?_, ?_, ?_⟩
  · rw [List.head?_eq_getElem?, zList_head]
  · rw [zList_last]
    congr 1
    rw [← height]; ring
  · intro k h
    obtain ⟨a, h1, h2⟩ := zList_append_length (-(height l.layup) / 2)
      (l.layup.map fun p => p.2.thickness) k (by simpa using h)
    exact ⟨a, h1, by simpa using h2⟩

/-- **C11** the interfaces never decrease. -/
theorem C11_monotone (l : Lam) (h : NonnegThick l.layup) (k : Nat) (a b : ℝ)
    (ha : l.zPosition[k]? = some a) (hb : l.zPosition[k + 1]? = some b) : a ≤ b := by
  have hk : k < l.layup.length := by
    have := (List.getElem?_eq_some_iff.mp hb).1
    rw [(C11_z_position l).1] at this; omega
  obtain ⟨a', h1, h2⟩ := (C11_z_position l).2.2.2 k hk
  rw [ha] at h1; rw [hb] at h2
  cases h1; cases h2
  have := h (l.layup[k]) (List.getElem_mem hk)
  linarith

/-! ## C13 -/

/-- `(M i j)` as a linear map. -/
def entryL (i j : Fin 3) : M3 →ₗ[ℝ] ℝ :=
  { toFun := fun M => M i j, map_add' := fun _ _ => rfl, map_smul' := fun _ _ => rfl }

theorem mom_entry (w : ℝ → ℝ → ℝ) (z : ℝ) (L : List (ℝ × M3)) (i j : Fin 3) :
    (mom w z L) i j = mom w z (L.map fun p => (p.1, p.2 i j)) :=
  (mom_map_linear (entryL i j) w z L).symm

theorem field_entry {Qz : ℝ → M3} {zs : List ℝ} {Qs : List M3} (h : IsField Qz zs Qs) (i j : Fin 3) :
    IsField (fun z => Qz z i j) zs (Qs.map fun Q => Q i j) := by
  intro k a b q ha hb hq z hz1 hz2
  rw [List.getElem?_map, Option.map_eq_some_iff] at hq
  obtain ⟨Q, hQ, rfl⟩ := hq
  simp only [h k a b Q ha hb hQ z hz1 hz2]

theorem moment_integral (p : ℕ) (l : Lam) (Qs : List M3) (hQ : l.Qlayup = .ok Qs)
    (ht : NonnegThick l.layup) (Qz : ℝ → M3) (hf : IsField Qz l.zPosition Qs) :
    ∃ M, l.loopMatrix (wP p) = .ok M ∧
      ∀ i j, M i j = ∫ z in (-(height l.layup) / 2)..(height l.layup / 2), z ^ p * Qz z i j := by
  have hall : AllOk l.layup := l.Qlayup_ok_iff.mp ⟨Qs, hQ⟩
  have hQs : Qs = l.layup.map plyQ! := by
    rw [l.Qlayup_ok hall] at hQ; cases hQ; rfl
  refine ⟨_, l.loopMatrix_ok _ hall, ?_⟩
  intro i j
  have hf' := field_entry hf i j
  rw [Lam.zPosition, zPositionOf_eq] at hf'
  have := (piecewise_integral p _ (l.layup.map fun p => p.2.thickness) (Qs.map fun Q => Q i j)
    (by simp [hQs]) (by
      intro t ht'
      obtain ⟨q, hq, rfl⟩ := List.mem_map.mp ht'
      exact ht q hq) _ hf').2
  have hend : -(totalThickness l.layup) / 2 + (l.layup.map fun p => p.2.thickness).sum =
      height l.layup / 2 := by
    rw [totalThickness_eq, height]; ring
  rw [hend, totalThickness_eq, ← height] at this
  rw [this, mom_entry, bottom, totalThickness_eq, ← height]
  congr 1
  rw [hQs, List.map_map, List.map_map, List.zip_map']
  rfl

/-- **C13** `A` is the integral of the stiffness field. -/
theorem C13_A_integral (l : Lam) (hs : IsStack l) (Qs : List M3) (hQ : l.Qlayup = .ok Qs)
    (ht : NonnegThick l.layup) (Qz : ℝ → M3) (hf : IsField Qz l.zPosition Qs) :
    ∃ A, l.A = .ok A ∧
      ∀ i j, A i j = ∫ z in (-(height l.layup) / 2)..(height l.layup / 2), Qz z i j := by
  have := moment_integral 0 l Qs hQ ht Qz hf
  simp only [pow_zero, one_mul] at this
  rw [hs.A_eq, ← wP_zero]
  exact this

/-- **C13** `B` is the first moment. -/
theorem C13_B_integral (l : Lam) (Qs : List M3) (hQ : l.Qlayup = .ok Qs)
    (ht : NonnegThick l.layup) (Qz : ℝ → M3) (hf : IsField Qz l.zPosition Qs) :
    ∃ B, l.B = .ok B ∧
      ∀ i j, B i j = ∫ z in (-(height l.layup) / 2)..(height l.layup / 2), z * Qz z i j := by
  have := moment_integral 1 l Qs hQ ht Qz hf
  simp only [pow_one] at this
  rw [Lam.B, ← wP_one]
  exact this

/-- **C13** `D` is the second moment. -/
theorem C13_D_integral (l : Lam) (hs : IsStack l) (Qs : List M3) (hQ : l.Qlayup = .ok Qs)
    (ht : NonnegThick l.layup) (Qz : ℝ → M3) (hf : IsField Qz l.zPosition Qs) :
    ∃ D, l.D = .ok D ∧
      ∀ i j, D i j = ∫ z in (-(height l.layup) / 2)..(height l.layup / 2), z ^ 2 * Qz z i j := by
  rw [hs.D_eq, ← wP_two]
  exact moment_integral 2 l Qs hQ ht Qz hf

/-- **C13** a stiffness field exists for every stack, so the three theorems always apply. -/
theorem C13_field_exists (l : Lam) (Qs : List M3) (ht : NonnegThick l.layup) :
    ∃ Qz : ℝ → M3, IsField Qz l.zPosition Qs := by
  rw [Lam.zPosition, zPositionOf_eq]
  apply piecewise_exists
  intro t ht'
  obtain ⟨q, hq, rfl⟩ := List.mem_map.mp ht'
  exact ht q hq

/-- **C13** the stiffness matrices of a stack can be read exactly when every ply stiffness can. -/
theorem C13_readable_iff (l : Lam) (hs : IsStack l) :
    ((∃ A, l.A = .ok A) ↔ ∀ p ∈ l.layup, ∃ Q, p.2.Q0 = .ok Q) ∧
    ((∃ B, l.B = .ok B) ↔ ∀ p ∈ l.layup, ∃ Q, p.2.Q0 = .ok Q) ∧
    ((∃ D, l.D = .ok D) ↔ ∀ p ∈ l.layup, ∃ Q, p.2.Q0 = .ok Q) := by
  have h0 : (∀ p ∈ l.layup, ∃ Q, p.2.Q0 = .ok Q) ↔ AllOk l.layup := by
    simp only [AllOk, plyQ_ok_iff]
  rw [hs.A_eq, hs.D_eq, Lam.B, h0]
  have key : ∀ w, (∃ A, l.loopMatrix w = .ok A) ↔ AllOk l.layup := by
    intro w
    by_cases h : AllOk l.layup
    · simp [l.loopMatrix_ok w h, h]
    · simp [l.loopMatrix_err w h, h]
  exact ⟨key _, key _, key _⟩

/-! ## C14 -/

theorem mom_isSymm (w : ℝ → ℝ → ℝ) (z : ℝ) (L : List (ℝ × M3)) (h : ∀ p ∈ L, p.2.IsSymm) :
    (mom w z L).IsSymm := by
  induction L generalizing z with
  | nil => simp [mom, Matrix.IsSymm]
  | cons p L ih =>
    obtain ⟨t, Q⟩ := p
    simp only [mom]
    apply Matrix.IsSymm.add
    · exact (h (t, Q) (by simp)).smul _
    · exact ih _ fun q hq => h q (by simp [hq])

theorem plyQ!_isSymm (p : ℝ × Mat) : (plyQ! p).IsSymm := by
  unfold plyQ!
  cases h : plyQ p with
  | ok Q => exact C12_symmetric p.1 p.2 Q h
  | error e => simp [Matrix.IsSymm]

theorem loopMatrix_isSymm (l : Lam) (w : ℝ → ℝ → ℝ) (M : M3) (h : l.loopMatrix w = .ok M) :
    M.IsSymm := by
  by_cases hall : AllOk l.layup
  · rw [l.loopMatrix_ok w hall] at h; cases h
    apply mom_isSymm
    intro p hp
    obtain ⟨q, -, rfl⟩ := List.mem_map.mp hp
    exact plyQ!_isSymm q
  · rw [l.loopMatrix_err w hall] at h; cases h

theorem lpA_isSymm (p : Plies) (xi T : LPVal) (M : M3) (h : lpA p xi T = .ok M) : M.IsSymm := by
  unfold lpA at h
  cases hU : p.invariants with
  | error e => simp [hU] at h
  | ok U =>
    cases hx : xi.unpack4 with
    | error e => simp [hU, hx] at h
    | ok v =>
      cases hT : T.asNum with
      | error e => simp [hU, hx, hT] at h
      | ok T =>
        simp only [hU, hx, hT, ok_bind, pure_eq_ok, Except.ok.injEq] at h
        rw [← h]
        ext i j; fin_cases i <;> fin_cases j <;> simp

theorem lpD_isSymm (p : Plies) (xi T : LPVal) (M : M3) (h : lpD p xi T = .ok M) : M.IsSymm := by
  unfold lpD at h
  cases hU : p.invariants with
  | error e => simp [hU] at h
  | ok U =>
    cases hx : xi.unpack4 with
    | error e => simp [hU, hx] at h
    | ok v =>
      cases hT : T.asNum with
      | error e => simp [hU, hx, hT] at h
      | ok T =>
        simp only [hU, hx, hT, ok_bind, pure_eq_ok, Except.ok.injEq] at h
        rw [← h]
        ext i j; fin_cases i <;> fin_cases j <;> simp

theorem A_isSymm (l : Lam) (M : M3) (h : l.A = .ok M) : M.IsSymm := by
  unfold Lam.A at h
  split at h
  · exact loopMatrix_isSymm l _ M h
  · exact lpA_isSymm _ _ _ M h

theorem D_isSymm (l : Lam) (M : M3) (h : l.D = .ok M) : M.IsSymm := by
  unfold Lam.D at h
  split at h
  · exact loopMatrix_isSymm l _ M h
  · exact lpD_isSymm _ _ _ M h

theorem B_isSymm (l : Lam) (M : M3) (h : l.B = .ok M) : M.IsSymm := loopMatrix_isSymm l _ M h

/-- **C14** `ABD` has the blocks `A`, `B`, `B`, `D` and is symmetric (all laminates, including those
given by lamination parameters). -/
theorem C14_ABD_blocks_symmetric (l : Lam) (M : M6) (h : l.ABD = .ok M) :
    ∃ A B D, l.A = .ok A ∧ l.B = .ok B ∧ l.D = .ok D ∧
      (∀ i j, M (.inl i) (.inl j) = A i j ∧ M (.inl i) (.inr j) = B i j ∧
        M (.inr i) (.inl j) = B i j ∧ M (.inr i) (.inr j) = D i j) ∧
      M.IsSymm := by
  unfold Lam.ABD at h
  cases hA : l.A with
  | error e => simp [hA] at h
  | ok A =>
    cases hB : l.B with
    | error e => simp [hA, hB] at h
    | ok B =>
      cases hD : l.D with
      | error e => simp [hA, hB, hD] at h
      | ok D =>
        simp only [hA, hB, hD, ok_bind, pure_eq_ok, Except.ok.injEq] at h
        subst h
        refine ⟨A, B, D, rfl, rfl, rfl, fun i j => ⟨rfl, rfl, rfl, rfl⟩, ?_⟩
        have hBs := B_isSymm l B hB
        rw [Matrix.isSymm_fromBlocks_iff]
        exact ⟨A_isSymm l A hA, hBs, hBs, D_isSymm l D hD⟩

/-- **C14** `ABD` can be read as soon as `A`, `B` and `D` can. -/
theorem C14_ABD_readable (l : Lam) (A B D : M3) (hA : l.A = .ok A) (hB : l.B = .ok B)
    (hD : l.D = .ok D) : l.ABD = .ok (Matrix.fromBlocks A B B D) := by
  simp [Lam.ABD, hA, hB, hD]

/-! ## C15 -/

/-- Admissible ply: positive thickness and a positive definite `Q_0`. -/
def Spec.AdmissiblePly (p : ℝ × Mat) : Prop :=
  0 < p.2.thickness ∧ ∃ Q, p.2.Q0 = .ok Q ∧ IsPD Q

theorem layer_pd {p : ℝ × Mat} (h : AdmissiblePly p) : 0 < (layer p).1 ∧ IsPD (layer p).2 := by
  refine ⟨h.1, ?_⟩
  obtain ⟨Q, hQ, hpd⟩ := h.2
  obtain ⟨Qb, hb⟩ := (plyQ_ok_iff p).mpr ⟨Q, hQ⟩
  have := C12_posDef p.1 p.2 Q Qb hQ hb hpd
  simpa [layer, plyQ!, hb] using this

/-- Energy of a stack of layers in membrane strain `e` and curvature `k`. -/
noncomputable def stackEnergy (z : ℝ) (L : List (ℝ × M3)) (e k : Fin 3 → ℝ) : ℝ :=
  e ⬝ᵥ (mom wA z L *ᵥ e) + 2 * (e ⬝ᵥ (mom wB z L *ᵥ k)) + k ⬝ᵥ (mom wD z L *ᵥ k)

theorem ply_energy (z t : ℝ) (Q : M3) (hQ : Q.IsSymm) (e k : Fin 3 → ℝ) :
    e ⬝ᵥ ((wA z (z + t) • Q) *ᵥ e) + 2 * (e ⬝ᵥ ((wB z (z + t) • Q) *ᵥ k))
      + k ⬝ᵥ ((wD z (z + t) • Q) *ᵥ k) =
    t * ((e + (z + t / 2) • k) ⬝ᵥ (Q *ᵥ (e + (z + t / 2) • k))) + t ^ 3 / 12 * (k ⬝ᵥ (Q *ᵥ k)) := by
  have hsym : k ⬝ᵥ (Q *ᵥ e) = e ⬝ᵥ (Q *ᵥ k) := by
    rw [Matrix.dotProduct_mulVec, ← Matrix.mulVec_transpose, hQ.eq, dotProduct_comm]
  simp only [Matrix.smul_mulVec, dotProduct_smul, smul_eq_mul, Matrix.mulVec_add, Matrix.mulVec_smul,
    add_dotProduct, dotProduct_add, smul_dotProduct, hsym, wA, wB, wD]
  ring

theorem stackEnergy_cons (z t : ℝ) (Q : M3) (hQ : Q.IsSymm) (L : List (ℝ × M3)) (e k : Fin 3 → ℝ) :
    stackEnergy z ((t, Q) :: L) e k =
      (t * ((e + (z + t / 2) • k) ⬝ᵥ (Q *ᵥ (e + (z + t / 2) • k))) + t ^ 3 / 12 * (k ⬝ᵥ (Q *ᵥ k)))
        + stackEnergy (z + t) L e k := by
  rw [← ply_energy z t Q hQ]
  simp only [stackEnergy, mom, Matrix.add_mulVec, dotProduct_add]
  ring

theorem isPD_nonneg {n : Type} [Fintype n] {Q : Matrix n n ℝ} (h : IsPD Q) (x : n → ℝ) :
    0 ≤ x ⬝ᵥ (Q *ᵥ x) := by
  by_cases hx : x = 0
  · simp [hx]
  · exact (h.2 x hx).le

theorem stackEnergy_nonneg (z : ℝ) (L : List (ℝ × M3)) (hL : ∀ p ∈ L, 0 < p.1 ∧ IsPD p.2)
    (e k : Fin 3 → ℝ) : 0 ≤ stackEnergy z L e k := by
  induction L generalizing z with
  | nil => simp [stackEnergy, mom]
  | cons p L ih =>
    obtain ⟨t, Q⟩ := p
    obtain ⟨ht, hQ⟩ := hL (t, Q) (by simp)
    simp only at ht hQ
    rw [stackEnergy_cons z t Q hQ.1]
    have h1 := isPD_nonneg hQ (e + (z + t / 2) • k)
    have h2 := isPD_nonneg hQ k
    have h3 := ih (z + t) fun p hp => hL p (by simp [hp])
    positivity

theorem stackEnergy_pos (z : ℝ) (L : List (ℝ × M3)) (hne : L ≠ [])
    (hL : ∀ p ∈ L, 0 < p.1 ∧ IsPD p.2) (e k : Fin 3 → ℝ) (hek : e ≠ 0 ∨ k ≠ 0) :
    0 < stackEnergy z L e k := by
  cases L with
  | nil => exact absurd rfl hne
  | cons p L =>
    obtain ⟨t, Q⟩ := p
    obtain ⟨ht, hQ⟩ := hL (t, Q) (by simp)
    simp only at ht hQ
    rw [stackEnergy_cons z t Q hQ.1]
    have h3 := stackEnergy_nonneg (z + t) L (fun p hp => hL p (by simp [hp])) e k
    by_cases hk : k = 0
    · have he : e ≠ 0 := by
        rcases hek with h | h
        · exact h
        · exact absurd hk h
      have h1 := hQ.2 e he
      simp only [hk, smul_zero, add_zero, Matrix.mulVec_zero, dotProduct_zero, mul_zero] at h3 ⊢
      have : 0 < t * (e ⬝ᵥ Q *ᵥ e) := mul_pos ht h1
      linarith
    · have h1 := isPD_nonneg hQ (e + (z + t / 2) • k)
      have h2 := hQ.2 k hk
      have h4 : 0 < t ^ 3 / 12 * (k ⬝ᵥ (Q *ᵥ k)) := by positivity
      have h5 : 0 ≤ t * ((e + (z + t / 2) • k) ⬝ᵥ (Q *ᵥ (e + (z + t / 2) • k))) := by positivity
      linarith

theorem fromBlocks_quad (A B D : M3) (hB : B.IsSymm) (x : I6 → ℝ) :
    x ⬝ᵥ (Matrix.fromBlocks A B B D *ᵥ x) =
      (x ∘ Sum.inl) ⬝ᵥ (A *ᵥ (x ∘ Sum.inl)) + 2 * ((x ∘ Sum.inl) ⬝ᵥ (B *ᵥ (x ∘ Sum.inr)))
        + (x ∘ Sum.inr) ⬝ᵥ (D *ᵥ (x ∘ Sum.inr)) := by
  have hsym : (x ∘ Sum.inr) ⬝ᵥ (B *ᵥ (x ∘ Sum.inl)) = (x ∘ Sum.inl) ⬝ᵥ (B *ᵥ (x ∘ Sum.inr)) := by
    rw [Matrix.dotProduct_mulVec, ← Matrix.mulVec_transpose, hB.eq, dotProduct_comm]
  rw [Matrix.fromBlocks_mulVec]
  have hsplit : ∀ a b : Fin 3 → ℝ, x ⬝ᵥ Sum.elim a b = (x ∘ Sum.inl) ⬝ᵥ a + (x ∘ Sum.inr) ⬝ᵥ b := by
    intro a b
    simp [dotProduct, Fintype.sum_sum_type]
  rw [hsplit, dotProduct_add, dotProduct_add, hsym]
  ring

/-- **C15** admissible plies give positive definite `A`, `D` and `ABD`; in particular `ABD` is
invertible. -/
theorem C15_posDef (l : Lam) (hs : IsStack l) (hne : l.layup ≠ [])
    (h : ∀ p ∈ l.layup, AdmissiblePly p) :
    ∃ A D M, l.A = .ok A ∧ l.D = .ok D ∧ l.ABD = .ok M ∧ IsPD A ∧ IsPD D ∧ IsPD M ∧ M.det ≠ 0 := by
  have hall : AllOk l.layup := by
    intro p hp
    rw [plyQ_ok_iff]
    obtain ⟨-, Q, hQ, -⟩ := h p hp
    exact ⟨Q, hQ⟩
  set L := l.layup.map layer with hLdef
  set z := bottom l.layup with hz
  have hL : ∀ p ∈ L, 0 < p.1 ∧ IsPD p.2 := by
    intro p hp
    obtain ⟨q, hq, rfl⟩ := List.mem_map.mp hp
    exact layer_pd (h q hq)
  have hLne : L ≠ [] := by simpa [hLdef] using hne
  have hA : l.A = .ok (mom wA z L) := by rw [hs.A_eq, l.loopMatrix_ok _ hall]
  have hB : l.B = .ok (mom wB z L) := by rw [Lam.B, l.loopMatrix_ok _ hall]
  have hD : l.D = .ok (mom wD z L) := by rw [hs.D_eq, l.loopMatrix_ok _ hall]
  have hM := C14_ABD_readable l _ _ _ hA hB hD
  have hMpd : IsPD (Matrix.fromBlocks (mom wA z L) (mom wB z L) (mom wB z L) (mom wD z L)) := by
    refine ⟨?_, ?_⟩
    · rw [Matrix.isSymm_fromBlocks_iff]
      exact ⟨A_isSymm l _ hA, B_isSymm l _ hB, B_isSymm l _ hB, D_isSymm l _ hD⟩
    · intro x hx
      rw [fromBlocks_quad _ _ _ (B_isSymm l _ hB)]
      refine stackEnergy_pos z L hLne hL _ _ ?_
      by_contra hcon
      push Not at hcon
      apply hx
      ext i
      cases i with
      | inl i => exact congrFun hcon.1 i
      | inr i => exact congrFun hcon.2 i
  refine ⟨_, _, _, hA, hD, hM, ⟨A_isSymm l _ hA, ?_⟩, ⟨D_isSymm l _ hD, ?_⟩, hMpd, ?_⟩
  · intro x hx
    have := stackEnergy_pos z L hLne hL x 0 (Or.inl hx)
    simpa [stackEnergy] using this
  · intro x hx
    have := stackEnergy_pos z L hLne hL 0 x (Or.inr hx)
    simpa [stackEnergy] using this
  · intro hdet
    obtain ⟨v, hv, hv0⟩ := Matrix.exists_mulVec_eq_zero_iff.mpr hdet
    have := hMpd.2 v hv
    rw [hv0] at this
    simp at this

/-- A carbon ply used as concrete witness. -/
noncomputable def Spec.carbon : Mat := .ortho ⟨132000, 10300, 1/4, 5500, 0.127, 1500, 1200, 50, 200, 70⟩

theorem carbon_admissible (t : ℝ) : AdmissiblePly (t, carbon) := by
  refine ⟨by norm_num [carbon, Mat.thickness], ?_⟩
  exact (C05_Q0_posDef_iff ⟨132000, 10300, 1/4, 5500, 0.127, 1500, 1200, 50, 200, 70⟩
    (by norm_num) (by norm_num) (by norm_num)).mpr (by norm_num)

/-- Non-vacuity for C13-C15: an unsymmetric carbon stack. -/
example : ∃ l M, Lam.init (.angles [0, 45, 30]) (.single carbon) = .ok l ∧ l.ABD = .ok M ∧ IsPD M := by
  obtain ⟨l, hl, hlay⟩ := C10_single [0, 45, 30] carbon
  obtain ⟨A, D, M, -, -, hM, -, -, hpd, -⟩ := C15_posDef l ⟨_, _, hl⟩ (by simp [hlay]) (by
    intro p hp
    rw [hlay] at hp
    obtain ⟨a, -, rfl⟩ := List.mem_map.mp hp
    exact carbon_admissible a)
  exact ⟨l, M, hl, hM, hpd⟩

end Composipy
