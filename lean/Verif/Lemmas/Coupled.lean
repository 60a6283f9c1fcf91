import Verif.Props.Stiffness

/-!
# Closed form of the coupled matrices
-/

namespace Composipy
open Spec

/-- The ten entries computed for a pair of degrees of freedom (`u`, `v`, `w` row shapes; `u'`, `v'`, `w'` column shapes). -/
noncomputable def tenV (V : RTables) (a b : ℝ) (M : Matrix (Fin 6) (Fin 6) ℝ) (Nxx Nyy Nxy : ℝ)
    (u v w u' v' w' : ℕ × ℕ) : Ten where
  k11 := M 0 0 * (b / a) * (V.fxi_fxi u.1 u'.1 * V.ff u.2 u'.2)
    + M 2 0 * (V.fxi_f u.1 u'.1 * V.f_fxi u.2 u'.2 + V.f_fxi u.1 u'.1 * V.fxi_f u.2 u'.2)
    + M 2 2 * (b / a) * (V.ff u.1 u'.1 * V.fxi_fxi u.2 u'.2)
  k12 := M 1 0 * (V.fxi_f u.1 v'.1 * V.f_fxi u.2 v'.2) + M 2 0 * (b / a) * (V.fxi_fxi u.1 v'.1 * V.ff u.2 v'.2)
    + M 2 1 * (a / b) * (V.ff u.1 v'.1 * V.fxi_fxi u.2 v'.2) + M 2 2 * (V.f_fxi u.1 v'.1 * V.fxi_f u.2 v'.2)
  k13 := -(2 * b / a) * M 3 0 * (V.fxi_fxixi u.1 w'.1 * V.ff u.2 w'.2)
    - 2 / b * M 4 0 * (V.fxi_f u.1 w'.1 * V.f_fxixi u.2 w'.2)
    - 2 / a * M 5 0 * (2 * (V.fxi_fxi u.1 w'.1 * V.f_fxi u.2 w'.2) + V.f_fxixi u.1 w'.1 * V.fxi_f u.2 w'.2)
    - 2 / b ^ 2 * M 5 1 * (V.ff u.1 w'.1 * V.fxi_fxixi u.2 w'.2)
    - 4 / b * M 5 2 * (V.f_fxi u.1 w'.1 * V.fxi_fxi u.2 w'.2)
  k21 := M 1 0 * (V.f_fxi v.1 u'.1 * V.fxi_f v.2 u'.2) + M 2 0 * (a / b) * (V.fxi_fxi v.1 u'.1 * V.ff v.2 u'.2)
    + M 2 1 * (a / b) * (V.ff v.1 u'.1 * V.fxi_fxi v.2 u'.2) + M 2 2 * (V.fxi_f v.1 u'.1 * V.f_fxi v.2 u'.2)
  k22 := M 1 1 * (a / b) * (V.ff v.1 v'.1 * V.fxi_fxi v.2 v'.2)
    + M 2 1 * (V.fxi_f v.1 v'.1 * V.f_fxi v.2 v'.2 + V.f_fxi v.1 v'.1 * V.fxi_f v.2 v'.2)
    + M 2 2 * (b / a) * (V.fxi_fxi v.1 v'.1 * V.ff v.2 v'.2)
  k23 := -(2 / a) * M 4 0 * (V.f_fxixi v.1 w'.1 * V.fxi_f v.2 w'.2)
    - 2 * b / a ^ 2 * M 5 0 * (V.fxi_fxixi v.1 w'.1 * V.ff v.2 w'.2)
    - 2 * a / b ^ 2 * M 4 1 * (V.ff v.1 w'.1 * V.fxi_fxixi v.2 w'.2)
    - 2 / b * M 5 1 * (V.fxi_f v.1 w'.1 * V.f_fxixi v.2 w'.2 + 2 * (V.f_fxi v.1 w'.1 * V.fxi_fxi v.2 w'.2))
    - 4 / a * M 5 2 * (V.fxi_fxi v.1 w'.1 * V.f_fxi v.2 w'.2)
  k31 := -(2 * b / a ^ 2) * M 3 0 * (V.fxi_fxixi w.1 u'.1 * V.ff w.2 u'.2)
    - 2 / b * M 4 0 * (V.f_fxi w.1 u'.1 * V.fxixi_f w.2 u'.2)
    - 2 * a / b ^ 2 * M 5 1 * (V.ff w.1 u'.1 * V.fxixi_fxi w.2 u'.2)
    - 4 / b * M 5 2 * (V.fxi_f w.1 u'.1 * V.fxi_fxi w.2 u'.2)
    - 2 / a * M 5 0 * (2 * (V.fxi_fxi w.1 u'.1 * V.fxi_f w.2 u'.2) + V.fxixi_f w.1 u'.1 * V.f_fxi w.2 u'.2)
  k32 := -(2 / a) * M 4 0 * (V.fxixi_f w.1 v'.1 * V.f_fxi w.2 v'.2)
    - 2 * a / b ^ 2 * M 4 1 * (V.ff w.1 v'.1 * V.fxixi_fxi w.2 v'.2)
    - 4 / a * M 5 2 * (V.fxi_fxi w.1 v'.1 * V.fxi_f w.2 v'.2)
    - 2 / b * M 5 1 * (V.f_fxi w.1 v'.1 * V.fxixi_f w.2 v'.2 + 2 * (V.fxi_f w.1 v'.1 * V.fxi_fxi w.2 v'.2))
    - 2 * b / a ^ 2 * M 5 0 * (V.fxixi_fxi w.1 v'.1 * V.ff w.2 v'.2)
  k33 := k33v V a b !![M 3 3, M 3 4, M 3 5; M 4 3, M 4 4, M 4 5; M 5 3, M 5 4, M 5 5] w w'
  g33 := g33v V a b Nxx Nyy Nxy w w'

/-- One loop step of `calc_K_KG_ABD`. -/
noncomputable def stepABD (T : Readers) (p : PlateNum) (M : Matrix (Fin 6) (Fin 6) ℝ) (u v w : ℕ × ℕ × ℕ × ℕ) :
    Except PyErr Ten := do
  let k11 ← calcK11 T p.a p.b u.1 u.2.1 u.2.2.1 u.2.2.2 (M 0 0) (M 2 0) (M 2 2)
  let k12 ← calcK12 T p.a p.b u.1 u.2.1 v.2.2.1 v.2.2.2 (M 1 0) (M 2 0) (M 2 1) (M 2 2)
  let k13 ← calcK13 T p.a p.b u.1 u.2.1 w.2.2.1 w.2.2.2 (M 3 0) (M 4 0) (M 5 0) (M 5 1) (M 5 2)
  let k21 ← calcK21 T p.a p.b v.1 v.2.1 u.2.2.1 u.2.2.2 (M 1 0) (M 2 0) (M 2 1) (M 2 2)
  let k22 ← calcK22 T p.a p.b v.1 v.2.1 v.2.2.1 v.2.2.2 (M 1 1) (M 2 1) (M 2 2)
  let k23 ← calcK23 T p.a p.b v.1 v.2.1 w.2.2.1 w.2.2.2 (M 4 0) (M 5 0) (M 4 1) (M 5 1) (M 5 2)
  let k31 ← calcK31 T p.a p.b w.1 w.2.1 u.2.2.1 u.2.2.2 (M 3 0) (M 4 0) (M 5 0) (M 5 1) (M 5 2)
  let k32 ← calcK32 T p.a p.b w.1 w.2.1 v.2.2.1 v.2.2.2 (M 4 0) (M 5 0) (M 4 1) (M 5 1) (M 5 2)
  let k33 ← calcK33 T p.a p.b w.1 w.2.1 w.2.2.1 w.2.2.2 (M 3 3) (M 4 3) (M 4 4) (M 5 3) (M 5 4) (M 5 5)
  let g33 ← calcKG33 T p.a p.b w.1 w.2.1 w.2.2.1 w.2.2.2 p.Nxx p.Nyy p.Nxy
  return { k11, k12, k13, k21, k22, k23, k31, k32, k33, g33 }

/-- The loop of `calc_K_KG_ABD`. -/
noncomputable def loopABD (T : Readers) (p : PlateNum) (M : Matrix (Fin 6) (Fin 6) ℝ)
    (U V W : List (ℕ × ℕ × ℕ × ℕ)) : Except PyErr (List Ten) :=
  (List.range (p.m ^ 2 * p.n ^ 2)).mapM fun i => do
    let u ← pyIdx U i
    let v ← pyIdx V i
    let w ← pyIdx W i
    stepABD T p M u v w

/-- The final assembly. -/
noncomputable def assemble (N : ℕ) (ks : List Ten) : Except PyErr (Matrix (I3 N) (I3 N) ℝ × Matrix (I3 N) (I3 N) ℝ) := do
  let k11 ← reshape N (ks.map Ten.k11)
  let k12 ← reshape N (ks.map Ten.k12)
  let k13 ← reshape N (ks.map Ten.k13)
  let k21 ← reshape N (ks.map Ten.k21)
  let k22 ← reshape N (ks.map Ten.k22)
  let _k23 ← reshape N (ks.map Ten.k23)
  let k31 ← reshape N (ks.map Ten.k31)
  let k32 ← reshape N (ks.map Ten.k32)
  let k33 ← reshape N (ks.map Ten.k33)
  let g33 ← reshape N (ks.map Ten.g33)
  return (stack3 ![![k11, k12, k13], ![k21, k22, k31], ![k31, k32, k33]],
    stack3 ![![0, 0, 0], ![0, 0, 0], ![0, 0, g33]])

theorem calcKKGABD_steps (T : Readers) (M : Matrix (Fin 6) (Fin 6) ℝ) (c : Constraints) (p : PlateNum) :
    calcKKGABD T (.ok M) c p = (do
      let q ← constraintQuads c p.m p.n
      let ks ← loopABD T p M q.1 q.2.1 q.2.2
      assemble (p.m * p.n) ks) := rfl

theorem stepABD_ok {T : Readers} {V : RTables} {P : ℕ → Prop} (h : T.OkOn V P) (p : PlateNum) (ha : p.a ≠ 0) (hb : p.b ≠ 0)
    (M : Matrix (Fin 6) (Fin 6) ℝ) {u v w u' v' w' : ℕ × ℕ} (hu : P u.1 ∧ P u.2) (hv : P v.1 ∧ P v.2) (hw : P w.1 ∧ P w.2)
    (hu' : P u'.1 ∧ P u'.2) (hv' : P v'.1 ∧ P v'.2) (hw' : P w'.1 ∧ P w'.2) :
    stepABD T p M (u.1, u.2, u'.1, u'.2) (v.1, v.2, v'.1, v'.2) (w.1, w.2, w'.1, w'.2) =
      .ok (tenV V p.a p.b M p.Nxx p.Nyy p.Nxy u v w u' v' w') := by
  have e33 := calcK33_ok h ha hb hw.1 hw.2 hw'.1 hw'.2
    !![M 3 3, M 3 4, M 3 5; M 4 3, M 4 4, M 4 5; M 5 3, M 5 4, M 5 5]
  simp only [Matrix.of_apply, Matrix.cons_val_zero, Matrix.cons_val_one, Matrix.cons_val] at e33
  have eg := calcKG33_ok h ha hb hw.1 hw.2 hw'.1 hw'.2 p.Nxx p.Nyy p.Nxy
  obtain ⟨hu1, hu2⟩ := hu
  obtain ⟨hv1, hv2⟩ := hv
  obtain ⟨hw1, hw2⟩ := hw
  obtain ⟨hu1', hu2'⟩ := hu'
  obtain ⟨hv1', hv2'⟩ := hv'
  obtain ⟨hw1', hw2'⟩ := hw'
  have F := fun (i k : ℕ) (hi : P i) (hk : P k) => And.intro (h.ff i k hi hk) <| And.intro (h.fxi_f i k hi hk) <|
    And.intro (h.f_fxi i k hi hk) <| And.intro (h.fxi_fxi i k hi hk) <| And.intro (h.fxixi_f i k hi hk) <|
    And.intro (h.f_fxixi i k hi hk) <| And.intro (h.fxixi_fxi i k hi hk) (h.fxi_fxixi i k hi hk)
  unfold stepABD
  have e11 : calcK11 T p.a p.b u.1 u.2 u'.1 u'.2 (M 0 0) (M 2 0) (M 2 2) = .ok (tenV V p.a p.b M p.Nxx p.Nyy p.Nxy u v w u' v' w').k11 := by
    simp [calcK11, rmul, pyDiv, tenV, F _ _ hu1 hu1', F _ _ hu2 hu2', ha]
  have e12 : calcK12 T p.a p.b u.1 u.2 v'.1 v'.2 (M 1 0) (M 2 0) (M 2 1) (M 2 2) = .ok (tenV V p.a p.b M p.Nxx p.Nyy p.Nxy u v w u' v' w').k12 := by
    simp [calcK12, rmul, pyDiv, tenV, F _ _ hu1 hv1', F _ _ hu2 hv2', ha, hb]
  have e13 : calcK13 T p.a p.b u.1 u.2 w'.1 w'.2 (M 3 0) (M 4 0) (M 5 0) (M 5 1) (M 5 2) = .ok (tenV V p.a p.b M p.Nxx p.Nyy p.Nxy u v w u' v' w').k13 := by
    simp [calcK13, rmul, pyDiv, tenV, F _ _ hu1 hw1', F _ _ hu2 hw2', ha, hb]
  have e21 : calcK21 T p.a p.b v.1 v.2 u'.1 u'.2 (M 1 0) (M 2 0) (M 2 1) (M 2 2) = .ok (tenV V p.a p.b M p.Nxx p.Nyy p.Nxy u v w u' v' w').k21 := by
    simp [calcK21, rmul, pyDiv, tenV, F _ _ hv1 hu1', F _ _ hv2 hu2', hb]
  have e22 : calcK22 T p.a p.b v.1 v.2 v'.1 v'.2 (M 1 1) (M 2 1) (M 2 2) = .ok (tenV V p.a p.b M p.Nxx p.Nyy p.Nxy u v w u' v' w').k22 := by
    simp [calcK22, rmul, pyDiv, tenV, F _ _ hv1 hv1', F _ _ hv2 hv2', ha, hb]
  have e23 : calcK23 T p.a p.b v.1 v.2 w'.1 w'.2 (M 4 0) (M 5 0) (M 4 1) (M 5 1) (M 5 2) = .ok (tenV V p.a p.b M p.Nxx p.Nyy p.Nxy u v w u' v' w').k23 := by
    simp [calcK23, rmul, pyDiv, tenV, F _ _ hv1 hw1', F _ _ hv2 hw2', ha, hb]
  have e31 : calcK31 T p.a p.b w.1 w.2 u'.1 u'.2 (M 3 0) (M 4 0) (M 5 0) (M 5 1) (M 5 2) = .ok (tenV V p.a p.b M p.Nxx p.Nyy p.Nxy u v w u' v' w').k31 := by
    simp [calcK31, rmul, pyDiv, tenV, F _ _ hw1 hu1', F _ _ hw2 hu2', ha, hb]
  have e32 : calcK32 T p.a p.b w.1 w.2 v'.1 v'.2 (M 4 0) (M 5 0) (M 4 1) (M 5 1) (M 5 2) = .ok (tenV V p.a p.b M p.Nxx p.Nyy p.Nxy u v w u' v' w').k32 := by
    simp [calcK32, rmul, pyDiv, tenV, F _ _ hw1 hv1', F _ _ hw2 hv2', ha, hb]
  simp only [e11, e12, e13, e21, e22, e23, e31, e32, e33, eg, ok_bind, pure_eq_ok]
  rfl

/-- A doubly indexed list read at a flat index. -/
theorem pyIdx_quads (P : List (ℕ × ℕ)) (N i : ℕ) (hN : P.length = N) (hi : i < N * N) :
    pyIdx (P.flatMap fun p => P.map fun q => (p.1, p.2, q.1, q.2)) i =
      .ok ((P.getD (i / N) (0, 0)).1, (P.getD (i / N) (0, 0)).2, (P.getD (i % N) (0, 0)).1, (P.getD (i % N) (0, 0)).2) := by
  subst hN
  have hpos : 0 < P.length := by
    rcases Nat.eq_zero_or_pos P.length with h | h
    · rw [h] at hi; omega
    · exact h
  have hr : i / P.length < P.length := (Nat.div_lt_iff_lt_mul hpos).mpr hi
  have hc : i % P.length < P.length := Nat.mod_lt _ hpos
  have e : i = i / P.length * P.length + i % P.length := (Nat.div_add_mod' i P.length).symm
  have := flatMap_map_get P P (fun p q => (p.1, p.2, q.1, q.2)) _ _ hr hc
  rw [← e] at this
  simp [pyIdx, this, List.getD, hr, hc]

theorem reshape_range (N : ℕ) (g : ℕ → ℕ → ℝ) :
    reshape N ((List.range (N * N)).map fun i => g (i / N) (i % N)) = .ok (Matrix.of fun r c : Fin N => g r c) := by
  unfold reshape
  rw [if_pos (by simp)]
  congr 1
  funext r c
  have hN : 0 < N := r.pos
  have hlt : (r : ℕ) * N + c < N * N := by
    calc (r : ℕ) * N + c < r * N + N := by omega
      _ = (r + 1) * N := by ring
      _ ≤ N * N := Nat.mul_le_mul_right _ r.2
  simp only [List.getD, List.getElem?_map, List.getElem?_range hlt, Option.map_some, Option.getD_some, Matrix.of_apply]
  congr 1
  · rw [Nat.add_comm, Nat.add_mul_div_right _ _ hN, Nat.div_eq_of_lt c.2, zero_add]
  · rw [Nat.add_comm, Nat.add_mul_mod_self_right, Nat.mod_eq_of_lt c.2]

/-- The ten matrices over lists of shapes. -/
noncomputable def tenMat (V : RTables) (p : PlateNum) (M : Matrix (Fin 6) (Fin 6) ℝ) (s : ShapeIdx) (r c : ℕ) : Ten :=
  tenV V p.a p.b M p.Nxx p.Nyy p.Nxy (s.u.getD r (0, 0)) (s.v.getD r (0, 0)) (s.w.getD r (0, 0))
    (s.u.getD c (0, 0)) (s.v.getD c (0, 0)) (s.w.getD c (0, 0))

/-- The coupled stiffness matrix. -/
noncomputable def kABD (V : RTables) (p : PlateNum) (M : Matrix (Fin 6) (Fin 6) ℝ) (s : ShapeIdx) :
    Matrix (I3 (p.m * p.n)) (I3 (p.m * p.n)) ℝ :=
  let t := tenMat V p M s
  stack3 ![![Matrix.of fun r c => (t r c).k11, Matrix.of fun r c => (t r c).k12, Matrix.of fun r c => (t r c).k13],
    ![Matrix.of fun r c => (t r c).k21, Matrix.of fun r c => (t r c).k22, Matrix.of fun r c => (t r c).k31],
    ![Matrix.of fun r c => (t r c).k31, Matrix.of fun r c => (t r c).k32, Matrix.of fun r c => (t r c).k33]]

/-- Closed form of the result of `calc_K_KG_ABD`. -/
theorem calcKKGABD_ok {T : Readers} {V : RTables} {P : ℕ → Prop} (h : T.OkOn V P) (M : Matrix (Fin 6) (Fin 6) ℝ)
    (c : Constraints) (p : PlateNum) (s : ShapeIdx) (hs : computeIdx c p.m p.n = .ok s) (ha : p.a ≠ 0) (hb : p.b ≠ 0)
    (hu : ∀ q ∈ s.u, P q.1 ∧ P q.2) (hv : ∀ q ∈ s.v, P q.1 ∧ P q.2) (hw : ∀ q ∈ s.w, P q.1 ∧ P q.2) :
    calcKKGABD T (.ok M) c p = .ok (kABD V p M s,
      stack3 ![![0, 0, 0], ![0, 0, 0], ![0, 0, Matrix.of fun r c => (tenMat V p M s r c).g33]]) := by
  obtain ⟨lu, lv, lw⟩ := C40_sizes c _ _ s hs
  have hN : p.m ^ 2 * p.n ^ 2 = p.m * p.n * (p.m * p.n) := by ring
  rw [calcKKGABD_steps, constraintQuads_eq, hs]
  simp only [ok_bind, pure_eq_ok]
  have hloop : loopABD T p M (s.u.flatMap fun p => s.u.map fun q => (p.1, p.2, q.1, q.2))
      (s.v.flatMap fun p => s.v.map fun q => (p.1, p.2, q.1, q.2))
      (s.w.flatMap fun p => s.w.map fun q => (p.1, p.2, q.1, q.2)) =
      .ok ((List.range (p.m * p.n * (p.m * p.n))).map fun i => tenMat V p M s (i / (p.m * p.n)) (i % (p.m * p.n))) := by
    unfold loopABD
    rw [hN]
    apply mapM_ok
    intro i hi
    have hi := List.mem_range.mp hi
    have hpos : 0 < p.m * p.n := by
      rcases Nat.eq_zero_or_pos (p.m * p.n) with h | h
      · rw [h] at hi; omega
      · exact h
    have hr : i / (p.m * p.n) < p.m * p.n := (Nat.div_lt_iff_lt_mul hpos).mpr hi
    have hc : i % (p.m * p.n) < p.m * p.n := Nat.mod_lt _ hpos
    rw [pyIdx_quads s.u _ i lu.len hi, pyIdx_quads s.v _ i lv.len hi, pyIdx_quads s.w _ i lw.len hi]
    simp only [ok_bind]
    have mem : ∀ (l : List (ℕ × ℕ)) (k : ℕ), k < l.length → l.getD k (0, 0) ∈ l := by
      intro l k hk
      simp [List.getD, hk]
    exact stepABD_ok h p ha hb M (hu _ (mem _ _ (by rw [lu.len]; exact hr))) (hv _ (mem _ _ (by rw [lv.len]; exact hr)))
      (hw _ (mem _ _ (by rw [lw.len]; exact hr))) (hu _ (mem _ _ (by rw [lu.len]; exact hc)))
      (hv _ (mem _ _ (by rw [lv.len]; exact hc))) (hw _ (mem _ _ (by rw [lw.len]; exact hc)))
  rw [hloop]
  simp only [ok_bind, assemble, List.map_map, Function.comp_def]
  have R := fun (f : Ten → ℝ) => reshape_range (p.m * p.n) fun r c => f (tenMat V p M s r c)
  have r11 := R Ten.k11
  have r12 := R Ten.k12
  have r13 := R Ten.k13
  have r21 := R Ten.k21
  have r22 := R Ten.k22
  have r23 := R Ten.k23
  have r31 := R Ten.k31
  have r32 := R Ten.k32
  have r33 := R Ten.k33
  have rg := R Ten.g33
  rw [r11, r12, r13, r21, r22, r23, r31, r32, r33, rg]
  rfl

/-- All selected shapes are numbered below `m + 4` and `n + 4`. -/
theorem idx_range {c : Constraints} {m n : ℕ} {s : ShapeIdx} (h : computeIdx c m n = .ok s) :
    (∀ q ∈ s.u, q.1 < m + 4 ∧ q.2 < n + 4) ∧ (∀ q ∈ s.v, q.1 < m + 4 ∧ q.2 < n + 4) ∧
      (∀ q ∈ s.w, q.1 < m + 4 ∧ q.2 < n + 4) := by
  unfold computeIdx at h
  cases he : chooseEdges c with
  | error e => simp [he] at h
  | ok e =>
    obtain ⟨i, hi, h1, h2, h3, h4, h5, h6⟩ := idxLists_ok e m n
    simp only [he, hi, ok_bind, pure_eq_ok, Except.ok.injEq] at h
    subst h
    refine ⟨fun q hq => ?_, fun q hq => ?_, fun q hq => ?_⟩
    · have hq' := List.mem_product.mp (show (q.1, q.2) ∈ i.um ×ˢ i.un from hq)
      exact ⟨isFirst_lt h1 _ hq'.1, isFirst_lt h4 _ hq'.2⟩
    · have hq' := List.mem_product.mp (show (q.1, q.2) ∈ i.vm ×ˢ i.vn from hq)
      rw [h5] at hq'
      exact ⟨isFirst_lt h2 _ hq'.1, isFirst_lt h4 _ hq'.2⟩
    · have hq' := List.mem_product.mp (show (q.1, q.2) ∈ i.wm ×ˢ i.wn from hq)
      rw [h6] at hq'
      exact ⟨isFirst_lt h3 _ hq'.1, isFirst_lt h4 _ hq'.2⟩

/-- Projecting a successful loop. -/
theorem mapM_proj {α β γ : Type} (L : List α) (f : α → Except PyErr β) (g : α → Except PyErr γ) (π : β → γ) (ys : List β)
    (hf : L.mapM f = .ok ys) (hg : ∀ x y, f x = .ok y → g x = .ok (π y)) : L.mapM g = .ok (ys.map π) := by
  induction L generalizing ys with
  | nil => cases hf; rfl
  | cons x xs ih =>
    rw [List.mapM_cons] at hf ⊢
    cases hx : f x with
    | error e => rw [hx] at hf; cases hf
    | ok y =>
      rw [hx] at hf
      cases hxs : xs.mapM f with
      | error e => rw [hxs] at hf; cases hf
      | ok zs =>
        rw [hxs] at hf
        cases hf
        rw [hg x y hx, ih zs hxs]
        rfl

end Composipy
