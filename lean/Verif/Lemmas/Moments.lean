import Verif.Props.Rotation

/-!
Pure form of the stiffness loops: `mom`.
-/

namespace Composipy
open Spec Matrix

/-- Interface heights from `z` upwards. -/
def zList (z : ℝ) : List ℝ → List ℝ
  | [] => [z]
  | t :: ts => z :: zList (z + t) ts

/-- Weighted sum over layers `(thickness, stiffness)`, starting at height `z`. -/
def mom {V : Type} [AddCommGroup V] [Module ℝ V] (w : ℝ → ℝ → ℝ) (z : ℝ) : List (ℝ × V) → V
  | [] => 0
  | (t, Q) :: rest => w z (z + t) • Q + mom w (z + t) rest

theorem zList_length (z : ℝ) (ts : List ℝ) : (zList z ts).length = ts.length + 1 := by
  induction ts generalizing z with
  | nil => rfl
  | cons t ts ih => simp [zList, ih]

theorem zList_head (z : ℝ) (ts : List ℝ) : (zList z ts)[0]? = some z := by
  cases ts <;> rfl

theorem totalThickness_eq (L : List (ℝ × Mat)) :
    totalThickness L = (L.map fun p => p.2.thickness).sum := by
  have : ∀ (L : List (ℝ × Mat)) (a : ℝ),
      L.foldl (fun tot p => tot + p.2.thickness) a = a + (L.map fun p => p.2.thickness).sum := by
    intro L
    induction L with
    | nil => simp
    | cons p L ih => intro a; simp [ih, add_assoc]
  simp [totalThickness, this]

theorem zPosition_fold (L : List (ℝ × Mat)) (z : ℝ) (pre : List ℝ) :
    (L.foldl (fun st p => (st.1 + p.2.thickness, st.2 ++ [st.1 + p.2.thickness]))
      (z, pre ++ [z])).2 = pre ++ zList z (L.map fun p => p.2.thickness) := by
  induction L generalizing z pre with
  | nil => simp [zList]
  | cons p L ih =>
    simp only [List.foldl_cons, List.map_cons, zList]
    rw [ih]; simp

theorem zPositionOf_eq (L : List (ℝ × Mat)) :
    zPositionOf L = zList (-(totalThickness L) / 2) (L.map fun p => p.2.thickness) := by
  have := zPosition_fold L (-(totalThickness L) / 2) []
  simpa [zPositionOf] using this

theorem pyIdx_append {α : Type} (pre l : List α) (j : Nat) :
    pyIdx (pre ++ l) (pre.length + j) = pyIdx l j := by
  simp only [pyIdx, List.getElem?_append_right (Nat.le_add_right _ _), Nat.add_sub_cancel_left]

theorem loop_zList {α V : Type} [AddCommGroup V] [Module ℝ V] (g : α → V) (w : ℝ → ℝ → ℝ)
    (ts : List ℝ) (xs : List α) (h : xs.length = ts.length) (z : ℝ) (pre : List ℝ) (acc : V) :
    (xs.zipIdx pre.length).foldlM (fun acc (xi : α × Nat) => do
      let zk1 ← pyIdx (pre ++ zList z ts) (xi.2 + 1)
      let zk0 ← pyIdx (pre ++ zList z ts) xi.2
      return acc + w zk0 zk1 • g xi.1) acc = Except.ok (acc + mom w z (ts.zip (xs.map g))) := by
  induction ts generalizing xs z pre acc with
  | nil =>
    cases xs with
    | nil => simp [mom]
    | cons Q xs => simp at h
  | cons t ts ih =>
    cases xs with
    | nil => simp at h
    | cons Q xs =>
      simp only [List.zipIdx_cons, List.foldlM_cons]
      have h0 : pyIdx (pre ++ zList z (t :: ts)) pre.length = .ok z := by
        have := pyIdx_append pre (zList z (t :: ts)) 0
        simpa [zList, pyIdx] using this
      have h1 : pyIdx (pre ++ zList z (t :: ts)) (pre.length + 1) = .ok (z + t) := by
        rw [pyIdx_append]
        simp [zList, pyIdx, zList_head]
      simp only [h0, h1, ok_bind, pure_eq_ok]
      have h2 := ih xs (by simpa using h) (z + t) (pre ++ [z]) (acc + w z (z + t) • g Q)
      simp only [List.append_assoc, List.singleton_append, List.length_append, List.length_singleton]
        at h2
      simp only [zList, List.map_cons, List.zip_cons_cons, mom, ← add_assoc]
      exact h2

theorem momentLoop_zList (w : ℝ → ℝ → ℝ) (ts : List ℝ) (Qs : List M3) (h : Qs.length = ts.length)
    (z : ℝ) : momentLoop w (zList z ts) Qs 0 = Except.ok (mom w z (ts.zip Qs)) := by
  have := loop_zList id w ts Qs h z [] 0
  simpa [momentLoop] using this

/-- Every ply stiffness can be read. -/
def AllOk (L : List (ℝ × Mat)) : Prop := ∀ p ∈ L, ∃ Q, plyQ p = .ok Q

/-- Rotated stiffness of a ply (0 where it cannot be read). -/
noncomputable def plyQ! (p : ℝ × Mat) : M3 :=
  match plyQ p with
  | .ok Q => Q
  | .error _ => 0

/-- Thickness and rotated stiffness of a ply. -/
noncomputable def layer (p : ℝ × Mat) : ℝ × M3 := (p.2.thickness, plyQ! p)

theorem plyQ_of_ok {p : ℝ × Mat} (h : ∃ Q, plyQ p = .ok Q) : plyQ p = .ok (plyQ! p) := by
  obtain ⟨Q, h⟩ := h
  simp [plyQ!, h]

theorem Mat.Q0_err (m : Mat) (e : PyErr) (h : m.Q0 = .error e) : e = .zeroDivisionError := by
  cases m with
  | ortho m => exact C05_Q0_only_zeroDiv m e h
  | iso m =>
    by_cases hd : 1 - m.v * m.v = 0
    · simp [Mat.Q0, IsoMat.Q0, pyDiv, hd] at h; exact h.symm
    · rw [Mat.Q0, m.Q0_of_ne hd] at h; cases h

theorem plyQ_err {p : ℝ × Mat} {e : PyErr} (h : plyQ p = .error e) : e = .zeroDivisionError := by
  have := ((C12_rotation_law p.1 p.2).2 e).mp h
  exact p.2.Q0_err e this

theorem plyQ_ok_iff (p : ℝ × Mat) : (∃ Q, plyQ p = .ok Q) ↔ ∃ Q, p.2.Q0 = .ok Q := by
  rw [plyQ_eq]; cases p.2.Q0 <;> simp

theorem mapM_plyQ_ok (L : List (ℝ × Mat)) (h : AllOk L) : L.mapM plyQ = .ok (L.map plyQ!) := by
  induction L with
  | nil => rfl
  | cons p L ih =>
    rw [List.mapM_cons, plyQ_of_ok (h p (by simp)), ih fun q hq => h q (by simp [hq])]
    rfl

theorem mapM_plyQ_err (L : List (ℝ × Mat)) (h : ¬ AllOk L) :
    L.mapM plyQ = .error .zeroDivisionError := by
  induction L with
  | nil => exact absurd (by simp [AllOk]) h
  | cons p L ih =>
    rw [List.mapM_cons]
    cases hp : plyQ p with
    | error e => rw [plyQ_err hp]; rfl
    | ok Q =>
      have : ¬ AllOk L := by
        intro hL
        apply h
        intro q hq
        rcases List.mem_cons.mp hq with rfl | hq
        · exact ⟨Q, hp⟩
        · exact hL q hq
      rw [ih this]; rfl

theorem Lam.Qlayup_ok (l : Lam) (h : AllOk l.layup) : l.Qlayup = .ok (l.layup.map plyQ!) :=
  mapM_plyQ_ok _ h

theorem Lam.Qlayup_err (l : Lam) (h : ¬ AllOk l.layup) : l.Qlayup = .error .zeroDivisionError :=
  mapM_plyQ_err _ h

theorem Lam.Qlayup_ok_iff (l : Lam) : (∃ Qs, l.Qlayup = .ok Qs) ↔ AllOk l.layup := by
  constructor
  · rintro ⟨Qs, h⟩
    by_contra hn
    rw [l.Qlayup_err hn] at h; cases h
  · intro h; exact ⟨_, l.Qlayup_ok h⟩

/-- Height of the bottom face. -/
noncomputable def bottom (L : List (ℝ × Mat)) : ℝ := -(totalThickness L) / 2

theorem Lam.loopMatrix_ok (l : Lam) (w : ℝ → ℝ → ℝ) (h : AllOk l.layup) :
    l.loopMatrix w = .ok (mom w (bottom l.layup) (l.layup.map layer)) := by
  have h1 := momentLoop_zList w (l.layup.map fun p => p.2.thickness) (l.layup.map plyQ!) (by simp)
    (bottom l.layup)
  simp only [Lam.loopMatrix, l.Qlayup_ok h, ok_bind, Lam.zPosition, zPositionOf_eq]
  rw [bottom] at h1
  rw [h1]
  congr 2
  rw [List.zip_map']
  rfl

theorem Lam.loopMatrix_err (l : Lam) (w : ℝ → ℝ → ℝ) (h : ¬ AllOk l.layup) :
    l.loopMatrix w = .error .zeroDivisionError := by
  simp [Lam.loopMatrix, l.Qlayup_err h]

/-- The laminate was built from a list of angles. -/
def IsStack (l : Lam) : Prop := ∃ s p, Lam.init (.angles s) p = .ok l

theorem IsStack.lp_none {l : Lam} (h : IsStack l) :
    l.xiA = .none ∧ l.xiB = .none ∧ l.xiD = .none ∧ l.T = .none := by
  obtain ⟨s, p, h⟩ := h
  cases p with
  | single m => simp only [Lam.init, Except.ok.injEq] at h; subst h; simp
  | list ps =>
    simp only [Lam.init] at h
    split at h
    · cases h
    · simp only [Except.ok.injEq] at h; subst h; simp

theorem IsStack.A_eq {l : Lam} (h : IsStack l) : l.A = l.loopMatrix wA := by
  simp [Lam.A, h.lp_none.1]

theorem IsStack.D_eq {l : Lam} (h : IsStack l) : l.D = l.loopMatrix wD := by
  simp [Lam.D, h.lp_none.2.2.1]

theorem loopMatrix_layup (l l' : Lam) (w : ℝ → ℝ → ℝ) (h : l.layup = l'.layup) :
    l.loopMatrix w = l'.loopMatrix w := by
  simp only [Lam.loopMatrix, Lam.Qlayup, Lam.zPosition, h]

/-! ### Algebra of `mom` -/

section
variable {V : Type} [AddCommGroup V] [Module ℝ V]

theorem mom_append (w : ℝ → ℝ → ℝ) (z : ℝ) (L L' : List (ℝ × V)) :
    mom w z (L ++ L') = mom w z L + mom w (z + (L.map Prod.fst).sum) L' := by
  induction L generalizing z with
  | nil => simp [mom]
  | cons p L ih =>
    obtain ⟨t, Q⟩ := p
    simp [mom, ih, add_assoc]

theorem mom_wA (z : ℝ) (L : List (ℝ × V)) : mom wA z L = (L.map fun p => p.1 • p.2).sum := by
  induction L generalizing z with
  | nil => rfl
  | cons p L ih =>
    obtain ⟨t, Q⟩ := p
    simp [mom, ih, wA]

theorem mom_reverse (w : ℝ → ℝ → ℝ) (z : ℝ) (L : List (ℝ × V)) :
    mom w (-(z + (L.map Prod.fst).sum)) L.reverse = mom (fun a b => w (-b) (-a)) z L := by
  induction L generalizing z with
  | nil => simp [mom]
  | cons p L ih =>
    obtain ⟨t, Q⟩ := p
    rw [List.reverse_cons, mom_append]
    simp only [List.map_cons, List.sum_cons, mom, List.map_reverse, List.sum_reverse]
    rw [← ih (z + t), add_comm]
    congr 1
    · rw [show -(z + (t + (L.map Prod.fst).sum)) + (L.map Prod.fst).sum = -(z + t) by ring]
      simp
    · rw [add_assoc]

theorem mom_neg_weight (w : ℝ → ℝ → ℝ) (z : ℝ) (L : List (ℝ × V)) :
    mom (fun a b => - w a b) z L = - mom w z L := by
  induction L generalizing z with
  | nil => simp [mom]
  | cons p L ih => obtain ⟨t, Q⟩ := p; simp [mom, ih]; abel

theorem mom_map_linear {W : Type} [AddCommGroup W] [Module ℝ W] (f : V →ₗ[ℝ] W)
    (w : ℝ → ℝ → ℝ) (z : ℝ) (L : List (ℝ × V)) :
    mom w z (L.map fun p => (p.1, f p.2)) = f (mom w z L) := by
  induction L generalizing z with
  | nil => simp [mom]
  | cons p L ih => obtain ⟨t, Q⟩ := p; simp [mom, ih]

/-- Homogeneous weights of degree `d`. -/
theorem mom_scale (w : ℝ → ℝ → ℝ) (k : ℝ) (d : Nat) (hw : ∀ a b, w (k * a) (k * b) = k ^ d * w a b)
    (z : ℝ) (L : List (ℝ × V)) :
    mom w (k * z) (L.map fun p => (k * p.1, p.2)) = k ^ d • mom w z L := by
  induction L generalizing z with
  | nil => simp [mom]
  | cons p L ih =>
    obtain ⟨t, Q⟩ := p
    simp only [List.map_cons, mom]
    rw [← mul_add, hw, ih (z + t), smul_add, smul_smul]

/-- Additive weights: `w a b + w b c = w a c`. -/
theorem mom_split (w : ℝ → ℝ → ℝ) (hw : ∀ a b c, w a b + w b c = w a c) (z t1 t2 : ℝ) (Q : V)
    (L : List (ℝ × V)) :
    mom w z ((t1, Q) :: (t2, Q) :: L) = mom w z ((t1 + t2, Q) :: L) := by
  simp only [mom, ← add_assoc]
  rw [← add_smul, hw]

theorem mom_zero_ply (w : ℝ → ℝ → ℝ) (hw : ∀ a, w a a = 0) (z : ℝ) (Q : V) (L : List (ℝ × V)) :
    mom w z ((0, Q) :: L) = mom w z L := by
  simp [mom, hw]

end

theorem map_layer_fst (L : List (ℝ × Mat)) :
    ((L.map layer).map Prod.fst).sum = totalThickness L := by
  rw [totalThickness_eq, List.map_map]
  rfl

theorem bottom_add (L : List (ℝ × Mat)) : bottom L + totalThickness L = totalThickness L / 2 := by
  simp only [bottom]; ring

end Composipy
