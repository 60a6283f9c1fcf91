import Verif.Props.Invariants

/-!
# C101: stacks of 0, 45, 90 and 135 degree plies with rational data, and the reference values of the tests

The angles of most laminates are multiples of 45 degrees.  For them the squares and the product of the cosine and the sine are
rational, so every number reported for such a laminate is rational when its data are.  This file gives those numbers by a separate,
executable calculation over `ℚ` (textbook formulas for the rotated stiffness, sums over the plies) and proves that the code in
exact arithmetic returns them.  The reference values of `tests/test_ABD.py`, `tests/test_Material_Q0.py`,
`tests/test_lamination_parameters.py` and `tests/test_laminate_strains.py` follow by evaluating that calculation.
-/

namespace Composipy
open Spec Matrix

/-! ## The separate calculation -/

/-- A ply with exact data: the angle is `45 * k` degrees. -/
abbrev Spec.ExactPly := ℤ × OrthoMat ℚ

/-- The material object with these data. -/
noncomputable def Spec.realMat (m : OrthoMat ℚ) : Mat :=
  .ortho { e1 := m.e1, e2 := m.e2, v12 := m.v12, g12 := m.g12, thickness := m.thickness,
           t1 := m.t1, c1 := m.c1, t2 := m.t2, c2 := m.c2, s := m.s }

/-- The ply with these data. -/
noncomputable def Spec.realPly (p : ExactPly) : ℝ × Mat := (45 * p.1, realMat p.2)

/-- `cos² (45 k°)`, `sin² (45 k°)`, `cos (45 k°) * sin (45 k°)`. -/
def Spec.trig (k : ℤ) : ℚ × ℚ × ℚ :=
  if k % 4 = 0 then (1, 0, 0) else if k % 4 = 1 then (1/2, 1/2, 1/2) else if k % 4 = 2 then (0, 1, 0) else (1/2, 1/2, -1/2)

/-- `1 - nu12 nu21` -/
def Spec.poisson (m : OrthoMat ℚ) : ℚ := 1 - m.v12 ^ 2 * m.e2 / m.e1

/-- The stiffness of a ply in the axes of the laminate. -/
def Spec.exactQ (p : ExactPly) : Matrix (Fin 3) (Fin 3) ℚ :=
  let x := (trig p.1).1
  let y := (trig p.1).2.1
  let z := (trig p.1).2.2
  let Q11 := p.2.e1 / poisson p.2
  let Q12 := p.2.v12 * p.2.e2 / poisson p.2
  let Q22 := p.2.e2 / poisson p.2
  let Q66 := p.2.g12
  let b11 := Q11 * x ^ 2 + 2 * (Q12 + 2 * Q66) * (x * y) + Q22 * y ^ 2
  let b12 := (Q11 + Q22 - 4 * Q66) * (x * y) + Q12 * (x ^ 2 + y ^ 2)
  let b22 := Q11 * y ^ 2 + 2 * (Q12 + 2 * Q66) * (x * y) + Q22 * x ^ 2
  let b16 := (Q11 - Q12 - 2 * Q66) * (z * x) + (Q12 - Q22 + 2 * Q66) * (z * y)
  let b26 := (Q11 - Q12 - 2 * Q66) * (z * y) + (Q12 - Q22 + 2 * Q66) * (z * x)
  let b66 := (Q11 + Q22 - 2 * Q12 - 2 * Q66) * (x * y) + Q66 * (x ^ 2 + y ^ 2)
  !![b11, b12, b16; b12, b22, b26; b16, b26, b66]

/-- Total thickness. -/
def Spec.exactH (P : List ExactPly) : ℚ := (P.map fun p => p.2.thickness).sum

/-- Height of interface number `i`. -/
def Spec.exactZ (P : List ExactPly) (i : ℕ) : ℚ := -(exactH P) / 2 + exactH (P.take i)

/-- `∑ (f (z_{k+1}) - f (z_k)) X_k` over plies whose first lower face is at height `z`. -/
def Spec.exactSum {V : Type} [Add V] [Zero V] [SMul ℚ V] (f : ℚ → ℚ) (X : ExactPly → V) (z : ℚ) : List ExactPly → V
  | [] => 0
  | p :: P => (f (z + p.2.thickness) - f z) • X p + exactSum f X (z + p.2.thickness) P

/-- The `A`, `B` and `D` matrices. -/
def Spec.exactA (P : List ExactPly) : Matrix (Fin 3) (Fin 3) ℚ := exactSum (fun z => z) exactQ (exactZ P 0) P
@[inherit_doc Spec.exactA]
def Spec.exactB (P : List ExactPly) : Matrix (Fin 3) (Fin 3) ℚ := exactSum (fun z => z ^ 2 / 2) exactQ (exactZ P 0) P
@[inherit_doc Spec.exactA]
def Spec.exactD (P : List ExactPly) : Matrix (Fin 3) (Fin 3) ℚ := exactSum (fun z => z ^ 3 / 3) exactQ (exactZ P 0) P

/-- `cos 2t, sin 2t, cos 4t, sin 4t` for `t = 45 k°`. -/
def Spec.exactHarm (p : ExactPly) : Fin 4 → ℚ :=
  ![(trig p.1).1 - (trig p.1).2.1, 2 * (trig p.1).2.2,
    ((trig p.1).1 - (trig p.1).2.1) ^ 2 - (2 * (trig p.1).2.2) ^ 2,
    2 * (2 * (trig p.1).2.2) * ((trig p.1).1 - (trig p.1).2.1)]

/-- Strain at the lower (`top = 0`) or upper (`top = 1`) face of ply number `k`, laminate axes. -/
def Spec.exactStrain (P : List ExactPly) (e : I6 → ℚ) (k top : ℕ) : Fin 3 → ℚ :=
  fun i => e (.inl i) + exactZ P (k + top) * e (.inr i)

/-- Engineering strains in the axes of a ply. -/
def Spec.exactTurn (p : ExactPly) (v : Fin 3 → ℚ) : Fin 3 → ℚ :=
  let x := (trig p.1).1
  let y := (trig p.1).2.1
  let z := (trig p.1).2.2
  ![x * v 0 + y * v 1 + z * v 2, y * v 0 + x * v 1 - z * v 2, -2 * z * v 0 + 2 * z * v 1 + (x - y) * v 2]

/-- Stresses in the axes of a ply from the strains in those axes (Hooke's law of the ply). -/
def Spec.exactHooke (m : OrthoMat ℚ) (v : Fin 3 → ℚ) : Fin 3 → ℚ :=
  ![(m.e1 * v 0 + m.v12 * m.e2 * v 1) / poisson m, (m.v12 * m.e2 * v 0 + m.e2 * v 1) / poisson m, m.g12 * v 2]

/-! ## Rotation by multiples of 45 degrees -/

theorem trig_sq (k : ℤ) : cosd (45 * k) ^ 2 = ((trig k).1 : ℝ) ∧ sind (45 * k) ^ 2 = ((trig k).2.1 : ℝ) ∧
    cosd (45 * k) * sind (45 * k) = ((trig k).2.2 : ℝ) := by
  have hk : ((k : ℤ) : ℝ) = 4 * ((k / 4 : ℤ) : ℝ) + ((k % 4 : ℤ) : ℝ) := by exact_mod_cast (Int.mul_ediv_add_emod k 4).symm
  have hang : 45 * (k : ℝ) * Real.pi / 180 = ((k % 4 : ℤ) : ℝ) * (Real.pi / 4) + ((k / 4 : ℤ) : ℝ) * Real.pi := by
    rw [hk]; ring
  have hu : ((-1 : ℝ) ^ (k / 4)) * ((-1 : ℝ) ^ (k / 4)) = 1 := by
    rw [← mul_zpow]; simp
  have hc : cosd (45 * k) = (-1) ^ (k / 4) * Real.cos (((k % 4 : ℤ) : ℝ) * (Real.pi / 4)) := by
    rw [cosd, hang, Real.cos_add_int_mul_pi]
  have hs : sind (45 * k) = (-1) ^ (k / 4) * Real.sin (((k % 4 : ℤ) : ℝ) * (Real.pi / 4)) := by
    rw [sind, hang, Real.sin_add_int_mul_pi]
  have e1 : cosd (45 * k) ^ 2 = Real.cos (((k % 4 : ℤ) : ℝ) * (Real.pi / 4)) ^ 2 := by
    rw [hc]; linear_combination (Real.cos (((k % 4 : ℤ) : ℝ) * (Real.pi / 4)) ^ 2) * hu
  have e2 : sind (45 * k) ^ 2 = Real.sin (((k % 4 : ℤ) : ℝ) * (Real.pi / 4)) ^ 2 := by
    rw [hs]; linear_combination (Real.sin (((k % 4 : ℤ) : ℝ) * (Real.pi / 4)) ^ 2) * hu
  have e3 : cosd (45 * k) * sind (45 * k) =
      Real.cos (((k % 4 : ℤ) : ℝ) * (Real.pi / 4)) * Real.sin (((k % 4 : ℤ) : ℝ) * (Real.pi / 4)) := by
    rw [hs, hc]
    linear_combination (Real.cos (((k % 4 : ℤ) : ℝ) * (Real.pi / 4)) * Real.sin (((k % 4 : ℤ) : ℝ) * (Real.pi / 4))) * hu
  rw [e1, e2, e3]
  have h2 : Real.sqrt 2 ^ 2 = 2 := Real.sq_sqrt (by norm_num)
  have hr : k % 4 = 0 ∨ k % 4 = 1 ∨ k % 4 = 2 ∨ k % 4 = 3 := by omega
  rcases hr with h | h | h | h
  · simp [trig, h]
  · simp only [trig, h, Int.cast_one, one_mul, Real.cos_pi_div_four, Real.sin_pi_div_four]
    norm_num
    refine ⟨?_, ?_⟩ <;> nlinarith
  · have ha : ((2 : ℤ) : ℝ) * (Real.pi / 4) = Real.pi / 2 := by push_cast; ring
    rw [h, ha]
    simp [trig, h]
  · have ha : ((3 : ℤ) : ℝ) * (Real.pi / 4) = Real.pi - Real.pi / 4 := by push_cast; ring
    rw [h, ha, Real.cos_pi_sub, Real.sin_pi_sub, Real.cos_pi_div_four, Real.sin_pi_div_four]
    simp only [trig, h]
    norm_num
    refine ⟨?_, ?_⟩ <;> nlinarith

theorem Teng_trig (k : ℤ) : Teng (45 * k) = !![((trig k).1 : ℝ), ((trig k).2.1 : ℝ), ((trig k).2.2 : ℝ);
    ((trig k).2.1 : ℝ), ((trig k).1 : ℝ), -((trig k).2.2 : ℝ);
    -2 * ((trig k).2.2 : ℝ), 2 * ((trig k).2.2 : ℝ), ((trig k).1 : ℝ) - ((trig k).2.1 : ℝ)] := by
  obtain ⟨h1, h2, h3⟩ := trig_sq k
  simp only [Teng, h1, h2]
  rw [show -2 * cosd (45 * k) * sind (45 * k) = -2 * (cosd (45 * k) * sind (45 * k)) by ring,
    show 2 * cosd (45 * k) * sind (45 * k) = 2 * (cosd (45 * k) * sind (45 * k)) by ring,
    show -cosd (45 * k) * sind (45 * k) = -(cosd (45 * k) * sind (45 * k)) by ring, h3]

theorem Treal_trig (k : ℤ) : Treal (45 * k) = !![((trig k).1 : ℝ), ((trig k).2.1 : ℝ), 2 * ((trig k).2.2 : ℝ);
    ((trig k).2.1 : ℝ), ((trig k).1 : ℝ), -2 * ((trig k).2.2 : ℝ);
    -((trig k).2.2 : ℝ), ((trig k).2.2 : ℝ), ((trig k).1 : ℝ) - ((trig k).2.1 : ℝ)] := by
  obtain ⟨h1, h2, h3⟩ := trig_sq k
  simp only [Treal, h1, h2]
  rw [show -2 * cosd (45 * k) * sind (45 * k) = -2 * (cosd (45 * k) * sind (45 * k)) by ring,
    show 2 * cosd (45 * k) * sind (45 * k) = 2 * (cosd (45 * k) * sind (45 * k)) by ring,
    show -cosd (45 * k) * sind (45 * k) = -(cosd (45 * k) * sind (45 * k)) by ring, h3]

theorem trig_rel (k : ℤ) : (trig k).2.2 ^ 2 = (trig k).1 * (trig k).2.1 ∧ (trig k).1 + (trig k).2.1 = 1 := by
  unfold trig
  split_ifs <;> norm_num

/-- `Q_0` of a material with rational data. -/
theorem realMat_Q0 (m : OrthoMat ℚ) (h : poisson m ≠ 0) : (realMat m).Q0 =
    .ok !![(m.e1 : ℝ) / (poisson m : ℚ), m.v12 * m.e2 / (poisson m : ℚ), 0;
      m.v12 * m.e2 / (poisson m : ℚ), m.e2 / (poisson m : ℚ), 0; 0, 0, (m.g12 : ℝ)] := by
  have e : ((poisson m : ℚ) : ℝ) = 1 - (m.v12 : ℝ) * (m.v12 * (m.e2 / m.e1)) := by
    unfold poisson; push_cast; ring
  have h' : ((poisson m : ℚ) : ℝ) ≠ 0 := by exact_mod_cast h
  rw [realMat, Mat.Q0, OrthoMat.Q0_of_ne _ (by simp only [OrthoMat.v21]; rw [← e]; exact h')]
  simp only [OrthoMat.v21, ← e]

theorem realMat_Q0_err (m : OrthoMat ℚ) (h : poisson m = 0) : (realMat m).Q0 = .error .zeroDivisionError := by
  have e : ((poisson m : ℚ) : ℝ) = 1 - (m.v12 : ℝ) * (m.v12 * (m.e2 / m.e1)) := by
    unfold poisson; push_cast; ring
  rw [h, Rat.cast_zero] at e
  exact OrthoMat.Q0_of_eq _ e.symm

theorem realPly_Q (p : ExactPly) (h : poisson p.2 ≠ 0) : plyQ (realPly p) = .ok ((exactQ p).map ((↑) : ℚ → ℝ)) := by
  rw [plyQ_eq, realPly, realMat_Q0 p.2 h, ok_map]
  congr 1
  obtain ⟨r1, r2⟩ := trig_rel p.1
  have r1' : ((trig p.1).2.2 : ℝ) ^ 2 = (trig p.1).1 * (trig p.1).2.1 := by exact_mod_cast r1
  rw [rotQ, Teng_trig]
  ext i j
  fin_cases i <;> fin_cases j <;>
    simp [exactQ, Matrix.mul_apply, Fin.sum_univ_three] <;>
    (first
      | ring1
      | linear_combination (4 * (p.2.g12 : ℝ)) * r1'
      | linear_combination (-4 * (p.2.g12 : ℝ)) * r1'
      | linear_combination ((p.2.e1 : ℝ) / (poisson p.2 : ℚ) + p.2.e2 / (poisson p.2 : ℚ)
          - 2 * (p.2.v12 * p.2.e2 / (poisson p.2 : ℚ))) * r1')

/-! ## Sums over the plies -/

theorem mom_exact {U V : Type} [Add U] [Zero U] [SMul ℚ U] [AddCommGroup V] [Module ℝ V] (c : U → V) (h0 : c 0 = 0)
    (ha : ∀ x y, c (x + y) = c x + c y) (hm : ∀ (q : ℚ) x, c (q • x) = (q : ℝ) • c x) (w : ℝ → ℝ → ℝ) (f : ℚ → ℚ)
    (hw : ∀ a b : ℚ, w a b = ((f b - f a : ℚ) : ℝ)) (X : ExactPly → U) (g : ℝ × Mat → ℝ × V) (P : List ExactPly)
    (hg : ∀ p ∈ P, g (realPly p) = ((p.2.thickness : ℝ), c (X p))) (z : ℚ) :
    mom w (z : ℝ) ((P.map realPly).map g) = c (exactSum f X z P) := by
  induction P generalizing z with
  | nil => simp [mom, exactSum, h0]
  | cons p P ih =>
    have hp := hg p (by simp)
    rw [List.map_cons, List.map_cons, hp, mom, exactSum, ha, hm, ← Rat.cast_add, hw,
      ih (fun q hq => hg q (by simp [hq])) (z + p.2.thickness)]

theorem exactH_cons (p : ExactPly) (P : List ExactPly) : exactH (p :: P) = p.2.thickness + exactH P := by
  simp [exactH]

theorem height_exact (P : List ExactPly) : totalThickness (P.map realPly) = ((exactH P : ℚ) : ℝ) := by
  rw [totalThickness_eq]
  induction P with
  | nil => simp [exactH]
  | cons p P ih => rw [exactH_cons]; simp only [List.map_cons, List.sum_cons, ih, Rat.cast_add]; rfl

theorem bottom_exact (P : List ExactPly) : bottom (P.map realPly) = ((exactZ P 0 : ℚ) : ℝ) := by
  rw [bottom, height_exact]
  simp [exactZ, exactH]

theorem zList_get (z : ℝ) (ts : List ℝ) (i : ℕ) (hi : i ≤ ts.length) : (zList z ts).getD i 0 = z + (ts.take i).sum := by
  induction ts generalizing z i with
  | nil =>
    have : i = 0 := by simpa using hi
    subst this; simp [zList]
  | cons t ts ih =>
    cases i with
    | zero => simp [zList]
    | succ i =>
      have := ih (z + t) i (by simpa using hi)
      simp only [zList, List.getD_cons_succ, this, List.take_succ_cons, List.sum_cons, add_assoc]

theorem zAt_exact {l : Lam} {P : List ExactPly} (hl : l.layup = P.map realPly) (i : ℕ) (hi : i ≤ P.length) :
    l.zAt i = ((exactZ P i : ℚ) : ℝ) := by
  rw [Lam.zAt, Lam.zPosition, zPositionOf_eq, zList_get _ _ _ (by simpa [hl] using hi), hl, height_exact, exactZ]
  push_cast
  congr 1
  rw [← List.map_take, ← List.map_take]
  have := height_exact (P.take i)
  rw [totalThickness_eq] at this
  exact this

/-- Whether the stiffness of every ply can be read. -/
theorem allOk_exact (P : List ExactPly) : AllOk (P.map realPly) ↔ ∀ p ∈ P, poisson p.2 ≠ 0 := by
  constructor
  · intro h p hp h0
    obtain ⟨Q, hQ⟩ := (plyQ_ok_iff _).mp (h (realPly p) (List.mem_map_of_mem hp))
    rw [realPly, realMat_Q0_err p.2 h0] at hQ
    cases hQ
  · intro h q hq
    obtain ⟨p, hp, rfl⟩ := List.mem_map.mp hq
    exact ⟨_, realPly_Q p (h p hp)⟩

theorem layer_exact (p : ExactPly) (h : poisson p.2 ≠ 0) :
    layer (realPly p) = ((p.2.thickness : ℝ), (exactQ p).map ((↑) : ℚ → ℝ)) := by
  rw [layer, plyQ!, realPly_Q p h]
  rfl

theorem loop_exact {l : Lam} {P : List ExactPly} (hl : l.layup = P.map realPly) (h : ∀ p ∈ P, poisson p.2 ≠ 0)
    (w : ℝ → ℝ → ℝ) (f : ℚ → ℚ) (hw : ∀ a b : ℚ, w a b = ((f b - f a : ℚ) : ℝ)) :
    l.loopMatrix w = .ok ((exactSum f exactQ (exactZ P 0) P).map ((↑) : ℚ → ℝ)) := by
  rw [l.loopMatrix_ok w (by rw [hl]; exact (allOk_exact P).mpr h), hl, bottom_exact,
    mom_exact (fun M : Matrix (Fin 3) (Fin 3) ℚ => M.map ((↑) : ℚ → ℝ)) (by ext; simp) (fun x y => by ext; simp)
      (fun q x => by ext; simp) w f hw exactQ layer P (fun p hp => layer_exact p (h p hp))]

/-! ## C101 -/

/-- **C101** the `A`, `B` and `D` matrices of a stack whose angles are multiples of 45 degrees and whose data are rational are the
rational matrices of the separate calculation; when some ply has `nu12 nu21 = 1` all three raise `ZeroDivisionError`. -/
theorem C101_stiffness (l : Lam) (hs : IsStack l) (P : List ExactPly) (hl : l.layup = P.map realPly) :
    ((∀ p ∈ P, poisson p.2 ≠ 0) → l.A = .ok ((exactA P).map (↑)) ∧ l.B = .ok ((exactB P).map (↑)) ∧
      l.D = .ok ((exactD P).map (↑))) ∧
    ((∃ p ∈ P, poisson p.2 = 0) → l.A = .error .zeroDivisionError ∧ l.B = .error .zeroDivisionError ∧
      l.D = .error .zeroDivisionError) := by
  constructor
  · intro h
    refine ⟨?_, ?_, ?_⟩
    · rw [hs.A_eq]
      exact loop_exact hl h wA _ (fun a b => by simp [wA])
    · exact loop_exact hl h wB _ (fun a b => by simp only [wB]; push_cast; ring)
    · rw [hs.D_eq]
      exact loop_exact hl h wD _ (fun a b => by simp only [wD]; push_cast; ring)
  · rintro ⟨p, hp, h0⟩
    have hn : ¬ AllOk l.layup := by
      rw [hl, allOk_exact]
      intro h
      exact h p hp h0
    rw [hs.A_eq, hs.D_eq]
    exact ⟨l.loopMatrix_err _ hn, l.loopMatrix_err _ hn, l.loopMatrix_err _ hn⟩

theorem harm_exact (p : ExactPly) : harmLayer (realPly p) = ((p.2.thickness : ℝ), fun i => ((exactHarm p i : ℚ) : ℝ)) := by
  rw [harmLayer]
  refine Prod.ext rfl ?_
  obtain ⟨h1, h2, h3⟩ := trig_sq p.1
  have e : (realPly p).1 * (Real.pi / 180) = 45 * (p.1 : ℝ) * Real.pi / 180 := by simp only [realPly]; ring
  have hc : Real.cos (2 * (45 * (p.1 : ℝ) * Real.pi / 180)) = (trig p.1).1 - (trig p.1).2.1 := by
    rw [Real.cos_two_mul', ← h1, ← h2]; rfl
  have hsn : Real.sin (2 * (45 * (p.1 : ℝ) * Real.pi / 180)) = 2 * (trig p.1).2.2 := by
    rw [Real.sin_two_mul, ← h3, cosd, sind]; ring
  funext i
  simp only [xiTerm, e]
  rw [show 4 * (45 * (p.1 : ℝ) * Real.pi / 180) = 2 * (2 * (45 * (p.1 : ℝ) * Real.pi / 180)) by ring, Real.cos_two_mul' (2 * _),
    Real.sin_two_mul (2 * _), hc, hsn]
  fin_cases i <;> simp [exactHarm]

/-- **C101** the lamination parameters of such a stack. -/
theorem C101_parameters (l : Lam) (hs : IsStack l) (P : List ExactPly) (hl : l.layup = P.map realPly) (hH : exactH P ≠ 0) :
    l.xiAread = .ok (fun i => .fin (((exactSum (fun z => z) exactHarm (exactZ P 0) P i / exactH P : ℚ)) : ℝ)) ∧
    l.xiDread = .ok (fun i => .fin (((12 * exactSum (fun z => z ^ 3 / 3) exactHarm (exactZ P 0) P i / exactH P ^ 3 : ℚ)) : ℝ)) := by
  have hH' : ((exactH P : ℚ) : ℝ) ≠ 0 := by exact_mod_cast hH
  have key : ∀ (w : ℝ → ℝ → ℝ) (f : ℚ → ℚ) (_ : ∀ a b : ℚ, w a b = ((f b - f a : ℚ) : ℝ)),
      mom w (bottom l.layup) (l.layup.map harmLayer) = fun i => ((exactSum f exactHarm (exactZ P 0) P i : ℚ) : ℝ) := by
    intro w f hw
    rw [hl, bottom_exact, mom_exact (fun v : Fin 4 → ℚ => (fun i => ((v i : ℚ) : ℝ) : V4)) (by ext; simp)
      (fun x y => by ext; simp) (fun q x => by ext; simp) w f hw exactHarm harmLayer P (fun p _ => harm_exact p)]
  constructor
  · rw [hs.xiA_eq, key wA (fun z => z) (fun a b => by simp [wA]), hl, height_exact]
    congr 1; funext i
    simp [npDiv, hH']
  · rw [hs.xiD_eq, key wD (fun z => z ^ 3 / 3) (fun a b => by simp only [wD]; push_cast; ring), hl, height_exact]
    congr 1; funext i
    simp [npDiv, hH']

/-- Resultant forces and moments of the strains and curvatures `e`. -/
def Spec.exactLoad (P : List ExactPly) (e : I6 → ℚ) : I6 → ℚ
  | .inl i => ∑ j, exactA P i j * e (.inl j) + ∑ j, exactB P i j * e (.inr j)
  | .inr i => ∑ j, exactB P i j * e (.inl j) + ∑ j, exactD P i j * e (.inr j)

/-- Positive moduli and thickness, and a positive definite `Q_0`. -/
def Spec.ExactOk (m : OrthoMat ℚ) : Prop :=
  0 < m.e1 ∧ 0 < m.e2 ∧ 0 < m.g12 ∧ 0 < m.thickness ∧ m.v12 ^ 2 * m.e2 < m.e1

instance (m : OrthoMat ℚ) : Decidable (ExactOk m) := by unfold Spec.ExactOk; infer_instance

theorem Spec.ExactOk.poisson {m : OrthoMat ℚ} (h : ExactOk m) : Spec.poisson m ≠ 0 := by
  obtain ⟨h1, -, -, -, h5⟩ := h
  have : m.v12 ^ 2 * m.e2 / m.e1 < 1 := by rwa [div_lt_one h1]
  unfold Spec.poisson
  linarith

theorem Spec.ExactOk.admissible {p : ExactPly} (h : ExactOk p.2) : AdmissiblePly (realPly p) := by
  obtain ⟨h1, h2, h3, h4, h5⟩ := h
  refine ⟨?_, ?_⟩
  · show (0 : ℝ) < (p.2.thickness : ℝ)
    exact_mod_cast h4
  · exact (C05_Q0_posDef_iff _ (by show (0 : ℝ) < (p.2.e1 : ℝ); exact_mod_cast h1) (by show (0 : ℝ) < (p.2.e2 : ℝ); exact_mod_cast h2)
      (by show (0 : ℝ) < (p.2.g12 : ℝ); exact_mod_cast h3)).mpr
      (by show (p.2.v12 : ℝ) ^ 2 * (p.2.e2 : ℝ) < (p.2.e1 : ℝ); exact_mod_cast h5)

theorem load_cast (P : List ExactPly) (e : I6 → ℚ) :
    Matrix.fromBlocks ((exactA P).map ((↑) : ℚ → ℝ)) ((exactB P).map (↑)) ((exactB P).map (↑)) ((exactD P).map (↑)) *ᵥ
      (fun i => (e i : ℝ)) = fun i => ((exactLoad P e i : ℚ) : ℝ) := by
  funext i
  rw [Matrix.fromBlocks_mulVec]
  cases i <;> simp [exactLoad, Matrix.mulVec, dotProduct]

/-- **C101** rational strains and curvatures are the response to the loads the separate calculation gives for them. -/
theorem C101_response (l : Lam) (hs : IsStack l) (P : List ExactPly) (hl : l.layup = P.map realPly) (hne : P ≠ [])
    (h : ∀ p ∈ P, ExactOk p.2) (e : I6 → ℚ) :
    epsilon0 l (fun i => ((exactLoad P e i : ℚ) : ℝ)) = .ok fun i => (e i : ℝ) := by
  obtain ⟨hA, hB, hD⟩ := (C101_stiffness l hs P hl).1 fun p hp => (h p hp).poisson
  have hM := C14_ABD_readable l _ _ _ hA hB hD
  obtain ⟨A, D, M, -, -, hM', -, -, -, hdet⟩ := C15_posDef l hs (by simp [hl, hne]) (by
    rw [hl]; intro q hq; obtain ⟨p, hp, rfl⟩ := List.mem_map.mp hq; exact (h p hp).admissible)
  rw [hM] at hM'
  cases hM'
  obtain ⟨e', he, -, hu⟩ := C29_epsilon0_unique l (fun i => ((exactLoad P e i : ℚ) : ℝ)) _ hM hdet
  rw [he, ← hu _ (load_cast P e)]

/-- **C101** every rational load on such a stack has a rational response. -/
theorem C101_rational (l : Lam) (hs : IsStack l) (P : List ExactPly) (hl : l.layup = P.map realPly) (hne : P ≠ [])
    (h : ∀ p ∈ P, ExactOk p.2) (N : I6 → ℚ) :
    ∃ e : I6 → ℚ, exactLoad P e = N ∧ epsilon0 l (fun i => (N i : ℝ)) = .ok fun i => (e i : ℝ) := by
  obtain ⟨hA, hB, hD⟩ := (C101_stiffness l hs P hl).1 fun p hp => (h p hp).poisson
  have hM := C14_ABD_readable l _ _ _ hA hB hD
  obtain ⟨A, D, M, -, -, hM', -, -, -, hdet⟩ := C15_posDef l hs (by simp [hl, hne]) (by
    rw [hl]; intro q hq; obtain ⟨p, hp, rfl⟩ := List.mem_map.mp hq; exact (h p hp).admissible)
  rw [hM] at hM'
  cases hM'
  set Mq := Matrix.fromBlocks (exactA P) (exactB P) (exactB P) (exactD P) with hMq
  have hmap : Matrix.fromBlocks ((exactA P).map ((↑) : ℚ → ℝ)) ((exactB P).map (↑)) ((exactB P).map (↑)) ((exactD P).map (↑)) =
      (Rat.castHom ℝ).mapMatrix Mq := by
    rw [hMq, RingHom.mapMatrix_apply, Matrix.fromBlocks_map]; rfl
  have hdq : Mq.det ≠ 0 := by
    intro h0
    apply hdet
    rw [hmap, ← RingHom.map_det, h0, map_zero]
  have hload : ∀ e, exactLoad P e = Mq *ᵥ e := by
    intro e
    funext i
    rw [hMq, Matrix.fromBlocks_mulVec]
    cases i <;> simp [exactLoad, Matrix.mulVec, dotProduct]
  refine ⟨Mq⁻¹ *ᵥ N, ?_, ?_⟩
  · rw [hload, Matrix.mulVec_mulVec, Matrix.mul_nonsing_inv _ hdq.isUnit, Matrix.one_mulVec]
  · have := C101_response l hs P hl hne h (Mq⁻¹ *ᵥ N)
    rwa [hload, Matrix.mulVec_mulVec, Matrix.mul_nonsing_inv _ hdq.isUnit, Matrix.one_mulVec] at this

theorem strain_exact {l : Lam} {P : List ExactPly} (hl : l.layup = P.map realPly) (e : I6 → ℚ) (k top : ℕ) (hk : k + top ≤ P.length) :
    strainAt (fun i => (e i : ℝ)) (l.zAt (k + top)) = fun i => ((exactStrain P e k top i : ℚ) : ℝ) := by
  rw [zAt_exact hl _ hk]
  funext i
  simp [strainAt, membrane, curvature, exactStrain]

theorem turn_exact (p : ExactPly) (v : Fin 3 → ℚ) :
    Teng (45 * p.1) *ᵥ (fun i => (v i : ℝ)) = fun i => ((exactTurn p v i : ℚ) : ℝ) := by
  rw [Teng_trig]
  funext i
  fin_cases i <;> simp [exactTurn, Matrix.mulVec, dotProduct, Fin.sum_univ_three]
  ring

/-- Stresses in the axes of the ply: rotating `Q̄ ε` gives `Q_0` applied to the rotated strains. -/
theorem hooke_exact (p : ExactPly) (h : poisson p.2 ≠ 0) (v : Fin 3 → ℚ) :
    Treal (45 * p.1) *ᵥ ((exactQ p).map ((↑) : ℚ → ℝ) *ᵥ (fun i => (v i : ℝ))) =
      fun i => ((exactHooke p.2 (exactTurn p v) i : ℚ) : ℝ) := by
  have hq := realPly_Q p h
  rw [plyQ_eq, realPly, realMat_Q0 p.2 h, ok_map, Except.ok.injEq] at hq
  have hT : Treal (45 * p.1) * (Teng (45 * (p.1 : ℝ)))ᵀ = 1 := by
    obtain ⟨r1, r2⟩ := trig_rel p.1
    have r1' : ((trig p.1).2.2 : ℝ) ^ 2 = (trig p.1).1 * (trig p.1).2.1 := by exact_mod_cast r1
    have r2' : ((trig p.1).1 : ℝ) + (trig p.1).2.1 = 1 := by exact_mod_cast r2
    rw [Treal_trig, Teng_trig]
    have r3 : ((trig p.1).2.1 : ℝ) = 1 - (trig p.1).1 := by linarith
    rw [r3] at r1' ⊢
    ext i j
    fin_cases i <;> fin_cases j <;> simp [Matrix.mul_apply, Fin.sum_univ_three] <;>
      (first
        | ring1
        | linear_combination 2 * r1'
        | linear_combination -2 * r1'
        | linear_combination 4 * r1')
  rw [← hq]
  dsimp only
  rw [rotQ, Matrix.mulVec_mulVec, Matrix.mul_assoc (Teng _)ᵀ, ← Matrix.mul_assoc (Treal _), hT, Matrix.one_mul,
    ← Matrix.mulVec_mulVec, turn_exact]
  funext i
  fin_cases i <;> simp [exactHooke, Matrix.mulVec, dotProduct, Fin.sum_univ_three] <;> ring

/-- **C101** the rows of the strain and stress tables of such a stack. -/
theorem C101_tables (l : Lam) (hs : IsStack l) (P : List ExactPly) (hl : l.layup = P.map realPly) (hne : P ≠ [])
    (h : ∀ p ∈ P, ExactOk p.2) (e : I6 → ℚ) : ∃ S T,
    calculateStrain l (fun i => ((exactLoad P e i : ℚ) : ℝ)) = .ok S ∧
    calculateStress l (fun i => ((exactLoad P e i : ℚ) : ℝ)) = .ok T ∧ S.length = 2 * P.length ∧ T.length = 2 * P.length ∧
    ∀ k (hk : k < P.length) (top : ℕ), top < 2 → ∃ s t, S[2 * k + top]? = some s ∧ T[2 * k + top]? = some t ∧
      s.ply = k + 1 ∧ t.ply = k + 1 ∧ s.z = (exactZ P (k + top) : ℝ) ∧ t.z = (exactZ P (k + top) : ℝ) ∧
      s.angle = 45 * P[k].1 ∧ t.angle = 45 * P[k].1 ∧
      s.xy = (fun i => (exactStrain P e k top i : ℝ)) ∧
      s.m12 = (fun i => (exactTurn P[k] (exactStrain P e k top) i : ℝ)) ∧
      t.xy = (fun i => ((exactQ P[k] *ᵥ exactStrain P e k top) i : ℝ)) ∧
      t.m12 = (fun i => (exactHooke P[k].2 (exactTurn P[k] (exactStrain P e k top)) i : ℝ)) ∧
      s.position = (if top = 0 then Pos.bot else Pos.top) ∧ t.position = (if top = 0 then Pos.bot else Pos.top) := by
  have he := C101_response l hs P hl hne h e
  have hlen : l.layup.length = P.length := by simp [hl]
  refine ⟨_, _, by rw [hs.strain_eq, he, ok_map], by rw [hs.stress_eq, he, ok_map], ?_, ?_, ?_⟩
  · rw [strainRows, flatMap_pair_length, hlen]
  · rw [stressRows, flatMap_pair_length, hlen]
  · intro k hk top ht
    have hang : l.angleAt k = 45 * P[k].1 := by simp [Lam.angleAt, hl, hk, realPly]
    have hp := (h P[k] (List.getElem_mem hk)).poisson
    have hQ : l.QAt k = (exactQ P[k]).map ((↑) : ℚ → ℝ) := by
      simp [Lam.QAt, hl, hk, plyQ!, realPly_Q P[k] hp]
    have hmv : ∀ v : Fin 3 → ℚ, (exactQ P[k]).map ((↑) : ℚ → ℝ) *ᵥ (fun i => (v i : ℝ)) = fun i => ((exactQ P[k] *ᵥ v) i : ℝ) := by
      intro v
      funext i
      simp [Matrix.mulVec, dotProduct]
    obtain ⟨g1, g2⟩ := flatMap_pair_get (fun i =>
      (⟨i + 1, l.zAt i, .bot, l.angleAt i, strainAt (fun i => (e i : ℝ)) (l.zAt i), Teng (l.angleAt i) *ᵥ strainAt (fun i => (e i : ℝ)) (l.zAt i)⟩ : Row))
      (fun i => ⟨i + 1, l.zAt (i + 1), .top, l.angleAt i, strainAt (fun i => (e i : ℝ)) (l.zAt (i + 1)),
        Teng (l.angleAt i) *ᵥ strainAt (fun i => (e i : ℝ)) (l.zAt (i + 1))⟩) l.layup.length k (by omega)
    obtain ⟨g3, g4⟩ := flatMap_pair_get (fun i =>
      (⟨i + 1, l.zAt i, .bot, l.angleAt i, l.QAt i *ᵥ strainAt (fun i => (e i : ℝ)) (l.zAt i),
        Treal (l.angleAt i) *ᵥ (l.QAt i *ᵥ strainAt (fun i => (e i : ℝ)) (l.zAt i))⟩ : Row))
      (fun i => ⟨i + 1, l.zAt (i + 1), .top, l.angleAt i, l.QAt i *ᵥ strainAt (fun i => (e i : ℝ)) (l.zAt (i + 1)),
        Treal (l.angleAt i) *ᵥ (l.QAt i *ᵥ strainAt (fun i => (e i : ℝ)) (l.zAt (i + 1)))⟩) l.layup.length k (by omega)
    obtain rfl | rfl : top = 0 ∨ top = 1 := by omega
    · refine ⟨_, _, g1, g3, rfl, rfl, zAt_exact hl k (by omega), zAt_exact hl k (by omega), hang, hang, ?_, ?_, ?_, ?_, rfl, rfl⟩
      · exact strain_exact hl e k 0 (by omega)
      · show Teng (l.angleAt k) *ᵥ strainAt (fun i => (e i : ℝ)) (l.zAt (k + 0)) = _
        rw [hang, strain_exact hl e k 0 (by omega), turn_exact]
      · show l.QAt k *ᵥ strainAt (fun i => (e i : ℝ)) (l.zAt (k + 0)) = _
        rw [hQ, strain_exact hl e k 0 (by omega), hmv]
      · show Treal (l.angleAt k) *ᵥ (l.QAt k *ᵥ strainAt (fun i => (e i : ℝ)) (l.zAt (k + 0))) = _
        rw [hang, hQ, strain_exact hl e k 0 (by omega), hooke_exact _ hp]
    · refine ⟨_, _, g2, g4, rfl, rfl, zAt_exact hl (k + 1) (by omega), zAt_exact hl (k + 1) (by omega), hang, hang, ?_, ?_, ?_, ?_, rfl, rfl⟩
      · exact strain_exact hl e k 1 (by omega)
      · show Teng (l.angleAt k) *ᵥ strainAt (fun i => (e i : ℝ)) (l.zAt (k + 1)) = _
        rw [hang, strain_exact hl e k 1 (by omega), turn_exact]
      · show l.QAt k *ᵥ strainAt (fun i => (e i : ℝ)) (l.zAt (k + 1)) = _
        rw [hQ, strain_exact hl e k 1 (by omega), hmv]
      · show Treal (l.angleAt k) *ᵥ (l.QAt k *ᵥ strainAt (fun i => (e i : ℝ)) (l.zAt (k + 1))) = _
        rw [hang, hQ, strain_exact hl e k 1 (by omega), hooke_exact _ hp]

/-- **C101** how such a stack is built: one material for all plies, or one per ply. -/
theorem C101_built (ks : List ℤ) (m : OrthoMat ℚ) (P : List ExactPly) :
    (∃ l, Lam.init (.angles (ks.map fun k : ℤ => 45 * (k : ℝ))) (.single (realMat m)) = .ok l ∧ IsStack l ∧
      l.layup = (ks.map fun k => (k, m)).map realPly) ∧
    ∃ l, Lam.init (.angles (P.map fun p => 45 * (p.1 : ℝ))) (.list (P.map fun p => realMat p.2)) = .ok l ∧ IsStack l ∧
      l.layup = P.map realPly := by
  constructor
  · obtain ⟨l, hl, hlay⟩ := C10_single (ks.map fun k : ℤ => 45 * (k : ℝ)) (realMat m)
    refine ⟨l, hl, ⟨_, _, hl⟩, ?_⟩
    rw [hlay, List.map_map, List.map_map]
    rfl
  · have hlen : (P.map fun p => realMat p.2).length = (P.map fun p => 45 * (p.1 : ℝ)).length := by simp
    have hi : ∃ l, Lam.init (.angles (P.map fun p => 45 * (p.1 : ℝ))) (.list (P.map fun p => realMat p.2)) = .ok l ∧
        l.layup = P.map realPly := by
      refine ⟨_, by simp only [Lam.init, hlen, ne_eq, not_true_eq_false, if_false]; rfl, ?_⟩
      simp only [List.zip_map']
      rfl
    obtain ⟨l, hl, hlay⟩ := hi
    exact ⟨l, hl, ⟨_, _, hl⟩, hlay⟩

/-! ## The reference values of the tests -/

/-- `numpy.isclose(x, r, rtol, atol)`, also the test of `numpy.testing.assert_allclose`. -/
def Spec.Close (rtol atol x r : ℝ) : Prop := |x - r| ≤ atol + rtol * |r|

/-- The test of `numpy.testing.assert_almost_equal` with `decimal` digits. -/
def Spec.Almost (decimal : ℕ) (x r : ℝ) : Prop := |x - r| < 1.5 * 10 ^ (-(decimal : ℤ))

theorem almost_of {d : ℕ} {q r : ℚ} (h : |q - r| < 3 / 2 * 10 ^ (-(d : ℤ))) : Almost d (q : ℝ) (r : ℝ) := by
  have : ((|q - r| : ℚ) : ℝ) < ((3 / 2 * 10 ^ (-(d : ℤ)) : ℚ) : ℝ) := by exact_mod_cast h
  push_cast at this
  unfold Spec.Almost
  norm_num at this ⊢
  exact this

theorem close_of {rtol atol q r : ℚ} (h : |q - r| ≤ atol + rtol * |r|) : Close (rtol : ℝ) (atol : ℝ) (q : ℝ) (r : ℝ) := by
  have : ((|q - r| : ℚ) : ℝ) ≤ ((atol + rtol * |r| : ℚ) : ℝ) := by exact_mod_cast h
  push_cast at this
  exact this

/-- Material with default allowables. -/
def Spec.mat (e1 e2 v12 g12 thickness : ℚ) : OrthoMat ℚ :=
  { e1, e2, v12, g12, thickness, t1 := 0, c1 := 0, t2 := 0, c2 := 0, s := 0 }

/-- The laminate of `tests/test_ABD.py`. -/
def testABD : List ExactPly :=
  [(1, mat 54870 18320 (1/4) 8900 3), (0, mat 54870 18320 (1/4) 8900 6), (1, mat 54870 18320 (1/4) 8900 3)]

/-- **C101** `tests/test_ABD.py`: the three references hold to the seven decimals the tests ask for. -/
theorem C101_test_ABD : ∃ l A B D,
    Lam.init (.angles [45, 0, 45]) (.list [realMat (mat 54870 18320 (1/4) 8900 3), realMat (mat 54870 18320 (1/4) 8900 6),
      realMat (mat 54870 18320 (1/4) 8900 3)]) = .ok l ∧ l.A = .ok A ∧ l.B = .ok B ∧ l.D = .ok D ∧
    (∀ i j, Almost 7 (A i j) ((!![515794.00930665, 100823.25453699, 55993.44346208;
      100823.25453699, 291820.23545835, 55993.44346208; 55993.44346208, 55993.44346208, 151491.93392275] : Matrix (Fin 3) (Fin 3) ℚ) i j : ℚ)) ∧
    (∀ i j, B i j = 0) ∧
    (∀ i j, Almost 7 (D i j) ((!![4779418.7240577, 1612106.45974872, 1175862.31270358;
      1612106.45974872, 4107497.4025128, 1175862.31270358; 1175862.31270358, 1175862.31270358, 2220130.61237785] : Matrix (Fin 3) (Fin 3) ℚ) i j : ℚ)) := by
  obtain ⟨l, hl, hs, hlay⟩ := (C101_built [] (mat 0 0 0 0 0) testABD).2
  obtain ⟨hA, hB, hD⟩ := (C101_stiffness l hs testABD hlay).1 (by decide +kernel)
  refine ⟨l, _, _, _, ?_, hA, hB, hD, ?_, ?_, ?_⟩
  · rw [← hl]; simp [testABD]
  · intro i j
    exact almost_of (by revert i j; decide +kernel)
  · intro i j
    have : exactB testABD i j = (0 : ℚ) := abs_nonpos_iff.mp (by revert i j; decide +kernel)
    simp [this]
  · intro i j
    exact almost_of (by revert i j; decide +kernel)

/-- **C101** `tests/test_Material_Q0.py` -/
theorem C101_test_Q0 : ∃ Q, (realMat (mat 39000 8300 (26/100) 4000 1)).Q0 = .ok Q ∧
    ∀ i j, Almost 6 (Q i j) ((!![39569.26989624, 2189.49960093, 0; 2189.49960093, 8421.15231125, 0; 0, 0, 4000] :
      Matrix (Fin 3) (Fin 3) ℚ) i j : ℚ) := by
  have h := realPly_Q (0, mat 39000 8300 (26/100) 4000 1) (by decide +kernel)
  rw [plyQ_eq] at h
  cases hq : (realMat (mat 39000 8300 (26/100) 4000 1)).Q0 with
  | error e => simp [realPly, hq] at h
  | ok Q =>
    refine ⟨Q, rfl, ?_⟩
    simp only [realPly, hq, ok_map, Except.ok.injEq, Int.cast_zero, mul_zero] at h
    have h0 : rotQ 0 Q = Q := by
      have h1 : Teng 0 = 1 := by
        ext i j
        fin_cases i <;> fin_cases j <;> simp [Teng]
      simp [rotQ, h1]
    rw [h0] at h
    subst h
    intro i j
    exact almost_of (by revert i j; decide +kernel)

/-- The laminate of `tests/test_lamination_parameters.py`. -/
def testLP : List ExactPly :=
  [1, -1, 0, 2, 1, 0, 0, 0, 0, 1, 2, 0, -1, 1].map fun k => (k, mat 120000 6500 (7/100) 4550 (21/100))

/-- **C101** `tests/test_lamination_parameters.py`; the references of the last entries, of the order of `1e-17`, are replaced by
zero, the exact value. -/
theorem C101_test_parameters : ∃ (l : Lam) (xA xD : V4),
    Lam.init (.angles [45, -45, 0, 90, 45, 0, 0, 0, 0, 45, 90, 0, -45, 45]) (.single (realMat (mat 120000 6500 (7/100) 4550 (21/100)))) = .ok l ∧
    l.xiAread = .ok (fun i => .fin (xA i)) ∧ l.xiDread = .ok (fun i => .fin (xD i)) ∧
    (∀ i, Almost 7 (xA i) ((![0.2857142857142857, 0.14285714285714285, 0.14285714285714285, 0] : Fin 4 → ℚ) i : ℚ)) ∧ xA 3 = 0 ∧
    (∀ i, Almost 7 (xD i) ((![0.09329446064139943, 0.16034985422740528, -0.38192419825072876, 0] : Fin 4 → ℚ) i : ℚ)) ∧ xD 3 = 0 := by
  obtain ⟨l, hl, hs, hlay⟩ := (C101_built [1, -1, 0, 2, 1, 0, 0, 0, 0, 1, 2, 0, -1, 1] (mat 120000 6500 (7/100) 4550 (21/100)) []).1
  obtain ⟨hA, hD⟩ := C101_parameters l hs testLP hlay (by decide +kernel)
  refine ⟨l, _, _, ?_, hA, hD, ?_, ?_, ?_, ?_⟩
  · rw [← hl]; norm_num
  · intro i
    exact almost_of (by revert i; decide +kernel)
  · have : exactSum (fun z => z) exactHarm (exactZ testLP 0) testLP 3 / exactH testLP = 0 := by decide +kernel
    exact_mod_cast this
  · intro i
    exact almost_of (by revert i; decide +kernel)
  · have : 12 * exactSum (fun z => z ^ 3 / 3) exactHarm (exactZ testLP 0) testLP 3 / exactH testLP ^ 3 = 0 := by decide +kernel
    exact_mod_cast this

/-- The laminate of `tests/test_laminate_strains.py`. -/
def testNasa : List ExactPly := [0, 1, 1, 0].map fun k => (k, mat 20100000 1301000 (3/10) 1001000 (5/1000))

/-- Mid-plane strains of Example 3. -/
def nasaE : I6 → ℚ := Sum.elim ![11734293534953266409 / 5339923517584629007360, -3724947434402912591 / 5339923517584629007360,
  -2283720372000375 / 1992508775218145152] 0

/-- Curvatures of Example 6. -/
def nasaK : I6 → ℚ := Sum.elim 0 ![1128406245344583762945 / 2710082092170972080576, -445646847568929842055 / 2710082092170972080576,
  -70555532235271875 / 722303329469875288]

theorem nasaE_load : exactLoad testNasa nasaE = Sum.elim (![500, 0, 0] : Fin 3 → ℚ) (0 : Fin 3 → ℚ) := by
  funext i
  revert i
  decide +kernel

theorem nasaK_load : exactLoad testNasa nasaK = Sum.elim (0 : Fin 3 → ℚ) (![5, 0, 0] : Fin 3 → ℚ) := by
  funext i
  revert i
  decide +kernel

/-- **C101** `tests/test_laminate_strains.py`, Example 3 (`Nxx = 500`). -/
theorem C101_test_example3 : ∃ (l : Lam) (e : V6) (S T : List Row),
    Lam.init (.angles [0, 45, 45, 0]) (.single (realMat (mat 20100000 1301000 (3/10) 1001000 (5/1000)))) = .ok l ∧
    epsilon0 l (Sum.elim (![500, 0, 0] : V3) (0 : V3) : V6) = .ok e ∧
    calculateStrain l (Sum.elim (![500, 0, 0] : V3) (0 : V3) : V6) = .ok S ∧ calculateStress l (Sum.elim (![500, 0, 0] : V3) (0 : V3) : V6) = .ok T ∧
    (∀ i, Close 0.01 0.0001 (e i) ((Sum.elim (![0.00221, -0.0007, -0.00115] : Fin 3 → ℚ) (0 : Fin 3 → ℚ) : I6 → ℚ) i : ℚ)) ∧
    ∃ s t, S[2]? = some s ∧ T[2]? = some t ∧
      (∀ i, Close 0.001 0.0001 (s.m12 i) ((![0.00018, 0.00133, -0.00291] : Fin 3 → ℚ) i : ℚ)) ∧
      ∀ i, Close 0.001 100 (t.m12 i) ((![4146, 1812, -2913] : Fin 3 → ℚ) i : ℚ) := by
  obtain ⟨l, hl, hs, hlay⟩ := (C101_built [0, 1, 1, 0] (mat 20100000 1301000 (3/10) 1001000 (5/1000)) []).1
  have hload : (fun i => ((exactLoad testNasa nasaE i : ℚ) : ℝ)) = (Sum.elim (![500, 0, 0] : V3) (0 : V3) : V6) := by
    rw [nasaE_load]
    funext i
    rcases i with i | i <;> fin_cases i <;> simp
  have he := C101_response l hs testNasa hlay (by decide) (by decide +kernel) nasaE
  obtain ⟨S, T, hS, hT, -, -, hrow⟩ := C101_tables l hs testNasa hlay (by decide) (by decide +kernel) nasaE
  rw [hload] at he hS hT
  obtain ⟨s, t, g1, g2, -, -, -, -, -, -, -, g3, -, g4, -, -⟩ := hrow 1 (by decide) 0 (by decide)
  refine ⟨l, _, S, T, ?_, he, hS, hT, ?_, s, t, g1, g2, ?_, ?_⟩
  · rw [← hl]; norm_num
  · intro i
    have := close_of (rtol := 1 / 100) (atol := 1 / 10000) (q := nasaE i)
      (r := (Sum.elim (![0.00221, -0.0007, -0.00115] : Fin 3 → ℚ) (0 : Fin 3 → ℚ) : I6 → ℚ) i) (by revert i; decide +kernel)
    norm_num at this ⊢
    exact this
  · intro i
    have := close_of (rtol := 1 / 1000) (atol := 1 / 10000) (q := exactTurn testNasa[1] (exactStrain testNasa nasaE 1 0) i)
      (r := (![0.00018, 0.00133, -0.00291] : Fin 3 → ℚ) i) (by revert i; decide +kernel)
    rw [g3]
    norm_num at this ⊢
    exact this
  · intro i
    have := close_of (rtol := 1 / 1000) (atol := 100)
      (q := exactHooke testNasa[1].2 (exactTurn testNasa[1] (exactStrain testNasa nasaE 1 0)) i)
      (r := (![4146, 1812, -2913] : Fin 3 → ℚ) i) (by revert i; decide +kernel)
    rw [g4]
    norm_num at this ⊢
    exact this

/-- **C101** `tests/test_laminate_strains.py`, Example 6 (`Mxx = 5`). -/
theorem C101_test_example6 : ∃ (l : Lam) (e : V6) (S T : List Row),
    Lam.init (.angles [0, 45, 45, 0]) (.single (realMat (mat 20100000 1301000 (3/10) 1001000 (5/1000)))) = .ok l ∧
    epsilon0 l (Sum.elim (0 : V3) (![5, 0, 0] : V3) : V6) = .ok e ∧
    calculateStrain l (Sum.elim (0 : V3) (![5, 0, 0] : V3) : V6) = .ok S ∧
    calculateStress l (Sum.elim (0 : V3) (![5, 0, 0] : V3) : V6) = .ok T ∧
    (∀ i, Close 0.01 0.0001 (e i) ((Sum.elim (0 : Fin 3 → ℚ) (![0.418, -0.165, -0.0975] : Fin 3 → ℚ) : I6 → ℚ) i : ℚ)) ∧
    ∃ s7 s5 t2, S[7]? = some s7 ∧ S[5]? = some s5 ∧ T[2]? = some t2 ∧
      (∀ i, Close 0.001 0.0001 (s7.xy i) ((![0.00418, -0.00165, -0.000975] : Fin 3 → ℚ) i : ℚ)) ∧
      (∀ i, Close 0.001 0.0001 (s5.m12 i) ((![0.00039, 0.00088, -0.00292] : Fin 3 → ℚ) i : ℚ)) ∧
      ∀ i, Close 0.001 100 (t2.m12 i) ((![-8094, -1296, 2923] : Fin 3 → ℚ) i : ℚ) := by
  obtain ⟨l, hl, hs, hlay⟩ := (C101_built [0, 1, 1, 0] (mat 20100000 1301000 (3/10) 1001000 (5/1000)) []).1
  have hload : (fun i => ((exactLoad testNasa nasaK i : ℚ) : ℝ)) = (Sum.elim (0 : V3) (![5, 0, 0] : V3) : V6) := by
    rw [nasaK_load]
    funext i
    rcases i with i | i <;> fin_cases i <;> simp
  have he := C101_response l hs testNasa hlay (by decide) (by decide +kernel) nasaK
  obtain ⟨S, T, hS, hT, -, -, hrow⟩ := C101_tables l hs testNasa hlay (by decide) (by decide +kernel) nasaK
  rw [hload] at he hS hT
  obtain ⟨s7, -, g7, -, -, -, -, -, -, -, x7, -⟩ := hrow 3 (by decide) 1 (by decide)
  obtain ⟨s5, -, g5, -, -, -, -, -, -, -, -, x5, -⟩ := hrow 2 (by decide) 1 (by decide)
  obtain ⟨-, t2, -, g2, -, -, -, -, -, -, -, -, -, x2, -, -⟩ := hrow 1 (by decide) 0 (by decide)
  refine ⟨l, _, S, T, ?_, he, hS, hT, ?_, s7, s5, t2, g7, g5, g2, ?_, ?_, ?_⟩
  · rw [← hl]; norm_num
  · intro i
    have := close_of (rtol := 1 / 100) (atol := 1 / 10000) (q := nasaK i)
      (r := (Sum.elim (0 : Fin 3 → ℚ) (![0.418, -0.165, -0.0975] : Fin 3 → ℚ) : I6 → ℚ) i) (by revert i; decide +kernel)
    norm_num at this ⊢
    exact this
  · intro i
    have := close_of (rtol := 1 / 1000) (atol := 1 / 10000) (q := exactStrain testNasa nasaK 3 1 i)
      (r := (![0.00418, -0.00165, -0.000975] : Fin 3 → ℚ) i) (by revert i; decide +kernel)
    rw [x7]
    norm_num at this ⊢
    exact this
  · intro i
    have := close_of (rtol := 1 / 1000) (atol := 1 / 10000) (q := exactTurn testNasa[2] (exactStrain testNasa nasaK 2 1) i)
      (r := (![0.00039, 0.00088, -0.00292] : Fin 3 → ℚ) i) (by revert i; decide +kernel)
    rw [x5]
    norm_num at this ⊢
    exact this
  · intro i
    have := close_of (rtol := 1 / 1000) (atol := 100)
      (q := exactHooke testNasa[1].2 (exactTurn testNasa[1] (exactStrain testNasa nasaK 1 0)) i)
      (r := (![-8094, -1296, 2923] : Fin 3 → ℚ) i) (by revert i; decide +kernel)
    rw [x2]
    norm_num at this ⊢
    exact this

end Composipy
