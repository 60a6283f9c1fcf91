import Verif.Props.Strength

/-!
# C35-C38: margins of safety
-/

namespace Composipy
open Spec Matrix

/-! ## Closed form of the margin table -/

/-- Every ply has the five allowables (that is, is orthotropic). -/
def Spec.HasAllowables (l : Lam) : Prop := ∀ p ∈ l.layup, ∃ m, p.2 = .ortho m

/-- Allowables of ply number `i`. -/
noncomputable def Lam.allowAt (l : Lam) (i : Nat) : V5 :=
  match l.layup[i]? with
  | some (_, .ortho m) => ![m.t1, m.c1, m.t2, m.c2, m.s]
  | _ => 0

theorem Lam.allowAt_eq (l : Lam) (k : Nat) (hk : k < l.layup.length) (m : OrthoMat ℝ)
    (hm : (l.layup[k]).2 = .ortho m) : l.allowAt k = ![m.t1, m.c1, m.t2, m.c2, m.s] := by
  rcases h : l.layup[k] with ⟨a, b⟩
  rw [h] at hm
  simp only at hm
  subst hm
  simp [Lam.allowAt, hk, h]

theorem allowablek_ok (l : Lam) (h : HasAllowables l) :
    allowablek l = .ok ((List.range l.layup.length).map l.allowAt) := by
  have e : l.layup.map (fun p => match p.2 with
      | .ortho m => (![m.t1, m.c1, m.t2, m.c2, m.s] : V5)
      | _ => 0) = (List.range l.layup.length).map l.allowAt := by
    apply List.ext_getElem?
    intro i
    by_cases hi : i < l.layup.length
    · simp only [List.getElem?_map, List.getElem?_range hi, List.getElem?_eq_getElem hi, Option.map_some,
        Lam.allowAt]
      rcases h' : l.layup[i] with ⟨a, b⟩
      cases b <;> rfl
    · simp [hi]
  rw [allowablek, ← e]
  apply mapM_eq_ok
  intro p hp
  obtain ⟨m, hm⟩ := h p hp
  simp [hm, Mat.allowables]

theorem allowablek_err (l : Lam) (h : ¬ HasAllowables l) : allowablek l = .error .attributeError := by
  unfold HasAllowables at h
  rw [allowablek]
  generalize l.layup = L at *
  induction L with
  | nil => simp at h
  | cons p L ih =>
    rw [List.mapM_cons]
    cases hp : p.2 with
    | iso m => simp [Mat.allowables]
    | ortho m =>
      rw [ih (by
        intro hall
        apply h
        intro q hq
        rcases List.mem_cons.mp hq with rfl | hq
        · exact ⟨m, hp⟩
        · exact hall q hq)]
      simp [Mat.allowables]

/-- The margin table of a stack. -/
noncomputable def marginRows (l : Lam) (e : V6) : List MarginRow :=
  (List.range l.layup.length).flatMap fun i =>
    let mb := margins (l.allowAt i) (Treal (l.angleAt i) *ᵥ (l.QAt i *ᵥ strainAt e (l.zAt i)))
    let mt := margins (l.allowAt i) (Treal (l.angleAt i) *ᵥ (l.QAt i *ᵥ strainAt e (l.zAt (i + 1))))
    [⟨i + 1, .top, l.angleAt i, mb, idxmin mb⟩, ⟨i + 1, .bot, l.angleAt i, mt, idxmin mt⟩]

theorem IsStack.iter_eq {l : Lam} (h : IsStack l) :
    l.stacking.iter = (List.range l.layup.length).map l.angleAt := by
  rw [h.fields.1]
  simp only [Stacking.iter]
  conv_lhs => rw [list_eq_range_map (l.layup.map Prod.fst) 0]
  rw [List.length_map]
  rfl

theorem IsStack.margin_eq {l : Lam} (h : IsStack l) (ha : HasAllowables l) (N : V6) :
    calculateMargin l N = marginRows l <$> epsilon0 l N := by
  simp only [calculateMargin, calculateAllowable, allowablek_ok l ha, h.iter_eq, ok_bind, pure_eq_ok, h.stress_eq]
  cases epsilon0 l N with
  | error e => rfl
  | ok e =>
    simp only [ok_map, ok_bind, Except.ok.injEq, List.zip_map', zipIdx_range_map, List.flatMap_map, stressRows,
      marginRows]
    rw [List.zip, zipWith_flatMap_pair, List.map_flatMap]
    rfl

/-- The margin table and the stress table it comes from, row by row. -/
theorem margin_rows {l : Lam} (hs : IsStack l) (N : V6) (R : List MarginRow)
    (hR : calculateMargin l N = .ok R) :
    HasAllowables l ∧ ∃ S, calculateStress l N = .ok S ∧ R.length = 2 * l.layup.length ∧
      S.length = 2 * l.layup.length ∧
      ∀ k (hk : k < l.layup.length), ∃ m rb rt sb st, (l.layup[k]).2 = .ortho m ∧
        R[2 * k]? = some rb ∧ R[2 * k + 1]? = some rt ∧ S[2 * k]? = some sb ∧ S[2 * k + 1]? = some st ∧
        rb = ⟨sb.ply, .top, sb.angle, margins ![m.t1, m.c1, m.t2, m.c2, m.s] sb.m12,
          idxmin (margins ![m.t1, m.c1, m.t2, m.c2, m.s] sb.m12)⟩ ∧
        rt = ⟨st.ply, .bot, st.angle, margins ![m.t1, m.c1, m.t2, m.c2, m.s] st.m12,
          idxmin (margins ![m.t1, m.c1, m.t2, m.c2, m.s] st.m12)⟩ ∧
        sb.position = .bot ∧ st.position = .top := by
  have ha : HasAllowables l := by
    by_contra hn
    simp [calculateMargin, calculateAllowable, allowablek_err l hn] at hR
  refine ⟨ha, ?_⟩
  rw [hs.margin_eq ha] at hR
  rw [hs.stress_eq]
  cases he : epsilon0 l N with
  | error e => simp [he] at hR
  | ok e =>
    simp only [he, ok_map, Except.ok.injEq] at hR
    subst hR
    refine ⟨_, rfl, flatMap_pair_length _ _ _, flatMap_pair_length _ _ _, ?_⟩
    intro k hk
    obtain ⟨m, hm⟩ := ha _ (List.getElem_mem hk)
    obtain ⟨g1, g2⟩ := flatMap_pair_get _ _ _ k hk
    obtain ⟨g3, g4⟩ := flatMap_pair_get _ _ _ k hk
    refine ⟨m, _, _, _, _, hm, g1, g2, g3, g4, ?_, ?_, rfl, rfl⟩
    · simp only [l.allowAt_eq k hk m hm]
    · simp only [l.allowAt_eq k hk m hm]

/-- Row `j` of the margin table with the material and the stress row it comes from. -/
theorem margin_row {l : Lam} (hs : IsStack l) (N : V6) (R : List MarginRow)
    (hR : calculateMargin l N = .ok R) (j : Nat) (r : MarginRow) (hr : R[j]? = some r) :
    ∃ (hk : j / 2 < l.layup.length) (m : OrthoMat ℝ) (S : List Row) (s : Row), (l.layup[j / 2]).2 = .ortho m ∧
      calculateStress l N = .ok S ∧ S[j]? = some s ∧
      r.ply = s.ply ∧ r.angle = s.angle ∧ r.position ≠ s.position ∧
      r.margin = margins ![m.t1, m.c1, m.t2, m.c2, m.s] s.m12 ∧ r.critical = idxmin r.margin := by
  obtain ⟨-, S, hS, hRl, -, H⟩ := margin_rows hs N R hR
  have hj : j < R.length := (List.getElem?_eq_some_iff.mp hr).1
  have hk : j / 2 < l.layup.length := by omega
  obtain ⟨m, rb, rt, sb, st, hm, g1, g2, g3, g4, rfl, rfl, p1, p2⟩ := H (j / 2) hk
  refine ⟨hk, m, S, ?_⟩
  rcases Nat.even_or_odd' j with ⟨c, hc | hc⟩
  · have : j = 2 * (j / 2) := by omega
    rw [← this] at g1 g3
    rw [hr] at g1
    cases g1
    exact ⟨sb, hm, hS, g3, rfl, rfl, by simp [p1], rfl, rfl⟩
  · have : j = 2 * (j / 2) + 1 := by omega
    rw [← this] at g2 g4
    rw [hr] at g2
    cases g2
    exact ⟨st, hm, hS, g4, rfl, rfl, by simp [p2], rfl, rfl⟩

/-! ## C35 -/

theorem marginT_eq (a s : ℝ) (ha : 0 < a) : marginT a s = if 0 < s then .fin (a / s - 1) else .pinf := by
  unfold marginT npDiv
  by_cases h : s < 0
  · simp [h, not_lt.mpr h.le, ha.ne', not_lt.mpr ha.le, subOne]
  · by_cases h0 : s = 0
    · simp [h0, ha.ne', not_lt.mpr ha.le, subOne]
    · have : 0 < s := lt_of_le_of_ne (not_lt.mp h) (Ne.symm h0)
      simp [h, h0, this, subOne]

theorem marginC_eq (a s : ℝ) (ha : 0 < a) : marginC a s = if s < 0 then .fin (a / -s - 1) else .pinf := by
  unfold marginC npDiv
  by_cases h : s > 0
  · simp [h, not_lt.mpr h.le, ha.ne', not_lt.mpr ha.le, subOne]
  · by_cases h0 : s = 0
    · simp [h0, ha.ne', not_lt.mpr ha.le, subOne]
    · have : s < 0 := lt_of_le_of_ne (not_lt.mp h) h0
      simp [h, h0, this, subOne, abs_of_neg this]

theorem marginS_eq (a s : ℝ) (ha : 0 < a) : marginS a s = if s = 0 then .pinf else .fin (a / |s| - 1) := by
  unfold marginS npDiv
  by_cases h0 : s = 0
  · simp [h0, ha.ne', not_lt.mpr ha.le, subOne]
  · simp [h0, subOne]

theorem fin_neg_iff (a s : ℝ) (hs : 0 < s) : XF.lt (.fin (a / s - 1)) (.fin (0 : ℝ)) ↔ a < s := by
  show a / s - 1 < 0 ↔ _
  rw [sub_neg, div_lt_one hs]

/-- The margin is negative. -/
def Spec.Negative (x : PyFloat) : Prop := XF.lt x (.fin 0)

/-- What the five margins of a row must satisfy for allowables `m` and material-axis stress `σ`. -/
structure Spec.MarginSpec (m : OrthoMat ℝ) (σ : V3) (x : Fin 5 → PyFloat) : Prop where
  t1_neg : Negative (x 0) ↔ σ 0 > m.t1
  t1_inf : x 0 = .pinf ↔ σ 0 ≤ 0
  t1_val : 0 < σ 0 → x 0 = .fin (m.t1 / σ 0 - 1)
  c1_neg : Negative (x 1) ↔ σ 0 < -m.c1
  c1_inf : x 1 = .pinf ↔ 0 ≤ σ 0
  c1_val : σ 0 < 0 → x 1 = .fin (m.c1 / |σ 0| - 1)
  t2_neg : Negative (x 2) ↔ σ 1 > m.t2
  t2_inf : x 2 = .pinf ↔ σ 1 ≤ 0
  t2_val : 0 < σ 1 → x 2 = .fin (m.t2 / σ 1 - 1)
  c2_neg : Negative (x 3) ↔ σ 1 < -m.c2
  c2_inf : x 3 = .pinf ↔ 0 ≤ σ 1
  c2_val : σ 1 < 0 → x 3 = .fin (m.c2 / |σ 1| - 1)
  s_neg : Negative (x 4) ↔ |σ 2| > m.s
  s_inf : x 4 = .pinf ↔ σ 2 = 0
  s_val : σ 2 ≠ 0 → x 4 = .fin (m.s / |σ 2| - 1)
  /-- the row is safe exactly within the max-stress box -/
  safe : (∀ i, ¬ Negative (x i)) ↔
    (-m.c1 ≤ σ 0 ∧ σ 0 ≤ m.t1) ∧ (-m.c2 ≤ σ 1 ∧ σ 1 ≤ m.t2) ∧ |σ 2| ≤ m.s

/-- Positive allowables. -/
def Spec.PosAllowables (m : OrthoMat ℝ) : Prop := 0 < m.t1 ∧ 0 < m.c1 ∧ 0 < m.t2 ∧ 0 < m.c2 ∧ 0 < m.s

theorem marginT_spec (a s : ℝ) (ha : 0 < a) : (Negative (marginT a s) ↔ s > a) ∧ (marginT a s = .pinf ↔ s ≤ 0) ∧
    (0 < s → marginT a s = .fin (a / s - 1)) := by
  rw [marginT_eq a s ha]
  by_cases h : 0 < s
  · simp only [h, if_true, Negative, fin_neg_iff a s h]
    simp [h]
  · simp only [h, if_false, Negative]
    refine ⟨⟨fun h' => h'.elim, fun h' => absurd (ha.trans h') h⟩, by simpa using h, fun h' => h'.elim⟩

theorem marginC_spec (a s : ℝ) (ha : 0 < a) : (Negative (marginC a s) ↔ s < -a) ∧ (marginC a s = .pinf ↔ 0 ≤ s) ∧
    (s < 0 → marginC a s = .fin (a / |s| - 1)) := by
  rw [marginC_eq a s ha]
  by_cases h : s < 0
  · simp only [h, if_true, Negative, fin_neg_iff a (-s) (by linarith), abs_of_neg h]
    simp [h]
    constructor <;> intro <;> linarith
  · simp only [h, if_false, Negative]
    refine ⟨⟨fun h' => h'.elim, fun h' => absurd (by linarith) h⟩, by simpa using h, fun h' => h'.elim⟩

theorem marginS_spec (a s : ℝ) (ha : 0 < a) : (Negative (marginS a s) ↔ |s| > a) ∧ (marginS a s = .pinf ↔ s = 0) ∧
    (s ≠ 0 → marginS a s = .fin (a / |s| - 1)) := by
  rw [marginS_eq a s ha]
  by_cases h : s = 0
  · simp only [h, if_true, Negative, abs_zero]
    refine ⟨⟨fun h' => h'.elim, fun h' => absurd h' (by linarith)⟩, by simp, fun h' => absurd rfl h'⟩
  · simp only [h, if_false, Negative, fin_neg_iff a |s| (abs_pos.mpr h)]
    simp

theorem margins_spec (m : OrthoMat ℝ) (hm : PosAllowables m) (σ : V3) :
    MarginSpec m σ (margins ![m.t1, m.c1, m.t2, m.c2, m.s] σ) := by
  obtain ⟨h1, h2, h3, h4, h5⟩ := hm
  obtain ⟨a1, a2, a3⟩ := marginT_spec m.t1 (σ 0) h1
  obtain ⟨b1, b2, b3⟩ := marginC_spec m.c1 (σ 0) h2
  obtain ⟨c1, c2, c3⟩ := marginT_spec m.t2 (σ 1) h3
  obtain ⟨d1, d2, d3⟩ := marginC_spec m.c2 (σ 1) h4
  obtain ⟨e1, e2, e3⟩ := marginS_spec m.s (σ 2) h5
  refine ⟨a1, a2, a3, b1, b2, b3, c1, c2, c3, d1, d2, d3, e1, e2, e3, ?_⟩
  constructor
  · intro h
    have g0 : ¬ Negative (marginT m.t1 (σ 0)) := h 0
    have g1 : ¬ Negative (marginC m.c1 (σ 0)) := h 1
    have g2 : ¬ Negative (marginT m.t2 (σ 1)) := h 2
    have g3 : ¬ Negative (marginC m.c2 (σ 1)) := h 3
    have g4 : ¬ Negative (marginS m.s (σ 2)) := h 4
    rw [a1] at g0; rw [b1] at g1; rw [c1] at g2; rw [d1] at g3; rw [e1] at g4
    exact ⟨⟨not_lt.mp g1, not_lt.mp g0⟩, ⟨not_lt.mp g3, not_lt.mp g2⟩, not_lt.mp g4⟩
  · rintro ⟨⟨g1, g0⟩, ⟨g3, g2⟩, g4⟩
    rw [Fin.forall_fin_succ, Fin.forall_fin_succ, Fin.forall_fin_succ, Fin.forall_fin_succ, Fin.forall_fin_one]
    exact ⟨fun h => not_lt.mpr g0 (a1.mp h), fun h => not_lt.mpr g1 (b1.mp h), fun h => not_lt.mpr g2 (c1.mp h),
      fun h => not_lt.mpr g3 (d1.mp h), fun h => not_lt.mpr g4 (e1.mp h)⟩

/-- **C35** in every row of the margin table the five margins are as specified for the material-axis
stresses of that row. -/
theorem C35_margins (l : Lam) (hs : IsStack l) (N : V6) (R : List MarginRow)
    (hR : calculateMargin l N = .ok R) (j : Nat) (r : MarginRow) (hr : R[j]? = some r) :
    ∃ (hk : j / 2 < l.layup.length) (m : OrthoMat ℝ) (S : List Row) (s : Row),
      (l.layup[j / 2]).2 = .ortho m ∧ calculateStress l N = .ok S ∧ S[j]? = some s ∧
      (PosAllowables m → MarginSpec m s.m12 r.margin) := by
  obtain ⟨hk, m, S, s, hm, hS, hs', -, -, -, hmar, -⟩ := margin_row hs N R hR j r hr
  exact ⟨hk, m, S, s, hm, hS, hs', fun h => hmar ▸ margins_spec m h _⟩

/-- **C35** the table has one row per row of the stress table and can be computed exactly when all
plies are orthotropic and the stresses can be computed; an isotropic ply raises `AttributeError`. -/
theorem C35_computable (l : Lam) (hs : IsStack l) (N : V6) :
    ((∃ R, calculateMargin l N = .ok R) ↔ HasAllowables l ∧ ∃ S, calculateStress l N = .ok S) ∧
    (¬ HasAllowables l → calculateMargin l N = .error .attributeError) ∧
    (∀ R S, calculateMargin l N = .ok R → calculateStress l N = .ok S → R.length = S.length) := by
  refine ⟨?_, fun h => by simp [calculateMargin, calculateAllowable, allowablek_err l h], ?_⟩
  · constructor
    · rintro ⟨R, hR⟩
      obtain ⟨ha, S, hS, -⟩ := margin_rows hs N R hR
      exact ⟨ha, S, hS⟩
    · rintro ⟨ha, S, hS⟩
      rw [hs.stress_eq] at hS
      rw [hs.margin_eq ha]
      cases he : epsilon0 l N with
      | error e => simp [he] at hS
      | ok e => exact ⟨_, rfl⟩
  · intro R S hR hS
    obtain ⟨-, S', hS', h1, h2, -⟩ := margin_rows hs N R hR
    rw [hS] at hS'
    cases hS'
    rw [h1, h2]

theorem carbon_margin : ∃ l R, Lam.init (.angles [0, 45, 30]) (.single carbon) = .ok l ∧ IsStack l ∧
    calculateMargin l (fun _ => 1) = .ok R ∧ R.length = 6 ∧ ∀ p ∈ l.layup, ∃ m, p.2 = .ortho m ∧ PosAllowables m := by
  obtain ⟨l, hl, hs, hne, hadm, -⟩ := carbon_stack
  obtain ⟨e, he⟩ := C29_admissible l (fun _ => 1) hs hne hadm
  have hlay : l.layup = [(0, carbon), (45, carbon), (30, carbon)] := by
    obtain ⟨l', hl', hlay⟩ := C10_single [0, 45, 30] carbon
    rw [hl] at hl'
    cases hl'
    simpa using hlay
  have hpos : ∀ p ∈ l.layup, ∃ m, p.2 = .ortho m ∧ PosAllowables m := by
    intro p hp
    rw [hlay] at hp
    refine ⟨⟨132000, 10300, 1/4, 5500, 0.127, 1500, 1200, 50, 200, 70⟩, ?_, by norm_num [PosAllowables]⟩
    simp at hp
    rcases hp with rfl | rfl | rfl <;> rfl
  refine ⟨l, marginRows l e, hl, hs, ?_, ?_, hpos⟩
  · rw [hs.margin_eq (fun p hp => (hpos p hp).imp fun m h => h.1), he]; rfl
  · rw [marginRows, flatMap_pair_length, hlay]; rfl

/-- Non-vacuity for C35-C38. -/
example : ∃ l R r, IsStack l ∧ calculateMargin l (fun _ => 1) = .ok R ∧ R[3]? = some r := by
  obtain ⟨l, R, -, hs, hR, hlen, -⟩ := carbon_margin
  exact ⟨l, R, R[3], hs, hR, by simp [hlen]⟩

/-! ## C36 -/

/-- `i` is the first column holding the least margin that is not NaN. -/
def Spec.IsFirstMin (x : Fin 5 → PyFloat) (i : Fin 5) : Prop :=
  x i ≠ .nan ∧ (∀ j, x j ≠ .nan → ¬ XF.lt (x j) (x i)) ∧ ∀ j < i, x j ≠ .nan → XF.lt (x i) (x j)

theorem XF.lt_trans' {a b c : PyFloat} (h1 : XF.lt a b) (h2 : XF.lt b c) : XF.lt a c := by
  cases a <;> cases b <;> cases c <;> simp_all [XF.lt] <;> linarith

theorem XF.lt_of_not_lt {a b c : PyFloat} (h1 : XF.lt a b) (h2 : ¬ XF.lt c b) (hc : c ≠ .nan) : XF.lt a c := by
  cases a <;> cases b <;> cases c <;> simp_all [XF.lt] <;> linarith

/-- Invariant of the scan: what is known after the columns in `L`. -/
def ScanInv (x : Fin 5 → PyFloat) (L : List (Fin 5)) : Option (Fin 5) → Prop
  | none => ∀ j ∈ L, x j = .nan
  | some i => i ∈ L ∧ x i ≠ .nan ∧ (∀ j ∈ L, x j ≠ .nan → ¬ XF.lt (x j) (x i)) ∧
      ∀ j ∈ L, j < i → x j ≠ .nan → XF.lt (x i) (x j)

open Classical in
theorem scan_step (x : Fin 5 → PyFloat) (L : List (Fin 5)) (i : Fin 5) (hi : ∀ j ∈ L, j < i)
    (b : Option (Fin 5)) : ScanInv x L b →
    ScanInv x (L ++ [i]) (if x i = .nan then b
      else match b with
        | none => some i
        | some b' => if XF.lt (x i) (x b') then some i else b) := by
  intro h
  by_cases hn : x i = .nan
  · rw [if_pos hn]
    cases b with
    | none =>
      intro j hj
      rcases List.mem_append.mp hj with hj | hj
      · exact h j hj
      · rw [List.mem_singleton.mp hj, hn]
    | some b' =>
      obtain ⟨h1, h2, h3, h4⟩ := h
      refine ⟨List.mem_append_left _ h1, h2, ?_, ?_⟩
      · intro j hj hjn
        rcases List.mem_append.mp hj with hj | hj
        · exact h3 j hj hjn
        · rw [List.mem_singleton.mp hj] at hjn; exact absurd hn hjn
      · intro j hj hlt hjn
        rcases List.mem_append.mp hj with hj | hj
        · exact h4 j hj hlt hjn
        · rw [List.mem_singleton.mp hj] at hjn; exact absurd hn hjn
  · rw [if_neg hn]
    have irr : ¬ XF.lt (x i) (x i) := by cases x i <;> simp [XF.lt]
    cases b with
    | none =>
      refine ⟨by simp, hn, ?_, ?_⟩
      · intro j hj hjn
        rcases List.mem_append.mp hj with hj | hj
        · exact absurd (h j hj) hjn
        · rw [List.mem_singleton.mp hj]; exact irr
      · intro j hj hlt hjn
        rcases List.mem_append.mp hj with hj | hj
        · exact absurd (h j hj) hjn
        · rw [List.mem_singleton.mp hj] at hlt; exact absurd hlt (lt_irrefl _)
    | some b' =>
      obtain ⟨h1, h2, h3, h4⟩ := h
      by_cases hlt : XF.lt (x i) (x b')
      · simp only [hlt, if_true]
        refine ⟨by simp, hn, ?_, ?_⟩
        · intro j hj hjn hjlt
          rcases List.mem_append.mp hj with hj | hj
          · exact h3 j hj hjn (XF.lt_trans' hjlt hlt)
          · rw [List.mem_singleton.mp hj] at hjlt; exact irr hjlt
        · intro j hj hji hjn
          rcases List.mem_append.mp hj with hj | hj
          · exact XF.lt_of_not_lt hlt (h3 j hj hjn) hjn
          · rw [List.mem_singleton.mp hj] at hji; exact absurd hji (lt_irrefl _)
      · simp only [hlt, if_false]
        refine ⟨List.mem_append_left _ h1, h2, ?_, ?_⟩
        · intro j hj hjn
          rcases List.mem_append.mp hj with hj | hj
          · exact h3 j hj hjn
          · rw [List.mem_singleton.mp hj]; exact hlt
        · intro j hj hji hjn
          rcases List.mem_append.mp hj with hj | hj
          · exact h4 j hj hji hjn
          · rw [List.mem_singleton.mp hj] at hji; exact absurd hji (not_lt.mpr (hi b' h1).le)

theorem idxmin_inv (x : Fin 5 → PyFloat) : ScanInv x (List.finRange 5) (idxmin x) := by
  have e : List.finRange 5 = [0, 1, 2, 3, 4] := by decide
  have i0 : ScanInv x [] none := by intro j hj; cases hj
  have i1 := scan_step x [] 0 (by simp) _ i0
  have i2 := scan_step x [0] 1 (by decide) _ i1
  have i3 := scan_step x [0, 1] 2 (by decide) _ i2
  have i4 := scan_step x [0, 1, 2] 3 (by decide) _ i3
  have i5 := scan_step x [0, 1, 2, 3] 4 (by decide) _ i4
  unfold idxmin
  rw [e]
  exact i5

theorem idxmin_spec (x : Fin 5 → PyFloat) : (∀ i, idxmin x = some i ↔ IsFirstMin x i) ∧
    (idxmin x = none ↔ ∀ i, x i = .nan) := by
  have h := idxmin_inv x
  cases hb : idxmin x with
  | none =>
    rw [hb] at h
    have hall : ∀ i, x i = .nan := fun i => h i (List.mem_finRange i)
    refine ⟨fun i => ⟨fun h' => (by cases h'), fun h' => absurd (hall i) h'.1⟩, by simpa using hall⟩
  | some b =>
    rw [hb] at h
    obtain ⟨h1, h2, h3, h4⟩ := h
    refine ⟨fun i => ⟨?_, ?_⟩, ⟨fun h' => (by cases h'), fun h' => absurd (h' b) h2⟩⟩
    · intro h'
      cases h'
      exact ⟨h2, fun j => h3 j (List.mem_finRange j), fun j => h4 j (List.mem_finRange j)⟩
    · rintro ⟨g1, g2, g3⟩
      rcases lt_trichotomy b i with hlt | heq | hgt
      · exact absurd (g3 b hlt h2) (h3 i (List.mem_finRange i) g1)
      · rw [heq]
      · exact absurd (h4 i (List.mem_finRange i) hgt g1) (g2 b h2)

/-- **C36** the `critical` entry of every row names the first of the least margins, and is empty
exactly when the five margins are NaN. -/
theorem C36_critical (l : Lam) (hs : IsStack l) (N : V6) (R : List MarginRow)
    (hR : calculateMargin l N = .ok R) (r : MarginRow) (hr : r ∈ R) :
    (∀ i, r.critical = some i ↔ IsFirstMin r.margin i) ∧ (r.critical = none ↔ ∀ i, r.margin i = .nan) := by
  obtain ⟨j, hj⟩ := List.mem_iff_getElem?.mp hr
  obtain ⟨-, -, -, -, -, -, -, -, -, -, -, hc⟩ := margin_row hs N R hR j r hj
  rw [hc]
  exact idxmin_spec _

theorem npDiv_ne_nan (a b : ℝ) (ha : 0 < a) : npDiv a b ≠ .nan := by
  unfold npDiv
  by_cases h : b = 0 <;> simp [h, ha.ne', not_lt.mpr ha.le]

theorem subOne_nan (x : PyFloat) : subOne x = .nan ↔ x = .nan := by
  cases x <;> simp [subOne]

/-- **C36** with positive allowables no margin is NaN, so every row names a critical mode. -/
theorem C36_critical_exists (l : Lam) (hs : IsStack l) (N : V6) (R : List MarginRow)
    (hR : calculateMargin l N = .ok R) (hpos : ∀ p ∈ l.layup, ∀ m, p.2 = .ortho m → PosAllowables m)
    (r : MarginRow) (hr : r ∈ R) :
    (∀ i, r.margin i ≠ .nan) ∧ ∃ i, r.critical = some i ∧ ∀ j, ¬ XF.lt (r.margin j) (r.margin i) := by
  obtain ⟨j, hj⟩ := List.mem_iff_getElem?.mp hr
  obtain ⟨hk, m, S, s, hm, -, -, -, -, -, hmar, -⟩ := margin_row hs N R hR j r hj
  obtain ⟨h1, h2, h3, h4, h5⟩ := hpos _ (List.getElem_mem hk) m hm
  have hno : ∀ i, r.margin i ≠ .nan := by
    rw [hmar]
    intro i
    fin_cases i <;> simp [margins, marginT, marginC, marginS, subOne_nan, npDiv_ne_nan, h1, h2, h3, h4, h5]
  refine ⟨hno, ?_⟩
  obtain ⟨c1, c2⟩ := C36_critical l hs N R hR r hr
  cases hc : r.critical with
  | none => exact absurd (c2.mp hc 0) (hno 0)
  | some i => exact ⟨i, rfl, fun j => ((c1 i).mp hc).2.1 j (hno j)⟩

/-! ## C37 (refuted for the position) -/

/-- **C37** what holds: ply number and angle of row `j` agree with row `j` of the stress table.
Missing: the position, which differs in every row. -/
theorem C37_labels_partial (l : Lam) (hs : IsStack l) (N : V6) (R : List MarginRow) (S : List Row)
    (hR : calculateMargin l N = .ok R) (hS : calculateStress l N = .ok S) (j : Nat) (r : MarginRow) (s : Row)
    (hr : R[j]? = some r) (hs' : S[j]? = some s) :
    r.ply = s.ply ∧ r.angle = s.angle ∧ r.position ≠ s.position := by
  obtain ⟨-, m, S', s', -, hS', g, h1, h2, h3, -, -⟩ := margin_row hs N R hR j r hr
  rw [hS] at hS'
  cases hS'
  rw [hs'] at g
  cases g
  exact ⟨h1, h2, h3⟩

/-- **C37** is false of the code: some margin row is not labelled like the stress row it comes from. -/
theorem C37_labels_false : ¬ ∀ (l : Lam) (N : V6) (R : List MarginRow) (S : List Row), IsStack l →
    calculateMargin l N = .ok R → calculateStress l N = .ok S → ∀ (j : Nat) (r : MarginRow) (s : Row),
      R[j]? = some r → S[j]? = some s → r.ply = s.ply ∧ r.angle = s.angle ∧ r.position = s.position := by
  intro H
  obtain ⟨l, R, -, hs, hR, hlen, -⟩ := carbon_margin
  have hr : R[0]? = some R[0] := by simp [hlen]
  obtain ⟨-, -, S, s, -, hS, hs', -, -, h3, -⟩ := margin_row hs _ R hR 0 _ hr
  exact h3 (H l _ R S hs hR hS 0 _ s hr hs').2.2

/-! ## C38 -/

/-- `(x + 1) / c - 1`, infinities and NaN unchanged. -/
noncomputable def Spec.rescale (c : ℝ) : PyFloat → PyFloat
  | .fin x => .fin ((x + 1) / c - 1)
  | x => x

theorem subOne_npDiv_scale (a b c : ℝ) (hc : 0 < c) :
    subOne (npDiv a (c * b)) = rescale c (subOne (npDiv a b)) := by
  unfold npDiv
  by_cases hb : b = 0
  · simp only [hb, mul_zero, if_true]
    by_cases ha : a = 0
    · simp [ha, subOne, rescale]
    · by_cases ha' : a < 0 <;> simp [ha, ha', subOne, rescale]
  · simp only [hb, mul_eq_zero, hc.ne', or_false, if_false, subOne, rescale, XF.fin.injEq]
    field_simp
    ring

theorem marginT_scale (a s c : ℝ) (hc : 0 < c) : marginT a (c * s) = rescale c (marginT a s) := by
  unfold marginT
  rw [← subOne_npDiv_scale _ _ _ hc]
  congr 2
  by_cases h : s < 0
  · rw [if_pos h, if_pos (mul_neg_of_pos_of_neg hc h), mul_zero]
  · rw [if_neg h, if_neg (not_lt.mpr (mul_nonneg hc.le (not_lt.mp h)))]

theorem marginC_scale (a s c : ℝ) (hc : 0 < c) : marginC a (c * s) = rescale c (marginC a s) := by
  unfold marginC
  rw [← subOne_npDiv_scale _ _ _ hc]
  congr 2
  by_cases h : s > 0
  · rw [if_pos h, if_pos (mul_pos hc h)]; simp
  · rw [if_neg h, if_neg (not_lt.mpr (mul_nonpos_of_nonneg_of_nonpos hc.le (not_lt.mp h))), abs_mul, abs_of_pos hc]

theorem marginS_scale (a s c : ℝ) (hc : 0 < c) : marginS a (c * s) = rescale c (marginS a s) := by
  unfold marginS
  rw [← subOne_npDiv_scale _ _ _ hc, abs_mul, abs_of_pos hc]

theorem margins_scale (a : V5) (s : V3) (c : ℝ) (hc : 0 < c) :
    margins a (c • s) = fun i => rescale c (margins a s i) := by
  funext i
  fin_cases i <;>
    simp [margins, marginT_scale _ _ _ hc, marginC_scale _ _ _ hc, marginS_scale _ _ _ hc]

theorem rescale_lt (c : ℝ) (hc : 0 < c) (x y : PyFloat) :
    XF.lt (rescale c x) (rescale c y) ↔ XF.lt x y := by
  cases x <;> cases y <;> simp [XF.lt, rescale]
  rw [div_lt_div_iff_of_pos_right hc]
  constructor <;> intro <;> linarith

theorem rescale_nan (c : ℝ) (x : PyFloat) : rescale c x = .nan ↔ x = .nan := by
  cases x <;> simp [rescale]

theorem idxmin_rescale (c : ℝ) (hc : 0 < c) (x : Fin 5 → PyFloat) :
    idxmin (fun i => rescale c (x i)) = idxmin x := by
  unfold idxmin
  simp only [rescale_lt c hc, rescale_nan]

/-- The same row after scaling the load by `c`: same labels, same critical mode, rescaled margins. -/
noncomputable def Spec.rescaleRow (c : ℝ) (r : MarginRow) : MarginRow :=
  { r with margin := fun i => rescale c (r.margin i) }

/-- **C38** multiplying all loads by `c > 0` multiplies every `margin + 1` by `1/c` and changes nothing
else in the table. -/
theorem C38_load_scaling (l : Lam) (hs : IsStack l) (N : V6) (c : ℝ) (hc : 0 < c) (R : List MarginRow)
    (hR : calculateMargin l N = .ok R) : calculateMargin l (c • N) = .ok (R.map (rescaleRow c)) := by
  obtain ⟨ha, -⟩ := margin_rows hs N R hR
  rw [hs.margin_eq ha] at *
  cases he : epsilon0 l N with
  | error e => simp [he] at hR
  | ok e =>
    simp only [he, ok_map, Except.ok.injEq] at hR
    subst hR
    have hlin := epsilon0_linear l N N e e c 0 he he
    simp only [zero_smul, add_zero] at hlin
    rw [hlin, ok_map, Except.ok.injEq]
    simp only [marginRows, List.map_flatMap, List.map_cons, List.map_nil, rescaleRow]
    have hst : ∀ z, strainAt (c • e) z = c • strainAt e z := by
      intro z
      have := strainAt_linear e e c 0 z
      simpa using this
    simp only [hst, Matrix.mulVec_smul, margins_scale _ _ _ hc, idxmin_rescale c hc]

end Composipy
