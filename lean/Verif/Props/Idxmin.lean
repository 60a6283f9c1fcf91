import Verif.Model.Idxmin
import Verif.Props.ZeroAllowables

/-!
# C135: the critical column in every version of pandas
-/

namespace Composipy
open Spec Matrix

/-- The five allowables of a material in the order of the margin columns. -/
def Spec.allowOf (m : OrthoMat ℝ) : Fin 5 → ℝ := ![m.t1, m.c1, m.t2, m.c2, m.s]

/-- The margin of a stress that does not act. -/
noncomputable def idleMargin (a : ℝ) : PyFloat := subOne (npDiv a 0)

theorem idleMargin_eq {a : ℝ} (ha : 0 ≤ a) : (0 < a ∧ idleMargin a = .pinf) ∨ (a = 0 ∧ idleMargin a = .nan) := by
  rcases ha.lt_or_eq with h | rfl
  · exact .inl ⟨h, by simp [idleMargin, npDiv, subOne, h.ne', not_lt.mpr h.le]⟩
  · exact .inr ⟨rfl, by simp [idleMargin, npDiv, subOne]⟩

theorem margins_zero (a : V5) : margins a 0 = fun i => idleMargin (a i) := by
  ext i
  fin_cases i <;> simp [margins, marginT, marginC, marginS, idleMargin]

theorem margins_loaded (a : V5) (s : V3) (hs : s ≠ 0) : ∃ i x, margins a s i = .fin x := by
  have key : s 0 ≠ 0 ∨ s 1 ≠ 0 ∨ s 2 ≠ 0 := by
    by_contra h
    push Not at h
    exact hs (by ext i; fin_cases i <;> simp [h])
  have T : ∀ b t : ℝ, 0 < t → ∃ x, marginT b t = .fin x := fun b t ht => ⟨b / t - 1, by
    simp [marginT, npDiv, not_lt.mpr ht.le, ht.ne', subOne]⟩
  have C : ∀ b t : ℝ, t < 0 → ∃ x, marginC b t = .fin x := fun b t ht => ⟨b / |t| - 1, by
    simp [marginC, npDiv, not_lt.mpr ht.le, ht.ne, subOne]⟩
  rcases key with h | h | h
  · rcases lt_or_gt_of_ne h with h | h
    · exact ⟨1, C (a 1) (s 0) h⟩
    · exact ⟨0, T (a 0) (s 0) h⟩
  · rcases lt_or_gt_of_ne h with h | h
    · exact ⟨3, C (a 3) (s 1) h⟩
    · exact ⟨2, T (a 2) (s 1) h⟩
  · exact ⟨4, a 4 / |s 2| - 1, by simp [margins, marginS, npDiv, h, subOne]⟩

theorem idxmin_fill (x : Fin 5 → PyFloat) (h : ∃ i r, x i = .fin r) : idxmin (fillInf x) = idxmin x := by
  obtain ⟨k, r, hk⟩ := h
  have hex : ∃ i, idxmin x = some i := by
    rw [← Option.isSome_iff_exists, Option.isSome_iff_ne_none]
    intro hn
    have := (idxmin_spec x).2.mp hn k
    simp [hk] at this
  obtain ⟨i, hi⟩ := hex
  rw [hi]
  obtain ⟨h1, h2, h3⟩ := ((idxmin_spec x).1 i).mp hi
  have h4 : XF.lt (x i) .pinf := by
    have := h2 k (by simp [hk])
    rw [hk] at this
    cases hx : x i <;> simp_all [XF.lt]
  have hf : fillInf x i = x i := by simp [fillInf, h1]
  refine ((idxmin_spec _).1 i).mpr ⟨by rw [hf]; exact h1, fun j _ => ?_, fun j hj _ => ?_⟩
  · rw [hf]
    by_cases hn : x j = .nan
    · simp only [fillInf, hn, if_true]
      cases hx : x i <;> simp_all [XF.lt]
    · simp only [fillInf, hn, if_false]
      exact h2 j hn
  · rw [hf]
    by_cases hn : x j = .nan
    · simpa only [fillInf, hn, if_true] using h4
    · simp only [fillInf, hn, if_false]
      exact h3 j hj hn

/-- What the column `critical` holds in a row without stress. -/
def Spec.IdleCritical (filled : Bool) (a : Fin 5 → ℝ) (c : Option (Fin 5)) : Prop :=
  (c = none ↔ ∀ i, a i = 0) ∧ ∀ i, c = some i ↔ (∃ j, 0 < a j) ∧ if filled then i = 0 else 0 < a i ∧ ∀ j < i, a j = 0

theorem pandasIdxmin_idle (filled strict : Bool) (a : Fin 5 → ℝ) (ha : ∀ i, 0 ≤ a i) :
    (pandasIdxmin filled strict (fun i => idleMargin (a i)) = .error .valueError ↔ strict ∧ ∀ i, a i = 0) ∧
    (∀ e, pandasIdxmin filled strict (fun i => idleMargin (a i)) = .error e → e = .valueError) ∧
    ∀ c, pandasIdxmin filled strict (fun i => idleMargin (a i)) = .ok c → IdleCritical filled a c := by
  have hnan : ∀ i, idleMargin (a i) = .nan ↔ a i = 0 := fun i => by
    rcases idleMargin_eq (ha i) with ⟨h1, h2⟩ | ⟨h1, h2⟩
    · simp [h2, h1.ne']
    · exact ⟨fun _ => h1, fun _ => h2⟩
  have hinf : ∀ i, idleMargin (a i) = .pinf ↔ 0 < a i := fun i => by
    rcases idleMargin_eq (ha i) with ⟨h1, h2⟩ | ⟨h1, h2⟩
    · simp [h2, h1]
    · rw [h2]
      simp [h1]
  by_cases hz : ∀ i, a i = 0
  · have : ∀ i, idleMargin (a i) = .nan := fun i => (hnan i).mpr (hz i)
    simp only [pandasIdxmin, this, implies_true, if_true]
    cases strict
    · simp [IdleCritical, hz]
    · simp [hz]
  · have hn : ¬ ∀ i, idleMargin (a i) = .nan := by simpa only [hnan] using hz
    have hp : ∃ j, 0 < a j := by
      push Not at hz
      obtain ⟨j, hj⟩ := hz
      exact ⟨j, lt_of_le_of_ne (ha j) hj.symm⟩
    simp only [pandasIdxmin, hn, if_false, hz, and_false]
    refine ⟨by simp, by simp, fun c hc => ?_⟩
    simp only [Except.ok.injEq] at hc
    subst hc
    refine ⟨?_, fun i => ?_⟩
    · simp only [hz, iff_false]
      cases filled
      · exact fun h => hn ((idxmin_spec _).2.mp h)
      · intro h
        have := (idxmin_spec _).2.mp h 0
        by_cases h0 : idleMargin (a 0) = .nan <;> simp [fillInf, h0] at this
    · simp only [hp, true_and]
      cases filled
      · simp only [Bool.false_eq_true, if_false]
        rw [(idxmin_spec _).1 i]
        unfold IsFirstMin
        simp only [ne_eq, hnan]
        constructor
        · rintro ⟨h1, -, h3⟩
          have hi : 0 < a i := lt_of_le_of_ne (ha i) (Ne.symm h1)
          refine ⟨hi, fun j hj => by_contra fun h => ?_⟩
          have := h3 j hj h
          rw [(hinf i).mpr hi, (hinf j).mpr (lt_of_le_of_ne (ha j) (Ne.symm h))] at this
          exact this
        · rintro ⟨hi, h⟩
          refine ⟨hi.ne', fun j hj => ?_, fun j hj h' => absurd (h j hj) h'⟩
          rw [(hinf i).mpr hi, (hinf j).mpr (lt_of_le_of_ne (ha j) (Ne.symm hj))]
          exact fun h => h
      · have hall : fillInf (fun i => idleMargin (a i)) = fun _ => .pinf := by
          ext k
          rcases idleMargin_eq (ha k) with ⟨-, h2⟩ | ⟨-, h2⟩ <;> simp [fillInf, h2]
        simp only [if_true, hall]
        rw [(idxmin_spec _).1 i]
        unfold IsFirstMin
        constructor
        · rintro ⟨-, -, h3⟩
          by_contra h
          exact h3 0 (Fin.pos_of_ne_zero h) (by simp)
        · rintro rfl
          exact ⟨by simp, fun _ _ h => h, fun j hj => absurd hj (Fin.not_lt_zero j)⟩

theorem pandasIdxmin_loaded (filled strict : Bool) (x : Fin 5 → PyFloat) (h : ∃ i r, x i = .fin r) :
    pandasIdxmin filled strict x = .ok (idxmin x) := by
  have hn : ¬ ∀ i, x i = .nan := fun hall => by
    obtain ⟨i, r, hi⟩ := h
    simp [hall i] at hi
  cases filled
  · simp [pandasIdxmin, hn]
  · simp [pandasIdxmin, hn, idxmin_fill x h]

/-- The table of `calculate_maxstressmargin`, with `critical` filled in afterwards. -/
theorem calculateMarginPandas_eq (filled strict : Bool) (l : Lam) (N : V6) : calculateMarginPandas filled strict l N =
    calculateMargin l N >>= fun R => R.mapM fun r => do
      let c ← pandasIdxmin filled strict r.margin
      return { r with critical := c } := by
  simp only [calculateMarginPandas, calculateMargin]
  cases calculateAllowable l with
  | error e => rfl
  | ok al =>
    cases calculateStress l N with
    | error e => rfl
    | ok st =>
      simp only [ok_bind, pure_eq_ok]
      rw [List.mapM_map]
      rfl

theorem except_mapM_cases {α β : Type} (f : α → Except PyErr β) (e0 : PyErr) (h : ∀ x e, f x = .error e → e = e0) (L : List α) :
    (∀ e, L.mapM f = .error e ↔ e = e0 ∧ ∃ x ∈ L, f x = .error e0) ∧
    ∀ ys, L.mapM f = .ok ys → ys.length = L.length ∧ ∀ (j : ℕ) y, ys[j]? = some y → ∃ x, L[j]? = some x ∧ f x = .ok y := by
  induction L with
  | nil =>
    refine ⟨by simp [pure_eq_ok], fun ys hy => ?_⟩
    simp only [List.mapM_nil, pure_eq_ok, Except.ok.injEq] at hy
    subst hy
    simp
  | cons a L ih =>
    rw [List.mapM_cons]
    cases ha : f a with
    | error e' =>
      have := h a e' ha
      subst this
      refine ⟨fun e => ?_, fun ys hy => by simp at hy⟩
      simp only [error_bind, Except.error.injEq]
      exact ⟨fun he => ⟨he.symm, a, by simp, ha⟩, fun he => he.1.symm⟩
    | ok b =>
      simp only [ok_bind]
      cases hL : L.mapM f with
      | error e' =>
        rw [hL] at ih
        obtain ⟨he, x, hx, hfx⟩ := (ih.1 e').mp rfl
        subst he
        refine ⟨fun e => ?_, fun ys hy => by simp at hy⟩
        simp only [error_bind, Except.error.injEq]
        exact ⟨fun he => ⟨he.symm, x, by simp [hx], hfx⟩, fun he => he.1.symm⟩
      | ok bs =>
        rw [hL] at ih
        refine ⟨fun e => ?_, fun ys hy => ?_⟩
        · simp only [ok_bind, pure_eq_ok, reduceCtorEq, false_iff, not_and]
          rintro - ⟨x, hx, hfx⟩
          rcases List.mem_cons.mp hx with rfl | hx
          · simp [ha] at hfx
          · exact absurd ((ih.1 e0).mpr ⟨rfl, x, hx, hfx⟩) (by simp)
        · simp only [ok_bind, pure_eq_ok, Except.ok.injEq] at hy
          subst hy
          obtain ⟨h1, h2⟩ := ih.2 bs rfl
          refine ⟨by simp [h1], fun j y hj => ?_⟩
          cases j with
          | zero =>
            simp only [List.getElem?_cons_zero, Option.some.injEq] at hj
            subst hj
            exact ⟨a, by simp, ha⟩
          | succ j => simpa using h2 j y (by simpa using hj)

theorem pandasIdxmin_err (filled strict : Bool) (x : Fin 5 → PyFloat) (e : PyErr) (h : pandasIdxmin filled strict x = .error e) :
    e = .valueError := by
  unfold pandasIdxmin at h
  by_cases h1 : ∀ i, x i = .nan
  · rw [if_pos h1] at h
    cases strict <;> simp at h
    exact h.symm
  · rw [if_neg h1] at h
    simp at h

theorem set_err {filled strict : Bool} (r : MarginRow) (e : PyErr) (h : (do
      let c ← pandasIdxmin filled strict r.margin
      return { r with critical := c } : Except PyErr MarginRow) = .error e) : pandasIdxmin filled strict r.margin = .error e := by
  cases hc : pandasIdxmin filled strict r.margin with
  | error e' => rw [hc] at h; simpa using h
  | ok c => rw [hc] at h; simp [pure_eq_ok] at h

theorem allowOf_nonneg {m : OrthoMat ℝ} (h : NonnegAllowables m) (i : Fin 5) : 0 ≤ allowOf m i := by
  obtain ⟨h1, h2, h3, h4, h5⟩ := h
  fin_cases i
  exacts [h1, h2, h3, h4, h5]

/-- **C135** in every version of pandas an exception before `idxmin` is the same. -/
theorem C135_error (filled strict : Bool) (l : Lam) (N : V6) (e : PyErr) (h : calculateMargin l N = .error e) :
    calculateMarginPandas filled strict l N = .error e := by
  rw [calculateMarginPandas_eq, h]
  rfl

/-- **C135** where every row has a stress that is not zero, the margin table is the same in every version of pandas, whatever the allowables. -/
theorem C135_loaded (filled strict : Bool) (l : Lam) (hs : IsStack l) (N : V6) (S : List Row) (hS : calculateStress l N = .ok S)
    (hl : ∀ s ∈ S, s.m12 ≠ 0) : calculateMarginPandas filled strict l N = calculateMargin l N := by
  rw [calculateMarginPandas_eq]
  cases hR : calculateMargin l N with
  | error e => rfl
  | ok R =>
    rw [ok_bind]
    have key : ∀ r ∈ R, (do
        let c ← pandasIdxmin filled strict r.margin
        return { r with critical := c } : Except PyErr MarginRow) = .ok r := by
      intro r hr
      obtain ⟨j, hj⟩ := List.mem_iff_getElem?.mp hr
      obtain ⟨hk, m, S', s, hm, hS', hs', -, -, -, hmar, hc⟩ := margin_row hs N R hR j r hj
      rw [hS] at hS'
      cases hS'
      rw [pandasIdxmin_loaded _ _ _ (by rw [hmar]; exact margins_loaded _ _ (hl s (List.mem_of_getElem? hs'))), ← hc]
      rfl
    rw [mapM_eq_ok _ id R key, List.map_id]

/-- **C135** where all allowables are positive, the margin table is the same in every version of pandas, whatever the loads. -/
theorem C135_positive (filled strict : Bool) (l : Lam) (hs : IsStack l)
    (hp : ∀ p ∈ l.layup, ∀ m, p.2 = .ortho m → ∀ i, 0 < allowOf m i) (N : V6) :
    calculateMarginPandas filled strict l N = calculateMargin l N := by
  rw [calculateMarginPandas_eq]
  cases hR : calculateMargin l N with
  | error e => rfl
  | ok R =>
    rw [ok_bind]
    have key : ∀ r ∈ R, (do
        let c ← pandasIdxmin filled strict r.margin
        return { r with critical := c } : Except PyErr MarginRow) = .ok r := by
      intro r hr
      obtain ⟨j, hj⟩ := List.mem_iff_getElem?.mp hr
      obtain ⟨hk, m, S', s, hm, hS', hs', -, -, -, hmar, hc⟩ := margin_row hs N R hR j r hj
      have hpos := hp _ (List.getElem_mem hk) m hm
      have hn : ∀ i, r.margin i ≠ .nan := by
        have T : ∀ a b : ℝ, 0 < a → subOne (npDiv a b) ≠ .nan := fun a b ha => by
          have := npDiv_ne_nan a b ha
          cases h : npDiv a b <;> simp_all [subOne]
        intro i
        rw [hmar]
        fin_cases i
        exacts [T _ _ (hpos 0), T _ _ (hpos 1), T _ _ (hpos 2), T _ _ (hpos 3), T _ _ (hpos 4)]
      have hf : fillInf r.margin = r.margin := by
        ext i
        simp [fillInf, hn i]
      have : pandasIdxmin filled strict r.margin = .ok (idxmin r.margin) := by
        rw [pandasIdxmin, if_neg (fun h => hn 0 (h 0)), hf]
        simp
      rw [this, ← hc]
      rfl
    rw [mapM_eq_ok _ id R key, List.map_id]

/-- **C135** with accepted allowables, zero included: the table raises after the stresses are known exactly in the newer versions, with `ValueError`, and
exactly if some row without stress belongs to a ply whose allowables are all zero. -/
theorem C135_raises (filled strict : Bool) (l : Lam) (hs : IsStack l) (hp : ∀ p ∈ l.layup, ∀ m, p.2 = .ortho m → NonnegAllowables m) (N : V6)
    (R : List MarginRow) (hR : calculateMargin l N = .ok R) (S : List Row) (hS : calculateStress l N = .ok S) (e : PyErr) :
    calculateMarginPandas filled strict l N = .error e ↔ e = .valueError ∧ strict ∧
      ∃ (j : ℕ) (s : Row) (hk : j / 2 < l.layup.length) (m : OrthoMat ℝ), S[j]? = some s ∧ s.m12 = 0 ∧ (l.layup[j / 2]).2 = .ortho m ∧
        ∀ i, allowOf m i = 0 := by
  rw [calculateMarginPandas_eq, hR, ok_bind, (except_mapM_cases _ .valueError
    (fun r e h => pandasIdxmin_err filled strict r.margin e (set_err r e h)) R).1 e]
  refine and_congr_right fun _ => ?_
  constructor
  · rintro ⟨r, hr, hf⟩
    have hf := set_err r _ hf
    obtain ⟨j, hj⟩ := List.mem_iff_getElem?.mp hr
    obtain ⟨hk, m, S', s, hm, hS', hs', -, -, -, hmar, hc⟩ := margin_row hs N R hR j r hj
    rw [hS] at hS'
    cases hS'
    by_cases h0 : s.m12 = 0
    · rw [hmar, h0, margins_zero] at hf
      obtain ⟨h1, h2⟩ := (pandasIdxmin_idle filled strict (allowOf m) (allowOf_nonneg (hp _ (List.getElem_mem hk) m hm))).1.mp hf
      exact ⟨h1, j, s, hk, m, hs', h0, hm, h2⟩
    · rw [pandasIdxmin_loaded _ _ _ (by rw [hmar]; exact margins_loaded _ _ h0)] at hf
      cases hf
  · rintro ⟨hst, j, s, hk, m, hsj, h0, hm, hz⟩
    obtain ⟨-, S', hS', hlen, hlen', -⟩ := margin_rows hs N R hR
    rw [hS] at hS'
    cases hS'
    have hjl : j < R.length := by
      rw [hlen, ← hlen']
      exact (List.getElem?_eq_some_iff.mp hsj).1
    have hj : R[j]? = some R[j] := List.getElem?_eq_getElem hjl
    obtain ⟨hk', m', S', s', hm', hS', hs', -, -, -, hmar, hc⟩ := margin_row hs N R hR j _ hj
    rw [hS] at hS'
    cases hS'
    rw [hsj] at hs'
    cases hs'
    rw [hm] at hm'
    cases hm'
    refine ⟨R[j], List.getElem_mem hjl, ?_⟩
    have := (pandasIdxmin_idle filled strict (allowOf m) (allowOf_nonneg (hp _ (List.getElem_mem hk) m hm))).1.mpr ⟨hst, hz⟩
    rw [hmar, h0, margins_zero]
    change (do
      let c ← pandasIdxmin filled strict (fun i => idleMargin (allowOf m i))
      _ : Except PyErr MarginRow) = _
    rw [this]
    rfl

/-- **C135** with accepted allowables, zero included: in every version that does not raise, the table is the one of the documented `idxmin` but for the
column `critical` of rows without stress.  A row with stress names the first column with the least margin, a number.  A row without stress has no margin that is a number:
it names the first column with a positive allowable by the documentation, and `margin_t1` in the implementation, also where this margin is NaN. -/
theorem C135_rows (filled strict : Bool) (l : Lam) (hs : IsStack l) (hp : ∀ p ∈ l.layup, ∀ m, p.2 = .ortho m → NonnegAllowables m) (N : V6)
    (R : List MarginRow) (hR : calculateMargin l N = .ok R) (R' : List MarginRow) (hR' : calculateMarginPandas filled strict l N = .ok R') :
    R'.length = R.length ∧ ∀ (j : ℕ) (r' : MarginRow), R'[j]? = some r' → ∃ (r : MarginRow) (hk : j / 2 < l.layup.length) (m : OrthoMat ℝ) (S : List Row) (s : Row),
      R[j]? = some r ∧ (l.layup[j / 2]).2 = .ortho m ∧ calculateStress l N = .ok S ∧ S[j]? = some s ∧
      r'.ply = r.ply ∧ r'.position = r.position ∧ r'.angle = r.angle ∧ r'.margin = r.margin ∧
      (s.m12 ≠ 0 → r'.critical = r.critical ∧ ∃ i x, r'.critical = some i ∧ IsFirstMin r'.margin i ∧ r'.margin i = .fin x) ∧
      (s.m12 = 0 → (∀ i x, r'.margin i ≠ .fin x) ∧ IdleCritical filled (allowOf m) r'.critical) := by
  rw [calculateMarginPandas_eq, hR, ok_bind] at hR'
  obtain ⟨h1, h2⟩ := (except_mapM_cases _ .valueError (fun r e h => pandasIdxmin_err filled strict r.margin e (set_err r e h)) R).2 R' hR'
  refine ⟨h1, fun j r' hj => ?_⟩
  obtain ⟨r, hr, hf⟩ := h2 j r' hj
  obtain ⟨hk, m, S, s, hm, hS, hs', -, -, -, hmar, hc⟩ := margin_row hs N R hR j r hr
  cases hx : pandasIdxmin filled strict r.margin with
  | error e => rw [hx] at hf; simp at hf
  | ok c =>
    rw [hx] at hf
    simp only [ok_bind, pure_eq_ok, Except.ok.injEq] at hf
    subst hf
    refine ⟨r, hk, m, S, s, hr, hm, hS, hs', rfl, rfl, rfl, rfl, fun h0 => ?_, fun h0 => ?_⟩
    · obtain ⟨k, x, hkx⟩ : ∃ i x, r.margin i = .fin x := by rw [hmar]; exact margins_loaded _ _ h0
      rw [pandasIdxmin_loaded _ _ _ ⟨k, x, hkx⟩, Except.ok.injEq, ← hc] at hx
      subst hx
      refine ⟨rfl, ?_⟩
      cases hcr : r.critical with
      | none =>
        rw [hc] at hcr
        simp [(idxmin_spec _).2.mp hcr k] at hkx
      | some i =>
        rw [hc] at hcr
        have hmin := ((idxmin_spec _).1 i).mp hcr
        refine ⟨i, ?_⟩
        have h3 := hmin.2.1 k (by simp [hkx])
        have hni : r.margin i ≠ .ninf := by
          rw [hmar]
          obtain ⟨a1, a2, a3, a4, a5⟩ := hp _ (List.getElem_mem hk) m hm
          have T : ∀ a b : ℝ, 0 ≤ a → subOne (npDiv a b) ≠ .ninf := fun a b ha => by
            unfold npDiv
            by_cases hb : b = 0
            · by_cases hz : a = 0 <;> simp [hb, hz, not_lt.mpr ha, subOne]
            · simp [hb, subOne]
          fin_cases i
          exacts [T _ _ a1, T _ _ a2, T _ _ a3, T _ _ a4, T _ _ a5]
        have h4 := hmin.1
        cases hy : r.margin i with
        | fin y => exact ⟨y, rfl, hmin, rfl⟩
        | nan => exact absurd hy h4
        | ninf => exact absurd hy hni
        | pinf => rw [hy, hkx] at h3; simp [XF.lt] at h3
    · have hz := margins_zero ![m.t1, m.c1, m.t2, m.c2, m.s]
      rw [← h0, ← hmar] at hz
      have hn := allowOf_nonneg (hp _ (List.getElem_mem hk) m hm)
      rw [hz] at hx
      refine ⟨fun i x => ?_, (pandasIdxmin_idle filled strict (allowOf m) hn).2.2 c hx⟩
      change r.margin i ≠ .fin x
      rw [hz]
      change idleMargin (allowOf m i) ≠ .fin x
      rcases idleMargin_eq (hn i) with ⟨-, h⟩ | ⟨-, h⟩ <;> simp [h]

/-- A stack of three plies of one material. -/
theorem three_plies (m : Mat) (h : ∀ t, AdmissiblePly (t, m)) : ∃ l, Lam.init (.angles [0, 45, 30]) (.single m) = .ok l ∧ IsStack l ∧
    l.layup = [(0, m), (45, m), (30, m)] ∧ ∀ p ∈ l.layup, AdmissiblePly p := by
  obtain ⟨l, hl, hlay⟩ := C10_single [0, 45, 30] m
  refine ⟨l, hl, ⟨_, _, hl⟩, hlay, fun p hp => ?_⟩
  rw [hlay] at hp
  obtain ⟨a, -, rfl⟩ := List.mem_map.mp hp
  exact h a

/-- Without loads all stresses are zero. -/
theorem stress_zero {l : Lam} (hs : IsStack l) (hne : l.layup ≠ []) (h : ∀ p ∈ l.layup, AdmissiblePly p) :
    ∃ S, calculateStress l 0 = .ok S ∧ S.length = 2 * l.layup.length ∧ ∀ s ∈ S, s.m12 = 0 := by
  obtain ⟨A, D, M, -, -, hM, -, -, -, hdet⟩ := C15_posDef l hs hne h
  obtain ⟨e, he, -, hu⟩ := C29_epsilon0_unique l 0 M hM hdet
  have : e = 0 := (hu 0 (by simp)).symm
  subst this
  refine ⟨_, by rw [hs.stress_eq, he]; rfl, flatMap_pair_length _ _ _, fun s hs => ?_⟩
  have hz : ∀ z, strainAt 0 z = 0 := fun z => by ext i; fin_cases i <;> simp [strainAt, membrane, curvature]
  simp only [List.mem_flatMap, List.mem_cons, List.not_mem_nil, or_false, hz, Matrix.mulVec_zero] at hs
  obtain ⟨i, -, rfl | rfl⟩ := hs <;> rfl

/-- A load that stretches every ply alike acts in every row. -/
theorem stress_stretch {l : Lam} (hs : IsStack l) (hne : l.layup ≠ []) (h : ∀ p ∈ l.layup, AdmissiblePly p) :
    ∃ N S, calculateStress l N = .ok S ∧ ∀ s ∈ S, s.m12 ≠ 0 := by
  obtain ⟨A, D, M, -, -, hM, -, -, -, hdet⟩ := C15_posDef l hs hne h
  obtain ⟨e, he, -, hu⟩ := C29_epsilon0_unique l (M *ᵥ (Sum.elim ![1, 0, 0] 0)) M hM hdet
  have : e = (Sum.elim ![1, 0, 0] 0) := (hu _ rfl).symm
  subst this
  refine ⟨_, _, by rw [hs.stress_eq, he]; rfl, fun s hs => ?_⟩
  have hz : ∀ z, strainAt (Sum.elim ![1, 0, 0] 0) z = ![1, 0, 0] := fun z => by ext i; fin_cases i <;> simp [strainAt, membrane, curvature]
  simp only [stressRows, List.mem_flatMap, List.mem_cons, List.not_mem_nil, or_false, hz, List.mem_range] at hs
  obtain ⟨i, hi, hs⟩ := hs
  have hQ : l.QAt i *ᵥ ![1, 0, 0] ≠ 0 := by
    rw [l.QAt_eq i hi]
    intro h0
    have h1 := (layer_pd (h _ (List.getElem_mem hi))).2.2 ![1, 0, 0] (fun h => by simpa using congrFun h 0)
    change 0 < _ ⬝ᵥ (plyQ! (l.layup[i]) *ᵥ _) at h1
    rw [h0] at h1
    simp at h1
  have hT : Treal (l.angleAt i) *ᵥ (l.QAt i *ᵥ ![1, 0, 0]) ≠ 0 := fun h0 => hQ (by
    have := congrArg ((Treal (l.angleAt i))⁻¹ *ᵥ ·) h0
    simpa [Matrix.mulVec_mulVec, ← Matrix.mul_assoc, Matrix.nonsing_inv_mul _ (Treal_det_isUnit _)] using this)
  rcases hs with rfl | rfl <;> exact hT

theorem bare_admissible (t : ℝ) : AdmissiblePly (t, bareCarbon) := carbon_admissible t

/-- Non-vacuity for C135_loaded: the stack without allowables under a load that acts in every row has the same table in every version. -/
example (filled strict : Bool) : ∃ l N R, Lam.init (.angles [0, 45, 30]) (.single bareCarbon) = .ok l ∧ calculateMargin l N = .ok R ∧ R.length = 6 ∧
    calculateMarginPandas filled strict l N = .ok R := by
  obtain ⟨l, hl, hs, hlay, hadm⟩ := three_plies bareCarbon bare_admissible
  obtain ⟨N, S, hS, hn⟩ := stress_stretch hs (by simp [hlay]) hadm
  obtain ⟨R, hR⟩ := (C35_computable l hs N).1.mpr ⟨fun p hp => by simp [hlay] at hp; rcases hp with rfl | rfl | rfl <;> exact ⟨_, rfl⟩, S, hS⟩
  obtain ⟨-, S', -, h1, -⟩ := margin_rows hs N R hR
  exact ⟨l, N, R, hl, hR, by rw [h1, hlay]; rfl, (C135_loaded filled strict l hs N S hS hn).trans hR⟩

/-- Non-vacuity for C135_positive: the carbon stack. -/
example (filled strict : Bool) : ∃ l R, Lam.init (.angles [0, 45, 30]) (.single carbon) = .ok l ∧ R.length = 6 ∧
    calculateMarginPandas filled strict l (fun _ => 1) = .ok R := by
  obtain ⟨l, R, hl, hs, hR, h6, hpos⟩ := carbon_margin
  refine ⟨l, R, hl, h6, (C135_positive filled strict l hs (fun p hp m hm => ?_) _).trans hR⟩
  obtain ⟨m', hm', h1, h2, h3, h4, h5⟩ := hpos p hp
  rw [hm] at hm'
  cases hm'
  intro i
  fin_cases i
  exacts [h1, h2, h3, h4, h5]

/-- Non-vacuity for C135_raises and C135_error: the stack without allowables and without loads. -/
example (filled : Bool) : ∃ l, Lam.init (.angles [0, 45, 30]) (.single bareCarbon) = .ok l ∧
    calculateMarginPandas filled true l 0 = .error .valueError ∧ ∃ R, calculateMarginPandas filled false l 0 = .ok R ∧ ∀ r ∈ R, r.critical = none := by
  obtain ⟨l, hl, hs, hlay, hadm⟩ := three_plies bareCarbon bare_admissible
  obtain ⟨S, hS, hlen, hz⟩ := stress_zero hs (by simp [hlay]) hadm
  have hall : ∀ p ∈ l.layup, p.2 = bareCarbon := fun p hp => by simp [hlay] at hp; rcases hp with rfl | rfl | rfl <;> rfl
  obtain ⟨R, hR⟩ := (C35_computable l hs 0).1.mpr ⟨fun p hp => ⟨_, hall p hp⟩, S, hS⟩
  have hnn : ∀ p ∈ l.layup, ∀ m, p.2 = .ortho m → NonnegAllowables m := fun p hp m hm => by
    rw [hall p hp, bareCarbon] at hm
    cases hm
    norm_num [NonnegAllowables]
  have h6 : S.length = 6 := by rw [hlen, hlay]; rfl
  refine ⟨l, hl, (C135_raises filled true l hs hnn 0 R hR S hS _).mpr ⟨rfl, rfl, 0, S[0], by simp [hlay], _, by simp [h6], hz _ (List.getElem_mem _),
    hall _ (List.getElem_mem _), fun i => by fin_cases i <;> rfl⟩, ?_⟩
  cases hR' : calculateMarginPandas filled false l 0 with
  | error e => exact absurd ((C135_raises filled false l hs hnn 0 R hR S hS e).mp hR').2.1 (by simp)
  | ok R' =>
    refine ⟨R', rfl, fun r hr => ?_⟩
    obtain ⟨j, hj⟩ := List.mem_iff_getElem?.mp hr
    obtain ⟨r0, hk, m, S', s, -, hm, hS', hsj, -, -, -, -, -, hidle⟩ := (C135_rows filled false l hs hnn 0 R hR R' hR').2 j r hj
    rw [hS] at hS'
    cases hS'
    rw [hall _ (List.getElem_mem hk), bareCarbon] at hm
    cases hm
    exact (hidle (hz s (List.mem_of_getElem? hsj))).2.1.mpr fun i => by fin_cases i <;> rfl

/-- The example material without the allowable in tension along the fibres. -/
noncomputable def noTension : Mat := .ortho ⟨132000, 10300, 1/4, 5500, 0.127, 0, 1200, 50, 200, 70⟩

/-- Non-vacuity for C135_rows: without loads, the documentation names `margin_c1`, whose margin is infinite; the implementation names `margin_t1`, whose margin
is NaN. -/
example (strict : Bool) : ∃ l R R', Lam.init (.angles [0, 45, 30]) (.single noTension) = .ok l ∧ calculateMarginPandas false strict l 0 = .ok R ∧
    calculateMarginPandas true strict l 0 = .ok R' ∧ R.length = 6 ∧ R'.length = 6 ∧ (∀ r ∈ R, r.critical = some 1) ∧
    ∀ r ∈ R', r.critical = some 0 ∧ r.margin 0 = .nan := by
  obtain ⟨l, hl, hs, hlay, hadm⟩ := three_plies noTension carbon_admissible
  obtain ⟨S, hS, hlen, hz⟩ := stress_zero hs (by simp [hlay]) hadm
  have hall : ∀ p ∈ l.layup, p.2 = noTension := fun p hp => by simp [hlay] at hp; rcases hp with rfl | rfl | rfl <;> rfl
  obtain ⟨R0, hR0⟩ := (C35_computable l hs 0).1.mpr ⟨fun p hp => ⟨_, hall p hp⟩, S, hS⟩
  have hnn : ∀ p ∈ l.layup, ∀ m, p.2 = .ortho m → NonnegAllowables m := fun p hp m hm => by
    rw [hall p hp, noTension] at hm
    cases hm
    norm_num [NonnegAllowables]
  have hok : ∀ filled, ∃ R, calculateMarginPandas filled strict l 0 = .ok R := fun filled => by
    cases h : calculateMarginPandas filled strict l 0 with
    | ok R => exact ⟨R, rfl⟩
    | error e =>
      obtain ⟨-, -, j, s, hk, m, -, -, hm, hzero⟩ := (C135_raises filled strict l hs hnn 0 R0 hR0 S hS e).mp h
      rw [hall _ (List.getElem_mem hk), noTension] at hm
      cases hm
      have := hzero 1
      norm_num [allowOf] at this
  obtain ⟨-, S', -, h1, -⟩ := margin_rows hs 0 R0 hR0
  have h6 : R0.length = 6 := by rw [h1, hlay]; rfl
  have key : ∀ filled R, calculateMarginPandas filled strict l 0 = .ok R → ∀ r ∈ R, IdleCritical filled ![0, 1200, 50, 200, 70] r.critical ∧ r.margin 0 = .nan := by
    intro filled R hR r hr
    obtain ⟨j, hj⟩ := List.mem_iff_getElem?.mp hr
    obtain ⟨r0, hk, m, S', s, hr0, hm, hS', hsj, -, -, -, hmar, -, hidle⟩ := (C135_rows filled strict l hs hnn 0 R0 hR0 R hR).2 j r hj
    obtain ⟨hk', m', S'', s', hm', hS'', hsj', -, -, -, hmar', -⟩ := margin_row hs 0 R0 hR0 j r0 hr0
    rw [hS] at hS' hS''
    cases hS'
    cases hS''
    rw [hsj] at hsj'
    cases hsj'
    have h0 := hz s (List.mem_of_getElem? hsj)
    rw [hall _ (List.getElem_mem hk), noTension] at hm
    cases hm
    rw [hall _ (List.getElem_mem hk), noTension] at hm'
    cases hm'
    refine ⟨(hidle h0).2, ?_⟩
    rw [hmar, hmar', h0, margins_zero]
    simp [idleMargin, npDiv, subOne]
  obtain ⟨R, hR⟩ := hok false
  obtain ⟨R', hR'⟩ := hok true
  refine ⟨l, R, R', hl, hR, hR', ((C135_rows _ _ l hs hnn 0 R0 hR0 R hR).1).trans h6, ((C135_rows _ _ l hs hnn 0 R0 hR0 R' hR').1).trans h6, fun r hr => ?_, fun r hr => ?_⟩
  · refine ((key false R hR r hr).1.2 1).mpr ⟨⟨1, by norm_num⟩, ?_⟩
    simp
  · exact ⟨((key true R' hR' r hr).1.2 0).mpr ⟨⟨1, by norm_num⟩, rfl⟩, (key true R' hR' r hr).2⟩

end Composipy
