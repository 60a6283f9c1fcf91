import Verif.Model.NonFiniteOptimize
import Verif.Props.NonFinitePlate
import Verif.Props.Optimize

/-!
# C134: NaN and infinity in the arguments of the optimisers
-/

set_option linter.unusedSimpArgs false

namespace Composipy
open Spec Matrix

/-! ## The specification -/

/-- What is known of `list.sort` on floats in every version of Python: the elements are permuted, and without NaN they end up in order. -/
def Spec.PySort (sort : List PyFloat → List PyFloat) : Prop :=
  ∀ l, (sort l).Perm l ∧ ((∀ x ∈ l, x ≠ .nan) → (sort l).Pairwise fun x y => ¬ y.lt x)

/-- A float divided by infinity. -/
def Spec.overInf : PyFloat → PyFloat
  | .fin _ => .fin 0
  | _ => .nan

/-- The arguments the stiffness of the panel depends on. -/
def Spec.XPanel.Stiff (g : XPanel) (T xi1 xi3 : PyFloat) : Prop :=
  ∀ x ∈ [g.a, g.b, g.E1, g.E2, g.v12, g.G12, T, xi1, xi3], x.isFin

/-! ## Loads -/

theorem xAbs_isFin (x : PyFloat) : (xAbs x).isFin ↔ x.isFin := by cases x <;> simp [xAbs, XF.isFin]

theorem xAbs_nan (x : PyFloat) : xAbs x = .nan ↔ x = .nan := by cases x <;> simp [xAbs]

theorem sort_last {sort : List PyFloat → List PyFloat} (hs : PySort sort) (a b c : PyFloat) :
    ∃ M, pyIdx (sort [a, b, c]) ((sort [a, b, c]).length - 1) = .ok M ∧ M ∈ [a, b, c] ∧
      ((∀ x ∈ [a, b, c], x ≠ .nan) → ∀ x ∈ [a, b, c], ¬ M.lt x) := by
  obtain ⟨hp, ho⟩ := hs [a, b, c]
  have hl := hp.length_eq
  obtain ⟨x, y, z, hxyz⟩ : ∃ x y z, sort [a, b, c] = [x, y, z] := by
    generalize sort [a, b, c] = l at hl
    match l, hl with
    | [x, y, z], _ => exact ⟨x, y, z, rfl⟩
  rw [hxyz] at hp ho ⊢
  refine ⟨z, by simp [pyIdx], hp.subset (by simp), fun hn w hw => ?_⟩
  have hw' : w ∈ [x, y, z] := hp.symm.subset hw
  have ho := ho hn
  simp only [List.pairwise_cons, List.mem_cons, List.not_mem_nil, or_false, forall_eq_or_imp, forall_eq] at ho hw'
  rcases hw' with rfl | rfl | rfl
  · exact ho.1.2
  · exact ho.2.1
  · cases w <;> simp [XF.lt]

/-- **C134 (normalised loads).** `normalize_critical_load` returns three numbers iff the three loads are numbers. -/
theorem C134_loads (sort : List PyFloat → List PyFloat) (hs : PySort sort) (Nxx Nyy Nxy x y s M : PyFloat)
    (h : xNormalize sort Nxx Nyy Nxy = .ok (x, y, s, M)) :
    ((x.isFin ∧ y.isFin ∧ s.isFin) ↔ (Nxx.isFin ∧ Nyy.isFin ∧ Nxy.isFin)) ∧ (x.isFin → Nxx.isFin) ∧ (y.isFin → Nyy.isFin) ∧
      (s.isFin → Nxy.isFin) ∧ M ∈ [xAbs Nxx, xAbs Nyy, xAbs Nxy] := by
  obtain ⟨M', hM, hmem, -⟩ := sort_last hs (xAbs Nxx) (xAbs Nyy) (xAbs Nxy)
  unfold xNormalize at h
  simp only [hM, ok_bind] at h
  obtain ⟨x', hx, h⟩ := bind_okE h
  obtain ⟨y', hy, h⟩ := bind_okE h
  obtain ⟨s', hs', h⟩ := bind_okE h
  simp only [pure_eq_ok, Except.ok.injEq, Prod.mk.injEq] at h
  obtain ⟨rfl, rfl, rfl, rfl⟩ := h
  refine ⟨⟨fun ⟨a, b, c⟩ => ⟨XF.div_isFin hx a, XF.div_isFin hy b, XF.div_isFin hs' c⟩, fun ⟨a, b, c⟩ => ?_⟩, XF.div_isFin hx, XF.div_isFin hy,
    XF.div_isFin hs', hmem⟩
  have hf : M'.isFin := by
    simp only [List.mem_cons, List.not_mem_nil, or_false] at hmem
    rcases hmem with rfl | rfl | rfl <;> rw [xAbs_isFin] <;> assumption
  exact ⟨XF.div_of_isFin hx a hf, XF.div_of_isFin hy b hf, XF.div_of_isFin hs' c hf⟩

theorem div_pinf (x : PyFloat) : x.div .pinf = .ok (overInf x) := by
  cases x <;> simp [XF.div, overInf]

/-- **C134 (infinite loads).** An infinite load is normalised to NaN, the finite loads beside it to 0. -/
theorem C134_infinite (sort : List PyFloat → List PyFloat) (hs : PySort sort) (Nxx Nyy Nxy : PyFloat)
    (hn : Nxx ≠ .nan ∧ Nyy ≠ .nan ∧ Nxy ≠ .nan) (hi : ¬ (Nxx.isFin ∧ Nyy.isFin ∧ Nxy.isFin)) :
    xNormalize sort Nxx Nyy Nxy = .ok (overInf Nxx, overInf Nyy, overInf Nxy, .pinf) := by
  obtain ⟨M, hM, hmem, hmax⟩ := sort_last hs (xAbs Nxx) (xAbs Nyy) (xAbs Nxy)
  have hMp : M = .pinf := by
    have hnn : ∀ x ∈ [xAbs Nxx, xAbs Nyy, xAbs Nxy], x ≠ .nan := by
      simp only [List.mem_cons, List.not_mem_nil, or_false, forall_eq_or_imp, forall_eq, ne_eq, xAbs_nan]
      exact hn
    have hp : (XF.pinf : PyFloat) ∈ [xAbs Nxx, xAbs Nyy, xAbs Nxy] := by
      obtain ⟨h1, h2, h3⟩ := hn
      cases Nxx <;> cases Nyy <;> cases Nxy <;> simp_all [xAbs, XF.isFin]
    have := hmax hnn _ hp
    have hMn := hnn _ hmem
    have hMi : M ≠ .ninf := by
      rintro rfl
      simp only [List.mem_cons, List.not_mem_nil, or_false] at hmem
      rcases hmem with h | h | h
      · cases Nxx <;> simp [xAbs] at h
      · cases Nyy <;> simp [xAbs] at h
      · cases Nxy <;> simp [xAbs] at h
    cases M <;> simp_all [XF.lt]
  subst hMp
  unfold xNormalize
  simp only [hM, ok_bind, div_pinf, pure_eq_ok]

/-- **C134 (exceptions of the normalisation).** It raises only `ZeroDivisionError`, and only if a load is 0 (if there is no NaN: only if all are). -/
theorem C134_normalize_raise (sort : List PyFloat → List PyFloat) (hs : PySort sort) (Nxx Nyy Nxy : PyFloat) (e : PyErr)
    (h : xNormalize sort Nxx Nyy Nxy = .error e) : e = .zeroDivisionError ∧ XF.fin 0 ∈ [Nxx, Nyy, Nxy] ∧
      ((∀ x ∈ [Nxx, Nyy, Nxy], x ≠ .nan) → Nxx = .fin 0 ∧ Nyy = .fin 0 ∧ Nxy = .fin 0) := by
  obtain ⟨M, hM, hmem, hmax⟩ := sort_last hs (xAbs Nxx) (xAbs Nyy) (xAbs Nxy)
  have hdiv : ∀ (x : PyFloat) (e : PyErr), x.div M = .error e → e = .zeroDivisionError ∧ M = .fin 0 := by
    intro x e he
    cases x <;> cases M <;> simp only [XF.div, reduceCtorEq] at he <;> split_ifs at he with h0 <;> subst h0 <;>
      exact ⟨(Except.error.inj he).symm, rfl⟩
  have key : e = .zeroDivisionError ∧ M = .fin 0 := by
    unfold xNormalize at h
    simp only [hM, ok_bind] at h
    cases hx : Nxx.div M with
    | error e' => rw [hx] at h; exact Except.error.inj h ▸ hdiv _ _ hx
    | ok x =>
    cases hy : Nyy.div M with
    | error e' => rw [hx, hy] at h; exact Except.error.inj h ▸ hdiv _ _ hy
    | ok y =>
    cases hz : Nxy.div M with
    | error e' => rw [hx, hy, hz] at h; exact Except.error.inj h ▸ hdiv _ _ hz
    | ok z => rw [hx, hy, hz] at h; cases h
  obtain ⟨rfl, rfl⟩ := key
  have h0 : ∀ x : PyFloat, xAbs x = .fin 0 → x = .fin 0 := by
    intro x hx
    cases x <;> simp_all [xAbs]
  refine ⟨rfl, ?_, fun hn => ?_⟩
  · simp only [List.mem_cons, List.not_mem_nil, or_false] at hmem ⊢
    rcases hmem with h | h | h
    · exact .inl (h0 _ h.symm).symm
    · exact .inr (.inl (h0 _ h.symm).symm)
    · exact .inr (.inr (h0 _ h.symm).symm)
  · have hz : ∀ x ∈ [Nxx, Nyy, Nxy], x = .fin 0 := by
      intro x hx
      have := hmax (by simpa [xAbs_nan] using hn) (xAbs x) (by
        simp only [List.mem_cons, List.not_mem_nil, or_false] at hx ⊢
        rcases hx with rfl | rfl | rfl <;> simp)
      have hxn := hn x hx
      cases x with
      | nan => exact absurd rfl hxn
      | pinf => simp [xAbs, XF.lt] at this
      | ninf => simp [xAbs, XF.lt] at this
      | fin r => simp only [xAbs, XF.lt, not_lt, abs_nonpos_iff] at this; rw [this]
    exact ⟨hz _ (by simp), hz _ (by simp), hz _ (by simp)⟩

theorem fin_div_map (a b : ℝ) : (XF.fin a : PyFloat).div (.fin b) = (pyDiv a b).map .fin := by
  unfold pyDiv; by_cases h : b = 0 <;> simp [XF.div, h, Except.map]

/-- **C134 (finite loads).** For numbers this is the normalisation of the other properties. -/
theorem C134_agrees_normalize (sort : List PyFloat → List PyFloat) (hs : PySort sort) (Nxx Nyy Nxy : ℝ) :
    xNormalize sort (.fin Nxx) (.fin Nyy) (.fin Nxy) =
      (normalizeCriticalLoad Nxx Nyy Nxy).map fun r => (.fin r.1, .fin r.2.1, .fin r.2.2.1, .fin r.2.2.2) := by
  obtain ⟨M, hM, hmem, hmax⟩ := sort_last hs (xAbs (.fin Nxx)) (xAbs (.fin Nyy)) (xAbs (.fin Nxy))
  have hmax := hmax (by simp [xAbs])
  obtain ⟨m, rfl⟩ : ∃ m, M = .fin m := by
    simp only [List.mem_cons, List.not_mem_nil, or_false, xAbs] at hmem
    rcases hmem with rfl | rfl | rfl <;> exact ⟨_, rfl⟩
  simp only [xAbs, List.mem_cons, List.not_mem_nil, or_false, forall_eq_or_imp, forall_eq, XF.lt, not_lt, XF.fin.injEq] at hmax hmem
  have hm : m = max |Nxx| (max |Nyy| |Nxy|) := by
    apply le_antisymm
    · rcases hmem with rfl | rfl | rfl <;> simp
    · exact max_le hmax.1 (max_le hmax.2.1 hmax.2.2)
  unfold xNormalize normalizeCriticalLoad
  have hlast : pyIdx ([|Nxx|, |Nyy|, |Nxy|].insertionSort (· ≤ ·)) (([|Nxx|, |Nyy|, |Nxy|].insertionSort (· ≤ ·)).length - 1) = .ok m := by
    obtain ⟨l, hl, -, hi⟩ := sorted_last Nxx Nyy Nxy
    rw [hl, hi, hm]
  simp only [hM, hlast, ok_bind, fin_div_map]
  unfold pyDiv
  by_cases h0 : m = 0 <;> simp [h0, Except.map, pure_eq_ok]

/-! ## Warnings -/

/-- **C134 (warnings).** The first warning needs three loads that are not NaN and none infinitely negative; an infinite load always gives the
second one; a NaN load gives no warning by itself. -/
theorem C134_warnings (Nxx Nyy Nxy : PyFloat) :
    (LoadWarning.notCompressive ∈ xCheckLoads Nxx Nyy Nxy ↔ (Nxx = .pinf ∨ ∃ r, Nxx = .fin r ∧ 0 ≤ r) ∧ (Nyy = .pinf ∨ ∃ r, Nyy = .fin r ∧ 0 ≤ r) ∧
      Nxy = .fin 0) ∧
    (LoadWarning.willBeNormalized ∈ xCheckLoads Nxx Nyy Nxy ↔
      ∃ x ∈ [Nxx, Nyy, Nxy], x = .pinf ∨ x = .ninf ∨ ∃ r, x = .fin r ∧ 1 < |r|) := by
  have hge : ∀ x : PyFloat, xGe x 0 ↔ x = .pinf ∨ ∃ r, x = .fin r ∧ 0 ≤ r := by intro x; cases x <;> simp [xGe]
  have heq : ∀ x : PyFloat, x.eqv (.fin 0) ↔ x = .fin 0 := by intro x; cases x <;> simp [XF.eqv]
  have hab : ∀ x : PyFloat, (XF.fin 1).lt (xAbs x) ↔ x = .pinf ∨ x = .ninf ∨ ∃ r, x = .fin r ∧ 1 < |r| := by
    intro x; cases x <;> simp [xAbs, XF.lt]
  have hab3 : (∃ x ∈ [Nxx, Nyy, Nxy], x = .pinf ∨ x = .ninf ∨ ∃ r, x = .fin r ∧ 1 < |r|) ↔
      (XF.fin 1).lt (xAbs Nxx) ∨ (XF.fin 1).lt (xAbs Nyy) ∨ (XF.fin 1).lt (xAbs Nxy) := by
    rw [hab, hab, hab]
    simp only [List.mem_cons, List.not_mem_nil, or_false, exists_eq_or_imp, exists_eq_left]
  rw [hab3, ← hge, ← hge, ← heq]
  unfold xCheckLoads
  by_cases h1 : xGe Nxx 0 ∧ xGe Nyy 0 ∧ Nxy.eqv (.fin 0) <;>
    by_cases h2 : (XF.fin 1).lt (xAbs Nxx) ∨ (XF.fin 1).lt (xAbs Nyy) ∨ (XF.fin 1).lt (xAbs Nxy) <;>
    simp [h1, h2]

/-- **C134 (finite loads, warnings).** -/
theorem C134_agrees_warnings (Nxx Nyy Nxy : ℝ) : xCheckLoads (.fin Nxx) (.fin Nyy) (.fin Nxy) = checkLoads Nxx Nyy Nxy := by
  unfold xCheckLoads checkLoads
  congr 2
  all_goals simp [xGe, XF.eqv, xAbs, XF.lt]

/-! ## The constraint functions -/

theorem two_mul_fin (x : PyFloat) : ((XF.fin 2).mul x).isFin ↔ x.isFin := by
  rw [XF.mul_isFin]; simp [XF.isFin]

/-- **C134 (constraints handed to `minimize`).** Their value is a number iff both parameters are; so no point with a NaN or infinite
parameter satisfies one of them.  The thickness plays no role. -/
theorem C134_constraint_functions (xi1 xi3 T : PyFloat) (f : List PyFloat → Except PyErr PyFloat) (hf : f ∈ [xPenaltyG1, xPenaltyG2, xNaturalG]) :
    ∃ g, f [xi1, xi3] = .ok g ∧ f [T, xi1, xi3] = .ok g ∧ (g.isFin ↔ xi1.isFin ∧ xi3.isFin) := by
  have h1 : (XF.fin 1 : PyFloat).isFin := trivial
  simp only [List.mem_cons, List.not_mem_nil, or_false] at hf
  rcases hf with rfl | rfl | rfl
  · exact ⟨_, rfl, rfl, by simp only [XF.add_isFin, two_mul_fin, h1, and_true]; exact and_comm⟩
  · exact ⟨_, rfl, rfl, by simp only [XF.add_isFin, XF.sub_isFin, two_mul_fin, h1, and_true]; exact and_comm⟩
  · exact ⟨_, rfl, rfl, by simp only [XF.add_isFin, XF.sub_isFin, two_mul_fin, XF.pow_isFin, h1, and_true]; exact and_comm⟩

theorem xConstraintOk_iff (xi1 xi3 : PyFloat) (penalty : Bool) : xConstraintOk xi1 xi3 penalty = true ↔
    if penalty then (xi1.lt (.fin 0) → ¬ ((xi3.add ((XF.fin 2).mul xi1)).add (.fin 1)).lt (.fin 0)) ∧
      (¬ xi1.lt (.fin 0) → ¬ ((xi3.sub ((XF.fin 2).mul xi1)).add (.fin 1)).lt (.fin 0))
    else ¬ ((xi3.sub ((XF.fin 2).mul (xi1.pow 2))).add (.fin 1)).lt (.fin 0) := by
  unfold xConstraintOk
  cases penalty
  · by_cases h : ((xi3.sub ((XF.fin 2).mul (xi1.pow 2))).add (.fin 1)).lt (.fin 0) <;> simp [h]
  · by_cases h0 : xi1.lt (.fin 0)
    · by_cases h : ((xi3.add ((XF.fin 2).mul xi1)).add (.fin 1)).lt (.fin 0) <;> simp [h, h0]
    · by_cases h : ((xi3.sub ((XF.fin 2).mul xi1)).add (.fin 1)).lt (.fin 0) <;> simp [h, h0]

/-- **C134 (`_constraint`).** The test used for the plot accepts a point with a NaN or infinite parameter iff one is NaN or the second one
is positive infinity: NaN passes, although it satisfies no constraint. -/
theorem C134_constraint (xi1 xi3 : PyFloat) (penalty : Bool) (h : ¬ (xi1.isFin ∧ xi3.isFin)) :
    xConstraintOk xi1 xi3 penalty = true ↔ xi1 = .nan ∨ xi3 = .nan ∨ xi3 = .pinf := by
  have h2 : (2 : ℝ) ≠ 0 := two_ne_zero
  have hp : XF.infTimes true 2 = .pinf := by simp [XF.infTimes]
  have hm : XF.infTimes false 2 = .ninf := by simp [XF.infTimes]
  have h1p : XF.infTimes true 1 = .pinf := by simp [XF.infTimes]
  have h1m : XF.infTimes false 1 = .ninf := by simp [XF.infTimes]
  rw [xConstraintOk_iff]
  cases xi1 <;> cases xi3 <;> cases penalty <;>
    simp_all [XF.isFin, XF.lt, XF.add, XF.sub, XF.neg, XF.mul, XF.pow]

/-- **C134 (finite points).** For numbers these are the functions of the other properties. -/
theorem C134_agrees_constraints (xi1 xi3 : ℝ) (v : List ℝ) (penalty : Bool) :
    xConstraintOk (.fin xi1) (.fin xi3) penalty = constraintOk xi1 xi3 penalty ∧
    xPenaltyG1 (v.map .fin) = (penaltyG1 v).map .fin ∧ xPenaltyG2 (v.map .fin) = (penaltyG2 v).map .fin ∧
    xNaturalG (v.map .fin) = (naturalConstraintG v).map .fin ∧ xWeightObjective (v.map .fin) = (weightObjective v).map .fin := by
  refine ⟨?_, ?_, ?_, ?_, ?_⟩
  · rw [Bool.eq_iff_iff, xConstraintOk_iff]
    simp only [XF.fin_mul, XF.fin_add, XF.fin_sub, XF.fin_pow, XF.lt, constraintOk]
    cases penalty
    · by_cases h : xi3 - 2 * xi1 ^ 2 + 1 < 0 <;> simp [h]
    · by_cases h0 : xi1 < 0
      · by_cases h : xi3 + 2 * xi1 + 1 < 0 <;> simp [h, h0]
      · by_cases h : xi3 - 2 * xi1 + 1 < 0 <;> simp [h, h0]
  all_goals
    rcases v with _ | ⟨a, _ | ⟨b, _ | ⟨c, _ | ⟨d, r⟩⟩⟩⟩ <;>
      simp [xPenaltyG1, xPenaltyG2, xNaturalG, xWeightObjective, penaltyG1, penaltyG2, naturalConstraintG, weightObjective, xUnpackXi, unpackXi,
        XF.fin_mul, XF.fin_add, XF.fin_sub, XF.fin_pow, Except.map, pure_eq_ok]

/-! ## The arrays of a panel -/

theorem floatNumber_num {x y : PyFloat} {lo hi : Option ℝ} (h : floatNumber (.num x) lo hi = .ok y) : y = x := by
  simp only [floatNumber, PyVal.toFloat] at h
  split_ifs at h
  exact (Except.ok.inj h).symm

theorem intNumber_num {x : PyFloat} {k : ℤ} {lo hi : Option ℝ} (h : intNumber (.num x) lo hi = .ok k) : x.isFin := by
  cases x with
  | fin r => trivial
  | _ => simp [intNumber, PyVal.toFloat, integerOf?] at h

theorem args_init {E1 E2 v12 G12 t : PyFloat} {m : OrthoMat PyFloat}
    (h : (OrthoMat.args (.num E1) (.num E2) (.num v12) (.num G12) (.num t)).init = .ok m) :
    m.e1 = E1 ∧ m.e2 = E2 ∧ m.v12 = v12 ∧ m.g12 = G12 := by
  unfold OrthoMat.init OrthoMat.args at h
  obtain ⟨_, h1, h⟩ := bind_okE h
  obtain ⟨_, h2, h⟩ := bind_okE h
  obtain ⟨_, h3, h⟩ := bind_okE h
  obtain ⟨_, h4, h⟩ := bind_okE h
  obtain ⟨_, -, h⟩ := bind_okE h
  obtain ⟨_, -, h⟩ := bind_okE h
  obtain ⟨_, -, h⟩ := bind_okE h
  obtain ⟨_, -, h⟩ := bind_okE h
  obtain ⟨_, -, h⟩ := bind_okE h
  obtain ⟨_, -, h⟩ := bind_okE h
  obtain ⟨_, -, h⟩ := bind_okE h
  simp only [pure_eq_ok, Except.ok.injEq] at h
  subst h
  exact ⟨floatNumber_num h1, floatNumber_num h2, floatNumber_num h3, floatNumber_num h4⟩

theorem plate_init {a b x y s m n : PyFloat} {d : PlateData}
    (h : (PlateArgs.args true (.num a) (.num b) (.num x) (.num y) (.num s) (.num m) (.num n)).init = .ok d) :
    d.a = a ∧ d.b = b ∧ d.Nxx = x ∧ d.Nyy = y ∧ d.Nxy = s ∧ m.isFin ∧ n.isFin := by
  unfold PlateArgs.init PlateArgs.args at h
  obtain ⟨_, -, h⟩ := bind_okE h
  obtain ⟨_, h1, h⟩ := bind_okE h
  obtain ⟨_, h2, h⟩ := bind_okE h
  obtain ⟨_, h3, h⟩ := bind_okE h
  obtain ⟨_, h4, h⟩ := bind_okE h
  obtain ⟨_, h5, h⟩ := bind_okE h
  obtain ⟨_, h6, h⟩ := bind_okE h
  obtain ⟨_, h7, h⟩ := bind_okE h
  simp only [pure_eq_ok, Except.ok.injEq] at h
  subst h
  exact ⟨floatNumber_num h1, floatNumber_num h2, floatNumber_num h3, floatNumber_num h4, floatNumber_num h5, intNumber_num h6, intNumber_num h7⟩

theorem xNcrArrays_parts {g : XPanel} {T xi1 xi3 x y s : PyFloat} {r : XPair} (h : xNcrArrays g T xi1 xi3 x y s = .ok r) :
    ∃ (mat : OrthoMat PyFloat) (d : PlateData) (K KG : XSq (d.m.toNat * d.n.toNat)),
      (OrthoMat.args (.num g.E1) (.num g.E2) (.num g.v12) (.num g.G12) (.num (.fin 0.1))).init = .ok mat ∧
      (PlateArgs.args true (.num g.a) (.num g.b) (.num x) (.num y) (.num s) (.num g.m) (.num g.n)).init = .ok d ∧
      xCalcKKGD shipped (xLpD mat ![xi1, .fin 0, xi3, .fin 0] T) g.c ⟨d.a, d.b, d.Nxx, d.Nyy, d.Nxy, d.m.toNat, d.n.toNat⟩ = .ok (K, KG) ∧
      r = ⟨d.m.toNat * d.n.toNat, K, KG⟩ := by
  unfold xNcrArrays at h
  obtain ⟨mat, hmat, h⟩ := bind_okE h
  obtain ⟨d, hd, h⟩ := bind_okE h
  obtain ⟨⟨K, KG⟩, hK, h⟩ := bind_okE h
  simp only [pure_eq_ok, Except.ok.injEq] at h
  exact ⟨mat, d, K, KG, hmat, hd, hK, h.symm⟩

/-- **C134 (arrays).** Every single entry of the `K` that `Ncr_from_lp` hands to `eigsh` is a number iff the sides, the four elastic constants, the
thickness and both parameters are; every single entry of `KG` iff the sides and the three loads are; `m` and `n` always are. -/
theorem C134_arrays (g : XPanel) (T xi1 xi3 Nxx Nyy Nxy : PyFloat) (r : XPair) (h : xNcrArrays g T xi1 xi3 Nxx Nyy Nxy = .ok r) (i j : Fin r.N) :
    ((r.K i j).isFin ↔ XPanel.Stiff g T xi1 xi3) ∧ ((r.KG i j).isFin ↔ g.a.isFin ∧ g.b.isFin ∧ Nxx.isFin ∧ Nyy.isFin ∧ Nxy.isFin) ∧
      g.m.isFin ∧ g.n.isFin := by
  obtain ⟨mat, d, K, KG, hmat, hd, hK, rfl⟩ := xNcrArrays_parts h
  obtain ⟨e1, e2, e3, e4⟩ := args_init hmat
  obtain ⟨d1, d2, d3, d4, d5, d6, d7⟩ := plate_init hd
  obtain ⟨D, hD, -⟩ := xCalcKKGD_entries hK
  have hp := C133_plate shipped D g.c _ K KG (by rw [← hD]; exact hK) i j
  have hl := (C133_lp mat ![xi1, .fin 0, xi3, .fin 0] T).2.2.2 D hD
  simp only [d1, d2, d3, d4, d5] at hp
  refine ⟨?_, hp.2, d6, d7⟩
  rw [hp.1]
  have hE : FiniteElastic (.ortho mat) ↔ g.E1.isFin ∧ g.E2.isFin ∧ g.v12.isFin ∧ g.G12.isFin := by
    simp [FiniteElastic, elastic, e1, e2, e3, e4]
  have hD' : (∀ i j : Fin 3, j ≤ i → (D i j).isFin) ↔ T.isFin ∧ FiniteElastic (.ortho mat) ∧ xi1.isFin ∧ xi3.isFin := by
    constructor
    · intro h
      have h0 := (hl 0 0).1 (h 0 0 le_rfl)
      simp only [lpUses, Matrix.cons_val_zero, List.mem_cons, List.not_mem_nil, or_false, forall_eq_or_imp, forall_eq, Matrix.cons_val] at h0
      exact ⟨h0.1, h0.2.1, h0.2.2⟩
    · rintro ⟨hT, hE, h1, h3⟩ i j -
      refine (hl i j).2 ⟨hT, hE, fun k _ => ?_⟩
      fin_cases k
      · exact h1
      · trivial
      · exact h3
      · trivial
  rw [hD', hE]
  simp only [XPanel.Stiff, List.mem_cons, List.not_mem_nil, or_false, forall_eq_or_imp, forall_eq]
  tauto

macro "indep_tail" : tactic => `(tactic| (
  repeat (refine bind_same (same_refl _) fun v w hv hw => ?_; (have hvw : v = w := by simpa using hv.symm.trans hw); subst hvw)
  exact same_ok _ _))

theorem K33_indep (T : Readers) (a b : PyFloat) (i j k l : ℕ) (A B C D E F A' B' C' D' E' F' : PyFloat) :
    SameErr (xCalcK33 T a b i j k l A B C D E F) (xCalcK33 T a b i j k l A' B' C' D' E' F') := by
  unfold xCalcK33
  indep_tail

theorem KG33_indep (T : Readers) (a b : PyFloat) (i j k l : ℕ) (x y s x' y' s' : PyFloat) :
    SameErr (xCalcKG33 T a b i j k l x y s) (xCalcKG33 T a b i j k l x' y' s') := by
  unfold xCalcKG33
  indep_tail

theorem xReshape_same (N : ℕ) (l l' : List PyFloat) (h : l.length = l'.length) : SameErr (xReshape N l) (xReshape N l') := by
  intro e
  unfold xReshape
  rw [h]
  by_cases hc : l'.length = N * N <;> simp [hc]

theorem xCalcKKGD_indep (T : Readers) (D D' : Except PyErr X3) (hD : SameErr D D') (c : Constraints) (a b x y s x' y' s' : PyFloat) (m n : ℕ) :
    SameErr (xCalcKKGD T D c ⟨a, b, x, y, s, m, n⟩) (xCalcKKGD T D' c ⟨a, b, x', y', s', m, n⟩) := by
  unfold xCalcKKGD
  refine bind_same hD fun M M' _ _ => bind_same (same_refl _) fun q q' hq hq' => ?_
  have hqq : q = q' := by simpa using hq.symm.trans hq'
  subst hqq
  refine bind_same (mapM_same _ fun i _ => bind_same (same_refl _) fun v v' hv hv' => ?_) fun ks ks' hks hks' => ?_
  · have hvv : v = v' := by simpa using hv.symm.trans hv'
    subst hvv
    exact bind_same (K33_indep _ _ _ _ _ _ _ _ _ _ _ _ _ _ _ _ _ _ _) fun _ _ _ _ => bind_same (KG33_indep _ _ _ _ _ _ _ _ _ _ _ _ _) fun _ _ _ _ => same_ok _ _
  · have hl : ks.length = ks'.length := (mapM_len hks).trans (mapM_len hks').symm
    exact bind_same (xReshape_same _ _ _ (by simpa using hl)) fun _ _ _ _ => bind_same (xReshape_same _ _ _ (by simpa using hl)) fun _ _ _ _ =>
      same_ok _ _

theorem xLpD_indep (m : OrthoMat PyFloat) (xi xi' : Fin 4 → PyFloat) (T T' : PyFloat) : SameErr (xLpD m xi T) (xLpD m xi' T') := by
  intro e
  unfold xLpD
  cases m.xQ0 <;> simp [pure_eq_ok]

theorem plateInit_loads (g : XPanel) (x y s x' y' s' : PyFloat) :
    (PlateArgs.args true (.num g.a) (.num g.b) (.num x) (.num y) (.num s) (.num g.m) (.num g.n)).init =
      (PlateArgs.args true (.num g.a) (.num g.b) (.num x') (.num y') (.num s') (.num g.m) (.num g.n)).init.map
        fun d => { d with Nxx := x, Nyy := y, Nxy := s } := by
  have hload : ∀ x : PyFloat, floatNumber (.num x) none none = .ok x := by
    intro x; simp [floatNumber, PyVal.toFloat, belowMin, aboveMax]
  unfold PlateArgs.init PlateArgs.args
  simp only [hload, ok_bind, isInstance, if_true]
  cases floatNumber (.num g.a) (some 0) none <;> cases floatNumber (.num g.b) (some 0) none <;>
    cases intNumber (.num g.m) (some 1) none <;> cases intNumber (.num g.n) (some 1) none <;> rfl

/-- **C134 (exceptions before `eigsh`).** Whether, and what, `Ncr_from_lp` raises before it calls `eigsh` does not depend on the thickness, the
parameters and the loads: NaN and infinity in them raise nothing. -/
theorem C134_raise (g : XPanel) (T xi1 xi3 Nxx Nyy Nxy T' xi1' xi3' Nxx' Nyy' Nxy' : PyFloat) :
    SameErr (xNcrArrays g T xi1 xi3 Nxx Nyy Nxy) (xNcrArrays g T' xi1' xi3' Nxx' Nyy' Nxy') := by
  unfold xNcrArrays
  refine bind_same (same_refl _) fun mat mat' hm hm' => ?_
  have : mat = mat' := by simpa using hm.symm.trans hm'
  subst this
  rw [plateInit_loads g Nxx' Nyy' Nxy' Nxx Nyy Nxy]
  cases (PlateArgs.args true (.num g.a) (.num g.b) (.num Nxx) (.num Nyy) (.num Nxy) (.num g.m) (.num g.n)).init with
  | error e => exact same_refl (Except.error e : Except PyErr XPair)
  | ok d =>
    simp only [Except.map, ok_bind]
    exact bind_same (xCalcKKGD_indep _ _ _ (xLpD_indep _ _ _ _ _) _ _ _ _ _ _ _ _ _ _ _) fun _ _ _ _ => same_ok _ _

/-! ## The problems handed to `minimize` -/

/-- Two eigensolvers that do the same on arrays whose first one holds no number. -/
def Spec.SameOnNonFinite (S S' : XEigSolver) : Prop :=
  ∀ N A M k, (∀ i j, ¬ (A i j).isFin) → S N A M k = S' N A M k

theorem ncr_blind {S S' : XEigSolver} (hS : SameOnNonFinite S S') (g : XPanel) (T xi1 xi3 x y s : PyFloat) (hx : ¬ (x.isFin ∧ y.isFin ∧ s.isFin)) :
    xNcrFromLp S g T xi1 xi3 x y s = xNcrFromLp S' g T xi1 xi3 x y s := by
  unfold xNcrFromLp
  cases h : xNcrArrays g T xi1 xi3 x y s with
  | error e => rfl
  | ok r =>
    simp only [ok_bind]
    rw [hS r.N r.KG r.K _ fun i j hf => hx ((C134_arrays g T xi1 xi3 x y s r h i j).2.1.1 hf).2.2]

/-- **C134 (loads that are no numbers).** If a load handed to `maximize_buckling_load` is NaN or infinite, the value of the objective at every
point depends only on what `eigsh` does with arrays that hold no number: the panel, the point and the other loads do not matter to it otherwise. -/
theorem C134_maximize_blind (S S' : XEigSolver) (hS : SameOnNonFinite S S') (sort : List PyFloat → List PyFloat) (hs : PySort sort) (g : XPanel)
    (T Nxx Nyy Nxy : PyFloat) (hN : ¬ (Nxx.isFin ∧ Nyy.isFin ∧ Nxy.isFin)) (pen : Bool) (P P' : XProblem)
    (h : (xMaximize S sort g T Nxx Nyy Nxy pen).2 = .ok P) (h' : (xMaximize S' sort g T Nxx Nyy Nxy pen).2 = .ok P') : P.obj = P'.obj := by
  simp only [xMaximize] at h h'
  obtain ⟨⟨x, y, s, M⟩, hn, h⟩ := bind_okE h
  rw [hn] at h'
  simp only [ok_bind, pure_eq_ok, Except.ok.injEq] at h h'
  subst h h'
  have hx := fun hf => hN ((C134_loads sort hs _ _ _ _ _ _ _ hn).1.1 hf)
  funext v
  rcases v with _ | ⟨a, _ | ⟨b, _ | ⟨c, r⟩⟩⟩ <;> simp only [xMaxCriticalLoad]
  rw [ncr_blind hS g T a b x y s hx]

theorem arrays_size {g : XPanel} {T xi1 xi3 T' xi1' xi3' x y s : PyFloat} {r r' : XPair} (h : xNcrArrays g T xi1 xi3 x y s = .ok r)
    (h' : xNcrArrays g T' xi1' xi3' x y s = .ok r') : r.N = r'.N := by
  obtain ⟨_, d, _, _, -, hd, -, rfl⟩ := xNcrArrays_parts h
  obtain ⟨_, d', _, _, -, hd', -, rfl⟩ := xNcrArrays_parts h'
  have : d = d' := by simpa using hd.symm.trans hd'
  subst this
  rfl

/-- What an eigensolver that raises `ArpackError` on arrays without numbers makes of the buckling load. -/
theorem guarded_constant {S : XEigSolver} (hS : ∀ N A M k, (∀ i j, ¬ (A i j).isFin) → S N A M k = .error .arpackError) (g : XPanel) (x y s : PyFloat)
    (hx : ¬ (x.isFin ∧ y.isFin ∧ s.isFin)) :
    (∀ T xi1 xi3, guardedNcr (xNcrFromLp S g T xi1 xi3 x y s) = .ok (.fin (-1))) ∨
      ∃ e, ∀ T xi1 xi3, guardedNcr (xNcrFromLp S g T xi1 xi3 x y s) = .error e := by
  cases h0 : xNcrArrays g (.fin 0) (.fin 0) (.fin 0) x y s with
  | error e =>
    have he : ∀ T xi1 xi3, xNcrFromLp S g T xi1 xi3 x y s = .error e := fun T xi1 xi3 => by
      unfold xNcrFromLp
      rw [(C134_raise g T xi1 xi3 x y s (.fin 0) (.fin 0) (.fin 0) x y s e).2 h0]
      rfl
    by_cases hA : e = .arpackError
    · exact .inl fun T xi1 xi3 => by rw [he, hA]; rfl
    · refine .inr ⟨e, fun T xi1 xi3 => ?_⟩
      rw [he]
      cases e <;> first | rfl | exact absurd rfl hA
  | ok r0 =>
    have hr : ∀ T xi1 xi3, ∃ r, xNcrArrays g T xi1 xi3 x y s = .ok r ∧ r.N = r0.N := fun T xi1 xi3 => by
      cases h : xNcrArrays g T xi1 xi3 x y s with
      | error e => exact absurd (h0.symm.trans ((C134_raise g T xi1 xi3 x y s (.fin 0) (.fin 0) (.fin 0) x y s e).1 h)) (by simp)
      | ok r => exact ⟨r, rfl, arrays_size h h0⟩
    by_cases hk : min 5 ((r0.N : ℤ) - 2) ≤ 0
    · refine .inr ⟨.valueError, fun T xi1 xi3 => ?_⟩
      obtain ⟨r, h, hN⟩ := hr T xi1 xi3
      unfold xNcrFromLp
      simp only [h, ok_bind, hN, if_pos hk]
      rfl
    · refine .inl fun T xi1 xi3 => ?_
      obtain ⟨r, h, hN⟩ := hr T xi1 xi3
      unfold xNcrFromLp
      simp only [h, ok_bind]
      rw [if_neg (by rw [hN]; exact hk), hS _ _ _ _ fun i j hf => hx ((C134_arrays g T xi1 xi3 x y s r h i j).2.1.1 hf).2.2]
      rfl

/-- **C134 (constant objective).** If moreover `eigsh` raises `ArpackError` on such arrays, the objective is 1 at every point (or the panel is
refused, or has too few terms, at every point): `minimize` sees a constant. -/
theorem C134_constant (S : XEigSolver) (hS : ∀ N A M k, (∀ i j, ¬ (A i j).isFin) → S N A M k = .error .arpackError)
    (sort : List PyFloat → List PyFloat) (hs : PySort sort) (g : XPanel) (T Nxx Nyy Nxy : PyFloat)
    (hN : ¬ (Nxx.isFin ∧ Nyy.isFin ∧ Nxy.isFin)) (pen : Bool) (P : XProblem) (h : (xMaximize S sort g T Nxx Nyy Nxy pen).2 = .ok P) :
    (∀ xi1 xi3, P.obj [xi1, xi3] = .ok (.fin 1)) ∨ ∃ e, ∀ xi1 xi3, P.obj [xi1, xi3] = .error e := by
  simp only [xMaximize] at h
  obtain ⟨⟨x, y, s, M⟩, hn, h⟩ := bind_okE h
  simp only [pure_eq_ok, Except.ok.injEq] at h
  subst h
  have hx := fun hf => hN ((C134_loads sort hs _ _ _ _ _ _ _ hn).1.1 hf)
  rcases guarded_constant hS g x y s hx with h | ⟨e, h⟩
  · refine .inl fun xi1 xi3 => ?_
    simp only [xMaxCriticalLoad, h, ok_bind, pure_eq_ok, negF]
    norm_num
  · exact .inr ⟨e, fun xi1 xi3 => by simp only [xMaxCriticalLoad, h]; rfl⟩

/-- A constraint of `scipy` is satisfied: the value lies between the bounds (a comparison with NaN fails). -/
def Spec.XHolds (c : XCon) (v : List PyFloat) : Prop := ∃ w, c.f v = .ok w ∧ (c.lb.lt w ∨ c.lb.eqv w) ∧ (w.lt c.ub ∨ w.eqv c.ub)

/-- **C134 (lightest panel).** `minimize_panel_weight` asks for a buckling load of at least `max_load`, the last of the sorted absolute loads.
If that is NaN no point is admissible; if a load is infinite and none is NaN it is infinity, so only an infinite buckling load is admissible. -/
theorem C134_minimize (S : XEigSolver) (sort : List PyFloat → List PyFloat) (hs : PySort sort) (g : XPanel) (Nxx Nyy Nxy : PyFloat) (P : XProblem)
    (h : (xMinimize S sort g Nxx Nyy Nxy).2 = .ok P) :
    ∃ c ∈ P.cons, c.lb ∈ [xAbs Nxx, xAbs Nyy, xAbs Nxy] ∧ (c.lb = .nan → ∀ v, ¬ XHolds c v) ∧
      (Nxx ≠ .nan ∧ Nyy ≠ .nan ∧ Nxy ≠ .nan → ¬ (Nxx.isFin ∧ Nyy.isFin ∧ Nxy.isFin) → ∀ v, XHolds c v → c.f v = .ok .pinf) ∧
      (∀ v, P.obj v = xWeightObjective v) := by
  simp only [xMinimize] at h
  obtain ⟨⟨x, y, s, M⟩, hn, h⟩ := bind_okE h
  simp only [pure_eq_ok, Except.ok.injEq] at h
  subst h
  refine ⟨_, List.mem_cons_self, (C134_loads sort hs _ _ _ _ _ _ _ hn).2.2.2.2, ?_, fun hnn hi => ?_, fun _ => rfl⟩
  · rintro hM v ⟨w, -, hw, -⟩
    simp only at hM
    subst hM
    cases w <;> simp [XF.lt, XF.eqv] at hw
  · rw [C134_infinite sort hs _ _ _ hnn hi] at hn
    simp only [Except.ok.injEq, Prod.mk.injEq] at hn
    obtain ⟨-, -, -, rfl⟩ := hn
    rintro v ⟨w, hv, hw, -⟩
    cases w <;> simp [XF.lt, XF.eqv] at hw
    exact hv

/-- **C134 (lightest panel, solver).** With the solver of `C134_constant` a load that is NaN or infinite leaves no admissible point. -/
theorem C134_minimize_none (S : XEigSolver) (hS : ∀ N A M k, (∀ i j, ¬ (A i j).isFin) → S N A M k = .error .arpackError)
    (sort : List PyFloat → List PyFloat) (hs : PySort sort) (g : XPanel) (Nxx Nyy Nxy : PyFloat) (hN : ¬ (Nxx.isFin ∧ Nyy.isFin ∧ Nxy.isFin))
    (P : XProblem) (h : (xMinimize S sort g Nxx Nyy Nxy).2 = .ok P) : ∃ c ∈ P.cons, ∀ v, ¬ XHolds c v := by
  simp only [xMinimize] at h
  obtain ⟨⟨x, y, s, M⟩, hn, h⟩ := bind_okE h
  simp only [pure_eq_ok, Except.ok.injEq] at h
  subst h
  have hl := C134_loads sort hs _ _ _ _ _ _ _ hn
  have hx := fun hf => hN (hl.1.1 hf)
  refine ⟨_, List.mem_cons_self, ?_⟩
  rintro v ⟨w, hv, hw, -⟩
  have hw1 : w = .fin (-1) := by
    rcases v with _ | ⟨a, _ | ⟨b, _ | ⟨c, _ | ⟨d, r⟩⟩⟩⟩ <;> simp only [xMinCriticalLoad, reduceCtorEq] at hv
    rcases guarded_constant hS g x y s hx with h | ⟨e, h⟩
    · rw [h] at hv; exact (Except.ok.inj hv).symm
    · rw [h] at hv; cases hv
  subst hw1
  have hM := hl.2.2.2.2
  have habs : ∀ u : PyFloat, M = xAbs u → False := by
    rintro u rfl
    cases u <;> simp [xAbs, XF.lt, XF.eqv] at hw
    rename_i r
    rcases hw with hw | hw <;> linarith [abs_nonneg r]
  simp only [List.mem_cons, List.not_mem_nil, or_false] at hM
  rcases hM with h | h | h <;> exact habs _ h

/-! ## Agreement with the model for numbers -/

/-- A panel described by numbers. -/
def Panel.toX (g : Panel) : XPanel := ⟨.fin g.a, .fin g.b, .fin g.E1, .fin g.E2, .fin g.v12, .fin g.G12, .fin g.m, .fin g.n, g.c⟩

/-- The two eigensolvers do the same on arrays of numbers. -/
def Spec.SameOnFinite (S' : XEigSolver) (S : EigSolver) : Prop :=
  ∀ N (A M : SqMat N) k, S' N (toXSq A) (toXSq M) k = (S N A M k).map fun out => out.map fun q => .fin q.1

theorem eigsh_agrees {S' : XEigSolver} {S : EigSolver} (hS : SameOnFinite S' S) {N : ℕ} (A M : SqMat N) (k : ℤ)
    (f : List PyFloat → Except PyErr PyFloat) :
    (if k ≤ 0 then Except.error PyErr.valueError >>= f else S' N (toXSq A) (toXSq M) k.toNat >>= f) =
      ((eigshCall S A M k).map fun out => out.map fun q => .fin q.1) >>= f := by
  unfold eigshCall
  by_cases hk : k ≤ 0
  · simp only [if_pos hk]; rfl
  · simp only [if_neg hk]
    rw [hS N A M k.toNat]

/-- **C134 (finite panels).** For numbers `Ncr_from_lp` is the function of the other properties. -/
theorem C134_agrees_ncr (S' : XEigSolver) (S : EigSolver) (hS : SameOnFinite S' S) (g : Panel) (T xi1 xi3 x y s : ℝ) :
    xNcrFromLp S' g.toX (.fin T) (.fin xi1) (.fin xi3) (.fin x) (.fin y) (.fin s) = ncrFromLp S g T xi1 xi3 x y s := by
  cases hm : (OrthoMat.args (.num (.fin g.E1)) (.num (.fin g.E2)) (.num (.fin g.v12)) (.num (.fin g.G12)) (.num (.fin 0.1))).init with
  | error e => simp only [xNcrFromLp, xNcrArrays, ncrFromLp, Panel.toX, hm]; rfl
  | ok m =>
  obtain ⟨rfl, h1, h2, h3, h4⟩ := (panel_mat_init g m).1 hm
  cases hp : (PlateArgs.args true (.num (.fin g.a)) (.num (.fin g.b)) (.num (.fin x)) (.num (.fin y)) (.num (.fin s))
      (.num (.fin g.m)) (.num (.fin g.n))).init with
  | error e => simp only [xNcrFromLp, xNcrArrays, ncrFromLp, Panel.toX, hm, hp]; rfl
  | ok d =>
  obtain ⟨rfl, h5, h6, h7, h8⟩ := (panel_plate_init g x y s d).1 hp
  rw [ncr_eq S g ⟨h1, h2, h3, h4, h5, h6, h7, h8⟩]
  have hv : (fun k => XF.fin (![xi1, 0, xi3, 0] k) : Fin 4 → PyFloat) = ![.fin xi1, .fin 0, .fin xi3, .fin 0] := by
    funext k; fin_cases k <;> rfl
  have hl : xLpD ⟨.fin g.E1, .fin g.E2, .fin g.v12, .fin g.G12, .fin 0.1, .fin 0, .fin 0, .fin 0, .fin 0, .fin 0⟩
      ![.fin xi1, .fin 0, .fin xi3, .fin 0] (.fin T) = (panelD g T xi1 xi3).map toX3 := by
    rw [← hv]
    exact (C133_agrees_lp ⟨g.E1, g.E2, g.v12, g.G12, 0.1, 0, 0, 0, 0, 0⟩ h1.ne' _ rfl ![xi1, 0, xi3, 0] T).2
  have hA : xNcrArrays g.toX (.fin T) (.fin xi1) (.fin xi3) (.fin x) (.fin y) (.fin s) =
      (calcKKGD shipped (panelD g T xi1 xi3) g.c (panelPlate g x y s)).map fun r => ⟨g.m * g.n, toXSq r.1, toXSq r.2⟩ := by
    have hK := C133_agrees shipped (panelD g T xi1 xi3) g.c (panelPlate g x y s)
    unfold xNcrArrays
    simp only [Panel.toX, hm, hp, ok_bind]
    rw [hl]
    erw [hK]
    cases calcKKGD shipped (panelD g T xi1 xi3) g.c (panelPlate g x y s) <;> rfl
  unfold xNcrFromLp bucklingAnalysis
  rw [hA]
  cases hDD : panelD g T xi1 xi3 with
  | error e => rfl
  | ok D =>
  cases hi : computeIdx g.c (panelPlate g x y s).m (panelPlate g x y s).n with
  | error e =>
    have : calcKKGD shipped (.ok D) g.c (panelPlate g x y s) = .error e := by
      have hq : constraintQuads g.c (panelPlate g x y s).m (panelPlate g x y s).n = .error e := by
        unfold constraintQuads
        unfold computeIdx at hi
        cases he : chooseEdges g.c with
        | error e' => rw [he] at hi; cases hi; rfl
        | ok E =>
          rw [he] at hi
          simp only [ok_bind] at hi ⊢
          cases hI : idxLists E (panelPlate g x y s).m (panelPlate g x y s).n with
          | error e' => rw [hI] at hi; cases hi; rfl
          | ok I => rw [hI] at hi; cases hi
      unfold calcKKGD
      simp only [ok_bind, hq]
      rfl
    rw [this]
    simp only [hi]
    rfl
  | ok i =>
  simp only [hi]
  cases hC : calcKKGD shipped (.ok D) g.c (panelPlate g x y s) with
  | error e => rfl
  | ok r =>
    obtain ⟨K, KG⟩ := r
    refine (eigsh_agrees hS KG K (min 5 (((g.m * g.n : ℕ) : ℤ) - 2)) fun vals => pyIdx (vals.map (xNpDiv (.fin (-1)))) 0).trans ?_
    cases he : eigshCall S KG K (min 5 (((g.m * g.n : ℕ) : ℤ) - 2)) with
    | error e =>
      have he' : eigshCall S KG K (min 5 ((((panelPlate g x y s).m * (panelPlate g x y s).n : ℕ) : ℤ) - 2)) = .error e := he
      simp only [he']
      rfl
    | ok out =>
      have he' : eigshCall S KG K (min 5 ((((panelPlate g x y s).m * (panelPlate g x y s).n : ℕ) : ℤ) - 2)) = .ok out := he
      simp only [he', Except.map, ok_bind, List.map_map]
      rfl

/-- The numbers of a problem, as floats. -/
def Spec.SameProblem (P' : XProblem) (P : MinProblem) : Prop :=
  (∀ v, P'.obj (v.map .fin) = P.obj v) ∧
    List.Forall₂ (fun c' c => (∀ v, c'.f (v.map .fin) = c.f v) ∧ c'.lb = .fin c.lb ∧ c'.ub = c.ub) P'.cons P.cons

/-- **C134 (finite problems).** For numbers the two optimisers hand over the problems of the other properties. -/
theorem C134_agrees (S' : XEigSolver) (S : EigSolver) (hS : SameOnFinite S' S) (sort : List PyFloat → List PyFloat) (hs : PySort sort) (g : Panel)
    (T Nxx Nyy Nxy : ℝ) (pen : Bool) :
    (xMaximize S' sort g.toX (.fin T) (.fin Nxx) (.fin Nyy) (.fin Nxy) pen).1 = (maximizeBucklingLoad S g T Nxx Nyy Nxy pen).1 ∧
    (xMinimize S' sort g.toX (.fin Nxx) (.fin Nyy) (.fin Nxy)).1 = (minimizePanelWeight S g Nxx Nyy Nxy).1 ∧
    ((∃ P' P, (xMaximize S' sort g.toX (.fin T) (.fin Nxx) (.fin Nyy) (.fin Nxy) pen).2 = .ok P' ∧ (maximizeBucklingLoad S g T Nxx Nyy Nxy pen).2 = .ok P ∧
        SameProblem P' P) ∨
      ∃ e, (xMaximize S' sort g.toX (.fin T) (.fin Nxx) (.fin Nyy) (.fin Nxy) pen).2 = .error e ∧ (maximizeBucklingLoad S g T Nxx Nyy Nxy pen).2 = .error e) ∧
    ((∃ P' P, (xMinimize S' sort g.toX (.fin Nxx) (.fin Nyy) (.fin Nxy)).2 = .ok P' ∧ (minimizePanelWeight S g Nxx Nyy Nxy).2 = .ok P ∧
        SameProblem P' P) ∨
      ∃ e, (xMinimize S' sort g.toX (.fin Nxx) (.fin Nyy) (.fin Nxy)).2 = .error e ∧ (minimizePanelWeight S g Nxx Nyy Nxy).2 = .error e) := by
  have hc := fun v => C134_agrees_constraints 0 0 v true
  refine ⟨C134_agrees_warnings _ _ _, C134_agrees_warnings _ _ _, ?_, ?_⟩
  · simp only [xMaximize, maximizeBucklingLoad, C134_agrees_normalize sort hs]
    cases hn : normalizeCriticalLoad Nxx Nyy Nxy with
    | error e => exact .inr ⟨e, rfl, rfl⟩
    | ok q =>
      obtain ⟨x, y, s, M⟩ := q
      refine .inl ⟨_, _, rfl, rfl, fun v => ?_, ?_⟩
      · rcases v with _ | ⟨a, _ | ⟨b, _ | ⟨c, r⟩⟩⟩ <;> simp only [List.map, xMaxCriticalLoad, maxCriticalLoad]
        rw [C134_agrees_ncr S' S hS]
      · cases pen
        · exact .cons ⟨fun v => (hc v).2.2.2.1, rfl, rfl⟩ .nil
        · exact .cons ⟨fun v => (hc v).2.1, rfl, rfl⟩ (.cons ⟨fun v => (hc v).2.2.1, rfl, rfl⟩ .nil)
  · simp only [xMinimize, minimizePanelWeight, C134_agrees_normalize sort hs]
    cases hn : normalizeCriticalLoad Nxx Nyy Nxy with
    | error e => exact .inr ⟨e, rfl, rfl⟩
    | ok q =>
      obtain ⟨x, y, s, M⟩ := q
      refine .inl ⟨_, _, rfl, rfl, fun v => (hc v).2.2.2.2, .cons ⟨fun v => ?_, rfl, rfl⟩ (.cons ⟨fun v => (hc v).2.1, rfl, rfl⟩
        (.cons ⟨fun v => (hc v).2.2.1, rfl, rfl⟩ .nil))⟩
      rcases v with _ | ⟨a, _ | ⟨b, _ | ⟨c, _ | ⟨d, r⟩⟩⟩⟩ <;> simp only [List.map, xMinCriticalLoad, minCriticalLoad]
      rw [C134_agrees_ncr S' S hS]

/-! ## Concrete cases -/

/-- The place of a float in the order, NaN first. -/
noncomputable def sortKey : PyFloat → EReal
  | .fin r => r
  | .pinf => ⊤
  | _ => ⊥

/-- Sorting by that place. -/
noncomputable def keySort (l : List PyFloat) : List PyFloat := by
  classical exact l.insertionSort fun x y => sortKey x ≤ sortKey y

theorem keySort_ok : PySort keySort := by
  classical
  intro l
  have : Std.Total fun x y : PyFloat => sortKey x ≤ sortKey y := ⟨fun x y => le_total _ _⟩
  have : IsTrans PyFloat fun x y => sortKey x ≤ sortKey y := ⟨fun x y z h h' => le_trans h h'⟩
  refine ⟨List.perm_insertionSort _ l, fun _ => ?_⟩
  refine (List.pairwise_insertionSort (fun x y : PyFloat => sortKey x ≤ sortKey y) l).imp fun {x y} hxy hlt => ?_
  cases x <;> cases y <;> simp [XF.lt, sortKey] at hlt hxy
  exact absurd hlt (not_lt.2 hxy)

/-- An infinite `Nxx` beside `Nyy = 1`: the first becomes NaN, the second 0. -/
example : xNormalize keySort .ninf (.fin 1) (.fin 0) = .ok (.nan, .fin 0, .fin 0, .pinf) :=
  C134_infinite keySort keySort_ok .ninf (.fin 1) (.fin 0) ⟨by simp, by simp, by simp⟩ (by simp [XF.isFin])

/-- NaN passes `_constraint` and is no value a constraint accepts. -/
example : xConstraintOk .nan (.fin 0) = true ∧ xPenaltyG1 [.nan, .fin 0] = .ok .nan :=
  ⟨(C134_constraint .nan (.fin 0) true (by simp [XF.isFin])).2 (.inl rfl), rfl⟩

/-- A problem with an infinite load, and a solver as in `C134_constant`. -/
example (g : XPanel) : ∃ S : XEigSolver, (∀ N A M k, (∀ i j, ¬ (A i j).isFin) → S N A M k = .error .arpackError) ∧
    (xMaximize S keySort g (.fin 1) .ninf (.fin 1) (.fin 0)).2.isOk = true ∧
    (xMinimize S keySort g .ninf (.fin 1) (.fin 0)).2.isOk = true := by
  refine ⟨fun _ _ _ _ => .error .arpackError, fun _ _ _ _ _ => rfl, ?_, ?_⟩
  · simp only [xMaximize, C134_infinite keySort keySort_ok .ninf (.fin 1) (.fin 0) ⟨by simp, by simp, by simp⟩ (by simp [XF.isFin]), ok_bind, pure_eq_ok]
    rfl
  · simp only [xMinimize, C134_infinite keySort keySort_ok .ninf (.fin 1) (.fin 0) ⟨by simp, by simp, by simp⟩ (by simp [XF.isFin]), ok_bind, pure_eq_ok]
    rfl

/-- The hypothesis of `C134_agrees` can be met. -/
example (S : EigSolver) : ∃ S', SameOnFinite S' S := by
  classical
  refine ⟨fun N A M k => if h : ∃ q : SqMat N × SqMat N, A = toXSq q.1 ∧ M = toXSq q.2 then (S N h.choose.1 h.choose.2 k).map fun out => out.map fun q => .fin q.1
    else .error .valueError, fun N A M k => ?_⟩
  have h : ∃ q : SqMat N × SqMat N, toXSq A = toXSq q.1 ∧ toXSq M = toXSq q.2 := ⟨(A, M), rfl, rfl⟩
  have hinj : ∀ X Y : SqMat N, toXSq X = toXSq Y → X = Y := by
    intro X Y hXY
    ext i j
    exact XF.fin.inj (congrFun (congrFun hXY i) j)
  simp only [dif_pos h]
  rw [← hinj _ _ h.choose_spec.1, ← hinj _ _ h.choose_spec.2]

end Composipy
