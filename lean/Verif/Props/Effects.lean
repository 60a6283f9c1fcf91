import Verif.Model.Effects
import Verif.Props.Margins
import Verif.Props.OptPlot
import Verif.Props.Buckling

/-!
# C123, C124: what is printed, and the display precision of pandas
-/

namespace Composipy
open Spec Matrix

/-! ## C123: printing -/

/-- The lines of an analysis that is not silent, in order. -/
def Spec.progress (clock : ℕ → ℝ) : List Line :=
  [.text "calculating K and KG", .timed "K and KG calculated in " (clock 1 - clock 0) " seconds", .text "Calculating eigenvalues",
   .timed "eigenvalues calculated in " (clock 3 - clock 2) " seconds"]

theorem say_true (l : Line) (w : Outside) : Eff.say true l w = (.ok (), w) := rfl

theorem say_false (l : Line) (w : Outside) :
    Eff.say false l w = (.ok (), { w with printed := w.printed ++ [l] }) := rfl

/-- C123: `silent` changes neither the result nor the attributes left on the plate.  A silent analysis prints nothing.  The other one
prints four lines when it returns, three when the matrices are built but no eigenvalues are found, and one when the matrices cannot
be built.  The display precision is not touched. -/
theorem C123_buckling (clock : ℕ → ℝ) (S : EigSolver) (D : Except PyErr M3) (c : Constraints) (p : PlateNum)
    (st : PlateState (p.m * p.n)) (w : Outside) (silent : Bool) (numEig : ℤ) :
    (effBuckling clock S D c p st w silent numEig).1 = bucklingAnalysis S D c p numEig st ∧
    (effBuckling clock S D c p st w silent numEig).2.precision = w.precision ∧
    (silent = true → (effBuckling clock S D c p st w silent numEig).2.printed = w.printed) ∧
    (silent = false → (effBuckling clock S D c p st w silent numEig).2.printed =
      w.printed ++ (progress clock).take
        (match calcKKGD shipped D c p, (bucklingAnalysis S D c p numEig st).1 with
          | _, .ok _ => 4
          | .ok _, .error _ => 3
          | .error _, .error _ => 1)) := by
  have hD : ∀ e, calcKKGD shipped (.error e) c p = .error e := fun e => rfl
  have hc : ∀ D' e, computeIdx c p.m p.n = .error e → calcKKGD shipped (.ok D') c p = .error e := by
    intro D' e he
    unfold computeIdx at he
    unfold calcKKGD constraintQuads
    cases h : chooseEdges c with
    | error e' => simp_all
    | ok x =>
      rw [h] at he
      cases h' : idxLists x p.m p.n with
      | error e' => simp_all
      | ok i => simp [h'] at he
  unfold effBuckling bucklingAnalysis
  cases D with
  | error e => cases silent <;> simp [hD, say_true, say_false, progress]
  | ok D' =>
    simp only
    cases h1 : computeIdx c p.m p.n with
    | error e => cases silent <;> simp [hc D' e h1, say_true, say_false, progress]
    | ok s =>
      simp only
      cases h2 : calcKKGD shipped (.ok D') c p with
      | error e => cases silent <;> simp [say_true, say_false, progress]
      | ok q =>
        obtain ⟨K, KG⟩ := q
        simp only
        cases h3 : eigshCall S KG K (min numEig ((p.m * p.n : ℕ) - 2 : ℤ)) with
        | error e => cases silent <;> simp [say_true, say_false, progress]
        | ok out => cases silent <;> simp [say_true, say_false, progress]

/-- C123: called without `silent` and `num_eigvalues`, `buckling_analysis` is silent and looks for five eigenvalues. -/
theorem C123_default (clock : ℕ → ℝ) (S : EigSolver) (D : Except PyErr M3) (c : Constraints) (p : PlateNum)
    (st : PlateState (p.m * p.n)) (w : Outside) :
    effBuckling clock S D c p st w = (bucklingAnalysis S D c p 5 st, w) := by
  obtain ⟨h1, h2, h3, -⟩ := C123_buckling clock S D c p st w true 5
  have h3 := h3 rfl
  refine Prod.ext h1 ?_
  show (effBuckling clock S D c p st w true 5).2 = w
  cases hw : (effBuckling clock S D c p st w true 5).2
  rw [hw] at h2 h3
  cases w
  simp_all

/-- A clock that does not run backwards gives times that are not negative. -/
theorem C123_times (clock : ℕ → ℝ) (hc : Monotone clock) (l : Line) (hl : l ∈ progress clock) :
    ∀ b t a, l = .timed b t a → 0 ≤ t := by
  intro b t a e
  subst e
  simp only [progress, List.mem_cons, reduceCtorEq, false_or, Line.timed.injEq, List.not_mem_nil, or_false] at hl
  rcases hl with ⟨-, rfl, -⟩ | ⟨-, rfl, -⟩
  · exact sub_nonneg.mpr (hc (by norm_num))
  · exact sub_nonneg.mpr (hc (by norm_num))

/-- C123: `plot_eigenvalue` prints nothing, whether or not it has to run the analysis. -/
theorem C123_plot_eigenvalue (clock : ℕ → ℝ) (S : EigSolver) (D : Except PyErr M3) (c : Constraints) (p : PlateNum)
    (nth : ℤ) (ngridx ngridy : ℕ) (st : PlateState (p.m * p.n)) (w : Outside) :
    effPlotEigenvalue clock S D c p nth ngridx ngridy st w = (plotEigenvalue S D c p nth ngridx ngridy st, w) := by
  unfold effPlotEigenvalue plotEigenvalue
  rcases st with ⟨i, _ | ⟨v, x⟩⟩
  · simp only [C123_default]
    rcases bucklingAnalysis S D c p 5 ⟨i, none⟩ with ⟨_ | ⟨a, b⟩, s⟩ <;> rfl
  · rfl

theorem lift_bind {α β : Type} (x : Except PyErr α) (f : α → Eff β) (w : Outside) :
    (Eff.lift x).bind f w = match x with
      | .error e => (.error e, w)
      | .ok a => f a w := by
  cases x <;> rfl

/-- C123: `Ncr_from_lp` prints nothing. -/
theorem C123_ncr (clock : ℕ → ℝ) (S : EigSolver) (g : Panel) (T xi1 xi3 Nxx Nyy Nxy : ℝ) (w : Outside) :
    effNcr clock S g T xi1 xi3 Nxx Nyy Nxy w = (ncrFromLp S g T xi1 xi3 Nxx Nyy Nxy, w) := by
  unfold effNcr ncrFromLp
  rw [lift_bind]
  cases (OrthoMat.args (.num (.fin g.E1)) (.num (.fin g.E2)) (.num (.fin g.v12)) (.num (.fin g.G12)) (.num (.fin 0.1))).init with
  | error e => rfl
  | ok m =>
  simp only [lift_bind, ok_bind]
  cases realMat m with
  | error e => rfl
  | ok m =>
  simp only [ok_bind]
  cases Lam.init (.dict ⟨none, none, some (.vec [xi1, 0, xi3, 0]), some (.num T)⟩) (.single (.ortho m)) with
  | error e => rfl
  | ok l =>
  simp only [ok_bind]
  cases (PlateArgs.args true (.num (.fin g.a)) (.num (.fin g.b)) (.num (.fin Nxx)) (.num (.fin Nyy))
    (.num (.fin Nxy)) (.num (.fin g.m)) (.num (.fin g.n))).init with
  | error e => rfl
  | ok d =>
  simp only [ok_bind]
  cases realPlate d with
  | error e => rfl
  | ok p =>
  simp only [ok_bind, Eff.bind, C123_default]
  cases (bucklingAnalysis S l.D g.c p 5 (.fresh _)).1 <;> rfl

/-- C123: `_constraint` answers the same with and without `silent`; a refused point is printed when it is not silent, and nothing else is. -/
theorem C123_constraint (xi1 xi3 : ℝ) (silent penalty : Bool) (w : Outside) :
    effConstraint xi1 xi3 silent penalty w = (.ok (constraintOk xi1 xi3 penalty),
      if silent = false ∧ constraintOk xi1 xi3 penalty = false then { w with printed := w.printed ++ [.pair xi1 xi3] } else w) := by
  unfold effConstraint constraintOk
  simp only
  split_ifs <;> cases silent <;> simp_all [Eff.bind, Eff.say, Eff.print, Eff.lift]

/-- C123: `_constraint` is silent and uses the penalty curves unless told otherwise. -/
theorem C123_constraint_default (xi1 xi3 : ℝ) (w : Outside) :
    (effConstraint xi1 xi3 : Eff Bool) w = (.ok (constraintOk xi1 xi3 true), w) := by
  rw [C123_constraint]
  simp

theorem collect_quiet {α β : Type} (f : α → Eff β) (g : α → Except PyErr β) (h : ∀ a w, f a w = (g a, w)) (l : List α) (w : Outside) :
    Eff.collect f l w = (l.mapM g, w) := by
  induction l with
  | nil => rfl
  | cons a l ih =>
    rw [List.mapM_cons, Eff.collect, Eff.bind, h]
    cases g a with
    | error e => rfl
    | ok b =>
      simp only [ok_bind, Eff.bind, ih]
      cases l.mapM g <;> rfl

/-- C123: `plot_optimization` returns what it draws; it prints `generating plot...` first, and `penalty False` once the grid is
computed if the penalty curves are not used. -/
theorem C123_plot_optimization (clock : ℕ → ℝ) (S : EigSolver) (g : Panel) (T Nxx Nyy Nxy : ℝ) (points : ℕ) (resX : List ℝ)
    (penalty : Bool) (w : Outside) :
    (effPlotOptimization clock S g T Nxx Nyy Nxy points resX penalty w).1 = plotOptimization S g T Nxx Nyy Nxy points resX penalty ∧
    (effPlotOptimization clock S g T Nxx Nyy Nxy points resX penalty w).2 =
      { w with printed := w.printed ++ .text "generating plot..." ::
          (match plotOptimization S g T Nxx Nyy Nxy points resX penalty with
            | .ok _ => if penalty then [] else [.text "penalty False"]
            | .error _ => []) } := by
  have hc : ∀ q w, (fun p : ℝ × ℝ => (effConstraint p.1 p.2 true penalty).bind fun ok =>
      if ok then effNcr clock S g T p.1 p.2 Nxx Nyy Nxy else .lift (.ok .nan)) q w = (plotValue S g T Nxx Nyy Nxy penalty q, w) := by
    intro q w
    simp only [Eff.bind, C123_constraint, plotValue]
    cases constraintOk q.1 q.2 penalty <;> simp [C123_ncr, Eff.lift]
  rcases hv : (gridPts points).mapM (plotValue S g T Nxx Nyy Nxy penalty) with e | vs
  · have hP : plotOptimization S g T Nxx Nyy Nxy points resX penalty = .error e := by
      unfold plotOptimization
      change ((gridPts points).mapM (plotValue S g T Nxx Nyy Nxy penalty) >>= _) = _
      rw [hv]
      rfl
    rw [hP]
    unfold gridPts at hv
    unfold effPlotOptimization
    simp [Eff.bind, Eff.print, collect_quiet _ _ hc, hv]
  · obtain ⟨hlen, -⟩ := mapM_get _ _ _ hv
    rw [gridPts_length] at hlen
    have hk : vs.length.sqrt = points := by rw [hlen]; exact Nat.sqrt_eq points
    obtain ⟨m, hm, -⟩ := reshape2_get vs points points hlen
    obtain ⟨m', hm', -⟩ := reshape2_get ((gridPts points).map Prod.fst) points points (by rw [List.length_map, gridPts_length])
    obtain ⟨m'', hm'', -⟩ := reshape2_get ((gridPts points).map Prod.snd) points points (by rw [List.length_map, gridPts_length])
    have hP : ∃ P, plotOptimization S g T Nxx Nyy Nxy points resX penalty = .ok P ∧
        (effPlotOptimization clock S g T Nxx Nyy Nxy points resX penalty w).1 = .ok P := by
      refine ⟨⟨m', m'', m, (linspace (-1) 0 points).map fun t => (t, if penalty then -2 * t - 1 else 2 * t ^ 2 - 1),
        (linspace 0 1 points).map fun t => (t, if penalty then 2 * t - 1 else 2 * t ^ 2 - 1), resX⟩, ?_, ?_⟩
      · unfold plotOptimization
        change ((gridPts points).mapM (plotValue S g T Nxx Nyy Nxy penalty) >>= _) = _
        rw [hv]
        unfold gridPts at hm' hm''
        simp only [ok_bind, hk, hm, hm', hm'', pure_eq_ok]
      · unfold gridPts at hv hm' hm''
        unfold effPlotOptimization
        cases penalty <;> simp [Eff.bind, Eff.print, Eff.lift, collect_quiet _ _ hc, hv, hk, hm, hm', hm'']
    obtain ⟨P, h1, h2⟩ := hP
    refine ⟨h2.trans h1.symm, ?_⟩
    rw [h1]
    unfold gridPts at hv hm' hm''
    unfold effPlotOptimization
    cases penalty <;> simp [Eff.bind, Eff.print, Eff.lift, collect_quiet _ _ hc, hv, hk, hm, hm', hm'']

/-- All three outcomes of C123 occur: a pinned plate with four terms each way whose solver answers, the same plate asked for no
eigenvalue, and a laminate whose `D` cannot be read. -/
example (clock : ℕ → ℝ) (st : PlateState (4 * 4)) : let p : PlateNum := ⟨2, 3, -1, 0, 0, 4, 4⟩
    let S : EigSolver := fun _ _ _ _ => .ok []
    let w : Outside := ⟨[], 6⟩
    (effBuckling clock S (.ok 1) (.str wPINNED) p st w false).2.printed = progress clock ∧
    (effBuckling clock S (.ok 1) (.str wPINNED) p st w false 0).2.printed = (progress clock).take 3 ∧
    (effBuckling clock S (.error .typeError) (.str wPINNED) p st w false).2.printed = (progress clock).take 1 := by
  intro p S w
  obtain ⟨s, hs⟩ := (C40_accepted_iff (.str wPINNED) 4 4).mpr ⟨_, rfl⟩
  obtain ⟨⟨K, KG⟩, hK⟩ : ∃ KK, calcKKGD shipped (.ok (1 : M3)) (.str wPINNED) p = .ok KK :=
    (C51_computed_iff 1 (.str wPINNED) p s hs (by norm_num [p]) (by norm_num [p])).1 fun q hq => by
      have := widx_range hs q hq
      omega
  have hs' : computeIdx (.str wPINNED) p.m p.n = .ok s := hs
  refine ⟨?_, ?_, ?_⟩
  · rw [(C123_buckling clock S _ _ p st w false 5).2.2.2 rfl]
    have : (bucklingAnalysis S (.ok 1) (.str wPINNED) p 5 st).1 = .ok ([], []) := by
      simp [bucklingAnalysis, hs', hK, eigshCall, S, p]
    rw [this]
    simp [w, progress]
  · rw [(C123_buckling clock S _ _ p st w false 0).2.2.2 rfl, C53_refused S _ _ p 0 st ⟨_, hK⟩ (.inr le_rfl), hK]
    rfl
  · rw [(C123_buckling clock S _ _ p st w false 5).2.2.2 rfl]
    rfl

/-- C123: what a step did before it raised an exception stays done, and the following steps are not run. -/
theorem C123_raise {α β : Type} (m : Eff α) (f : α → Eff β) (w w' : Outside) (e : PyErr) (h : m w = (.error e, w')) : (m.bind f) w = (.error e, w') := by
  simp [Eff.bind, h]

/-- A step that prints a line and then raises. -/
example : ((Eff.print (.text "a")).bind fun _ => Eff.lift (α := Unit) (.error .valueError)).bind (fun _ => Eff.print (.text "b")) ⟨[], 6⟩ =
    (.error .valueError, ⟨[.text "a"], 6⟩) := rfl

/-! ## C124: the display precision -/

/-- C124: `calculate_strain` and `calculate_stress` set the option to 2 when they return, and leave it when they raise. -/
theorem C124_tables (l : Lam) (N : V6) (w : Outside) :
    effStrain l N w = (calculateStrain l N, match calculateStrain l N with
      | .ok _ => { w with precision := 2 }
      | .error _ => w) ∧
    effStress l N w = (calculateStress l N, match calculateStress l N with
      | .ok _ => { w with precision := 2 }
      | .error _ => w) := by
  constructor
  · unfold effStrain
    rw [lift_bind]
    cases calculateStrain l N <;> rfl
  · unfold effStress
    rw [lift_bind]
    cases calculateStress l N <;> rfl

open Classical in
/-- C124: `calculate_maxstressmargin` sets the option to 2 as soon as every ply has allowables, even when it then raises because the
stresses cannot be computed; with an isotropic ply it raises and leaves the option. -/
theorem C124_margin (l : Lam) (N : V6) (w : Outside) :
    effMargin l N w = (calculateMargin l N, if HasAllowables l then { w with precision := 2 } else w) := by
  unfold effMargin effAllowable calculateMargin calculateAllowable
  split_ifs with h
  · rw [allowablek_ok l h]
    simp only [ok_bind, pure_eq_ok, Eff.bind, Eff.lift, Eff.setPrecision, (C124_tables l N _).2]
    cases calculateStress l N <;> rfl
  · rw [allowablek_err l h]
    rfl

/-- The call sets the option. -/
def Spec.SetsPrecision : StrCall → Lam × V6 → Prop
  | .epsilon0, _ => False
  | .strain, (l, N) => ∃ R, calculateStrain l N = .ok R
  | .stress, (l, N) => ∃ R, calculateStress l N = .ok R
  | .margin, (l, _) => HasAllowables l

/-- C124: after any calls on any laminates the option is 2 if one of them set it and what it was before otherwise; nothing is printed. -/
theorem C124_session (calls : List (StrCall × Lam × V6)) (w : Outside) :
    let w' := calls.foldl (fun w c => c.1.run c.2 w) w
    w'.printed = w.printed ∧ ((∃ c ∈ calls, SetsPrecision c.1 c.2) → w'.precision = 2) ∧
      ((∀ c ∈ calls, ¬ SetsPrecision c.1 c.2) → w'.precision = w.precision) := by
  have one : ∀ (c : StrCall × Lam × V6) (w : Outside), (c.1.run c.2 w).printed = w.printed ∧
      (SetsPrecision c.1 c.2 → (c.1.run c.2 w).precision = 2) ∧ (¬ SetsPrecision c.1 c.2 → c.1.run c.2 w = w) := by
    rintro ⟨k, l, N⟩ w
    cases k with
    | epsilon0 => simp [StrCall.run, SetsPrecision]
    | strain =>
      simp only [StrCall.run, SetsPrecision, (C124_tables l N w).1]
      cases calculateStrain l N <;> simp
    | stress =>
      simp only [StrCall.run, SetsPrecision, (C124_tables l N w).2]
      cases calculateStress l N <;> simp
    | margin =>
      simp only [StrCall.run, SetsPrecision, C124_margin l N w]
      split_ifs with h <;> simp [h]
  induction calls generalizing w with
  | nil => simp
  | cons c calls ih =>
    simp only [List.foldl_cons, List.mem_cons, exists_eq_or_imp, forall_eq_or_imp]
    obtain ⟨a1, a2, a3⟩ := one c w
    obtain ⟨b1, b2, b3⟩ := ih (c.1.run c.2 w)
    refine ⟨b1.trans a1, ?_, ?_⟩
    · rintro (h | h)
      · by_cases hc : ∃ d ∈ calls, SetsPrecision d.1 d.2
        · exact b2 hc
        · push Not at hc
          rw [b3 hc, a2 h]
      · exact b2 h
    · rintro ⟨h, h'⟩
      rw [b3 h', a3 h]

/-- The cases of C124 occur: a carbon stack sets the option and returns, a stack without plies sets it and raises, an isotropic ply
raises without setting it. -/
example : let w : Outside := ⟨[], 6⟩
    (∃ l R, calculateMargin l (fun _ => 1) = .ok R ∧ (effMargin l (fun _ => 1) w).2.precision = 2) ∧
    (∃ l, IsStack l ∧ calculateMargin l (fun _ => 1) = .error .linAlgError ∧ (effMargin l (fun _ => 1) w).2.precision = 2) ∧
    ∃ l, IsStack l ∧ calculateMargin l (fun _ => 1) = .error .attributeError ∧ (effMargin l (fun _ => 1) w).2.precision = 6 := by
  intro w
  refine ⟨?_, ?_, ?_⟩
  · obtain ⟨l, R, -, -, hR, -, h⟩ := carbon_margin
    have ha : HasAllowables l := fun p hp => (h p hp).imp fun m h => h.1
    exact ⟨l, R, hR, by rw [C124_margin, if_pos ha]⟩
  · obtain ⟨l, hl, hlay⟩ := C10_single [] carbon
    have hs : IsStack l := ⟨_, _, hl⟩
    have hlay : l.layup = [] := by simpa using hlay
    have ha : HasAllowables l := by simp [HasAllowables, hlay]
    exact ⟨l, hs, by rw [hs.margin_eq ha, C29_empty l _ hs hlay]; rfl, by rw [C124_margin, if_pos ha]⟩
  · obtain ⟨l, hl, hlay⟩ := C10_single [0] (.iso ⟨1, 1, 1, 1, 1, 1, 1⟩)
    have hs : IsStack l := ⟨_, _, hl⟩
    have ha : ¬ HasAllowables l := by simp [HasAllowables, hlay]
    refine ⟨l, hs, by simp [calculateMargin, calculateAllowable, allowablek_err l ha], by rw [C124_margin, if_neg ha]⟩

end Composipy
