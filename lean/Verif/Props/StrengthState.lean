import Verif.Props.Cache
import Verif.Props.Margins
import Verif.Model.StrengthState

/-!
# C67-C69: histories of strength calls on a live laminate
-/

namespace Composipy
open Spec Matrix

/-! ## Specification -/

/-- What an operation returns, computed from the present laminate and loads alone (as if both objects were new). -/
noncomputable def Spec.strOut (l : Lam) (N : V6) : StrOp → StrOut
  | .lam op => .lam (freshOut l op)
  | .setLoads _ => .done
  | .epsilon0 => .vec (Composipy.epsilon0 l N)
  | .strain => .rows (calculateStrain l N)
  | .stress => .rows (calculateStress l N)
  | .margin => .margins (calculateMargin l N)

/-- Results of a history when nothing is remembered except the caller's lists and the loads. -/
noncomputable def Spec.strRun (l : Lam) (N : V6) : List StrOp → List StrOut
  | [] => []
  | op :: ops => strOut l N op :: match op with
    | .lam o => strRun (l.mutate o) N ops
    | .setLoads N' => strRun l N' ops
    | _ => strRun l N ops

/-! ## C67 -/

/-- The cached computation returns the value `x` from every correct cache, and keeps the cache correct. -/
def Refines {α : Type} (l : Lam) (m : CM α) (x : Except PyErr α) : Prop :=
  ∀ c, Good l c → (m c).1 = x ∧ Good l (m c).2

theorem refines_lift {α : Type} (l : Lam) (x : Except PyErr α) : Refines l (CM.lift x) x := fun _ h => ⟨rfl, h⟩

theorem refines_bind {α β : Type} {l : Lam} {m : CM α} {x : Except PyErr α} {f : α → CM β} {g : α → Except PyErr β}
    (hm : Refines l m x) (hf : ∀ a, Refines l (f a) (g a)) : Refines l (m.bind f) (x >>= g) := by
  intro c hc
  obtain ⟨h1, h2⟩ := hm c hc
  unfold CM.bind
  rcases hr : m c with ⟨r, c'⟩
  rw [hr] at h1 h2
  simp only at h1 h2
  subst h1
  cases r with
  | error e => exact ⟨rfl, h2⟩
  | ok a => exact hf a c' h2

theorem refines_eps0 (l : Lam) (N : V6) (h : AllOk l.layup) : Refines l (sEpsilon0 l N) (epsilon0 l N) :=
  refines_bind (fun c hc => readABD_good l c h hc) fun _ => refines_bind (refines_lift _ _) fun _ => refines_lift _ _

theorem refines_epsk (l : Lam) (N : V6) (h : AllOk l.layup) : Refines l (sEpsilonk l N) (epsilonk l N) :=
  refines_bind (refines_lift _ _) fun _ => refines_bind (refines_eps0 l N h) fun _ => refines_lift _ _

theorem refines_Q (l : Lam) (h : AllOk l.layup) : Refines l (readQ l) l.Qlayup := by
  intro c hc
  rw [readQ_good l c h hc.Q, l.Qlayup_ok h]
  exact ⟨rfl, ⟨Or.inr rfl, hc.T, hc.A, hc.B, hc.D⟩⟩

theorem refines_stressk (l : Lam) (N : V6) (h : AllOk l.layup) : Refines l (sStressk l N) (stressk l N) :=
  refines_bind (refines_Q l h) fun _ => refines_bind (refines_epsk l N h) fun _ => refines_lift _ _

theorem refines_epsk123 (l : Lam) (N : V6) (h : AllOk l.layup) : Refines l (sEpsilonk123 l N) (epsilonk123 l N) :=
  refines_bind (refines_epsk l N h) fun _ => refines_bind (refines_lift _ _) fun _ => refines_lift _ _

theorem refines_stressk123 (l : Lam) (N : V6) (h : AllOk l.layup) : Refines l (sStressk123 l N) (stressk123 l N) :=
  refines_bind (refines_stressk l N h) fun _ => refines_bind (refines_lift _ _) fun _ => refines_lift _ _

theorem refines_strain (l : Lam) (N : V6) (h : AllOk l.layup) :
    Refines l (sCalculateStrain l N) (calculateStrain l N) :=
  refines_bind (refines_epsk l N h) fun _ => refines_bind (refines_epsk123 l N h) fun _ =>
    refines_bind (refines_lift _ _) fun _ => refines_lift _ _

theorem refines_stress (l : Lam) (N : V6) (h : AllOk l.layup) :
    Refines l (sCalculateStress l N) (calculateStress l N) :=
  refines_bind (refines_stressk l N h) fun _ => refines_bind (refines_stressk123 l N h) fun _ =>
    refines_bind (refines_lift _ _) fun _ => refines_lift _ _

theorem flatMap_two_length {α β : Type} (L : List α) (f : α → List β) (h : ∀ a ∈ L, (f a).length = 2) :
    (L.flatMap f).length = 2 * L.length := by
  induction L with
  | nil => rfl
  | cons a L ih =>
    rw [List.flatMap_cons, List.length_append, h a (by simp), ih fun b hb => h b (by simp [hb])]
    simp only [List.length_cons]
    ring

theorem mapM_ok_length {α β : Type} (f : α → Except PyErr β) (L : List α) (R : List β) (h : L.mapM f = .ok R) :
    R.length = L.length := by
  induction L generalizing R with
  | nil =>
    simp only [List.mapM_nil, pure_eq_ok, Except.ok.injEq] at h
    simp [← h]
  | cons a L ih =>
    rw [List.mapM_cons] at h
    cases ha : f a with
    | error e => simp [ha] at h
    | ok b =>
      cases hL : L.mapM f with
      | error e => simp [ha, hL] at h
      | ok bs =>
        simp only [ha, hL, ok_bind, pure_eq_ok, Except.ok.injEq] at h
        simp [← h, ih bs hL]

theorem fillRows_length (z : List ℝ) (xy m12 : List (V3 × V3)) (angles : List ℝ) (R : List Row) (h : fillRows z xy m12 angles = .ok R) :
    R.length = 2 * min xy.length (min m12.length angles.length) := by
  unfold fillRows at h
  generalize hL : (xy.zip (m12.zip angles)).zipIdx = L at h
  cases hM : L.mapM (fun p : ((V3 × V3) × (V3 × V3) × ℝ) × ℕ => do
      let z0 ← pyIdx z p.2
      let z1 ← pyIdx z (p.2 + 1)
      return [(⟨p.2 + 1, z0, .bot, p.1.2.2, p.1.1.1, p.1.2.1.1⟩ : Row),
            ⟨p.2 + 1, z1, .top, p.1.2.2, p.1.1.2, p.1.2.1.2⟩]) with
  | error e => rw [hM] at h; cases h
  | ok rows =>
    rw [hM] at h
    simp only [ok_bind, pure_eq_ok, Except.ok.injEq] at h
    have h2 : ∀ r ∈ rows, r.length = 2 := by
      clear h hL
      induction L generalizing rows with
      | nil =>
        simp only [List.mapM_nil, pure_eq_ok, Except.ok.injEq] at hM
        simp [← hM]
      | cons a L ih =>
        rw [List.mapM_cons] at hM
        cases h1 : pyIdx z a.2 with
        | error e => simp [h1] at hM
        | ok z0 =>
          cases h2 : pyIdx z (a.2 + 1) with
          | error e => simp [h1, h2] at hM
          | ok z1 =>
            simp only [h1, h2, ok_bind, pure_eq_ok] at hM
            cases h3 : L.mapM (fun p : ((V3 × V3) × (V3 × V3) × ℝ) × ℕ => do
                let z0 ← pyIdx z p.2
                let z1 ← pyIdx z (p.2 + 1)
                return [(⟨p.2 + 1, z0, .bot, p.1.2.2, p.1.1.1, p.1.2.1.1⟩ : Row),
                  ⟨p.2 + 1, z1, .top, p.1.2.2, p.1.1.2, p.1.2.1.2⟩]) with
            | error e =>
              simp only [pure_eq_ok] at h3
              simp [h3] at hM
            | ok bs =>
              have := ih bs h3
              simp only [pure_eq_ok] at h3
              simp only [h3, ok_bind, Except.ok.injEq] at hM
              subst hM
              simp only [List.mem_cons, forall_eq_or_imp]
              exact ⟨rfl, this⟩
    have h3 := mapM_ok_length _ _ _ hM
    have h4 := flatMap_two_length rows id (by simpa using h2)
    rw [← h, ← List.flatMap_id, h4, h3, ← hL]
    simp

/-- The tables of `calculate_maxstressmargin` on a new laminate object have the same number of rows, whatever the stacking list holds. -/
theorem margin_tables_length (l : Lam) (N : V6) (al : List AllowRow) (st : List Row) (ha : calculateAllowable l = .ok al)
    (hst : calculateStress l N = .ok st) : al.length = st.length := by
  unfold calculateStress at hst
  cases hk : stressk l N with
  | error e => simp [hk] at hst
  | ok sk =>
  cases hang : l.stacking.toAngles with
  | error e => simp [hk, stressk123, hang] at hst
  | ok ang =>
  simp only [hk, stressk123, hang, ok_bind, pure_eq_ok] at hst
  have h1 := fillRows_length _ _ _ _ _ hst
  have hit : l.stacking.iter = ang ∧ l.stacking.len = ang.length := by
    cases hs : l.stacking with
    | angles a =>
      rw [hs] at hang
      simp only [Stacking.toAngles, Except.ok.injEq] at hang
      subst hang
      exact ⟨rfl, rfl⟩
    | dict d =>
      rw [hs] at hang
      simp [Stacking.toAngles] at hang
  have h2 : sk.length = min l.layup.length ang.length := by
    unfold stressk at hk
    cases hQ : l.Qlayup with
    | error e => simp [hQ] at hk
    | ok Q =>
    cases he : epsilonk l N with
    | error e => simp [hQ, he] at hk
    | ok ek =>
      simp only [hQ, he, ok_bind, pure_eq_ok, Except.ok.injEq] at hk
      have hQl := mapM_ok_length _ _ _ hQ
      have hel : ek.length = ang.length := by
        unfold epsilonk at he
        cases hz : zPairs l.zPosition l.stacking.len with
        | error e => simp [hz] at he
        | ok zz =>
        cases h0 : epsilon0 l N with
        | error e => simp [hz, h0] at he
        | ok e =>
          simp only [hz, h0, ok_bind, pure_eq_ok, Except.ok.injEq] at he
          have := mapM_ok_length _ _ _ hz
          rw [← he, List.length_map, this, List.length_range, hit.2]
      rw [← hk]
      simp [hQl, hel]
  unfold calculateAllowable at ha
  cases hak : allowablek l with
  | error e => simp [hak] at ha
  | ok ak =>
    simp only [hak, ok_bind, pure_eq_ok, Except.ok.injEq] at ha
    have h3 := mapM_ok_length _ _ _ hak
    have h4 := flatMap_two_length (ak.zip l.stacking.iter).zipIdx (fun p =>
      [(⟨p.2 + 1, .top, p.1.2, p.1.1⟩ : AllowRow), ⟨p.2 + 1, .bot, p.1.2, p.1.1⟩]) (by simp)
    rw [← ha, h4, h1, hit.1]
    simp only [List.length_zipIdx, List.length_zip, h3, List.length_map, h2]
    omega

theorem alignMargins_eq (al : List AllowRow) (st : List Row) (h : al.length ≤ st.length) :
    alignMargins al st = (al.zip st).map fun p =>
      let m := margins p.1.allow p.2.m12
      ({ ply := p.1.ply, position := p.1.position, angle := p.1.angle, margin := m, critical := idxmin m } : MarginRow) := by
  apply List.ext_getElem
  · simp [alignMargins, h]
  · intro i h1 h2
    have hi : i < al.length := by simpa [alignMargins] using h1
    have hi' : i < st.length := by omega
    simp [alignMargins, List.getElem?_eq_getElem hi']

theorem refines_margin (l : Lam) (N : V6) (h : AllOk l.layup) :
    Refines l (sCalculateMargin l N) (calculateMargin l N) := by
  intro c hc
  obtain ⟨h1, h2⟩ := refines_stress l N h c hc
  unfold sCalculateMargin calculateMargin
  cases ha : calculateAllowable l with
  | error e => exact ⟨rfl, hc⟩
  | ok al =>
    simp only [CM.bind, CM.lift, ok_bind]
    rcases hr : sCalculateStress l N c with ⟨r, c'⟩
    rw [hr] at h1 h2
    simp only at h1 h2
    subst h1
    cases hst : calculateStress l N with
    | error e => exact ⟨rfl, h2⟩
    | ok st =>
      refine ⟨?_, h2⟩
      simp only [ok_bind, pure_eq_ok]
      rw [alignMargins_eq al st (margin_tables_length l N al st ha hst).le]

theorem strRun_good (o : StrObj) (ops : List StrOp) (h : AllOk o.lam.lam.layup) (hc : Good o.lam.lam o.lam.cache) :
    o.run ops = strRun o.lam.lam o.loads ops := by
  induction ops generalizing o with
  | nil => rfl
  | cons op ops ih =>
    have key : ∀ {α : Type} (m : CM α) (x : Except PyErr α), Refines o.lam.lam m x →
        (m o.lam.cache).1 = x ∧ StrObj.run { o with lam.cache := (m o.lam.cache).2 } ops =
          strRun o.lam.lam o.loads ops := fun m x hr =>
      ⟨(hr _ hc).1, ih { o with lam.cache := (m o.lam.cache).2 } h (hr _ hc).2⟩
    cases op with
    | lam op =>
      obtain ⟨h1, h2, h3⟩ := step_good o.lam op h hc
      have hs := sameStiff_mutate o.lam.lam op
      have := ih { o with lam := (o.lam.step op).2 } (by simp only [h2, hs.1]; exact h) h3
      simp only [StrObj.run, StrObj.step, strRun, strOut, h1]
      simp only at this
      rw [this, h2]
    | setLoads N =>
      simp only [StrObj.run, StrObj.step, strRun, strOut]
      rw [ih { o with loads := N } h hc]
    | epsilon0 =>
      obtain ⟨k1, k2⟩ := key _ _ (refines_eps0 o.lam.lam o.loads h)
      simp only [StrObj.run, StrObj.step, strRun, strOut, k1, k2]
    | strain =>
      obtain ⟨k1, k2⟩ := key _ _ (refines_strain o.lam.lam o.loads h)
      simp only [StrObj.run, StrObj.step, strRun, strOut, k1, k2]
    | stress =>
      obtain ⟨k1, k2⟩ := key _ _ (refines_stress o.lam.lam o.loads h)
      simp only [StrObj.run, StrObj.step, strRun, strOut, k1, k2]
    | margin =>
      obtain ⟨k1, k2⟩ := key _ _ (refines_margin o.lam.lam o.loads h)
      simp only [StrObj.run, StrObj.step, strRun, strOut, k1, k2]

/-- **C67** in every history of laminate reads, strength calls and load changes (and even of changes to the caller's
lists) on a laminate with readable plies, each call returns what it would return on new objects with the loads and
lists of that moment: no result depends on what was computed before. -/
theorem C67_history_free (l : Lam) (N : V6) (h : Readable l) (ops : List StrOp) :
    (StrObj.run ⟨.fresh l, N⟩ ops) = strRun l N ops :=
  strRun_good ⟨.fresh l, N⟩ ops ((readable_iff l).mp h) (good_empty l)

/-- The operation does not change a list of the caller. -/
def Spec.KeepsLists : StrOp → Prop
  | .lam op => IsRead op
  | _ => True

/-- **C67** in particular setting the loads back gives the earlier tables again. -/
theorem C67_loads_restored (l : Lam) (N N' : V6) (h : Readable l) (ops : List StrOp) (hk : ∀ op ∈ ops, KeepsLists op)
    (op : StrOp) : ∃ out, StrObj.run ⟨.fresh l, N⟩ (.setLoads N' :: ops ++ [.setLoads N, op]) =
      out ++ [.done, strOut l N op] := by
  rw [C67_history_free l N h]
  have key : ∀ (ops : List StrOp) (N' : V6), (∀ op ∈ ops, KeepsLists op) →
      ∃ out, strRun l N' (ops ++ [.setLoads N, op]) = out ++ [.done, strOut l N op] := by
    intro ops
    induction ops with
    | nil =>
      intro N' _
      refine ⟨[], ?_⟩
      simp only [List.nil_append, strRun, strOut]
      cases op <;> rfl
    | cons o ops ih =>
      intro N' hk
      have hk' : ∀ op ∈ ops, KeepsLists op := fun op hop => hk op (by simp [hop])
      have ho := hk o (by simp)
      cases o with
      | lam q =>
        have hm : l.mutate q = l := by
          cases q <;> first | rfl | exact absurd ho id
        obtain ⟨out, hout⟩ := ih N' hk'
        refine ⟨strOut l N' (.lam q) :: out, ?_⟩
        simp only [List.cons_append, strRun, hm, hout]
      | setLoads N'' =>
        obtain ⟨out, hout⟩ := ih N'' hk'
        refine ⟨.done :: out, ?_⟩
        simp only [List.cons_append, strRun, hout, strOut]
      | epsilon0 =>
        obtain ⟨out, hout⟩ := ih N' hk'
        exact ⟨strOut l N' .epsilon0 :: out, by simp only [List.cons_append, strRun, hout]⟩
      | strain =>
        obtain ⟨out, hout⟩ := ih N' hk'
        exact ⟨strOut l N' .strain :: out, by simp only [List.cons_append, strRun, hout]⟩
      | stress =>
        obtain ⟨out, hout⟩ := ih N' hk'
        exact ⟨strOut l N' .stress :: out, by simp only [List.cons_append, strRun, hout]⟩
      | margin =>
        obtain ⟨out, hout⟩ := ih N' hk'
        exact ⟨strOut l N' .margin :: out, by simp only [List.cons_append, strRun, hout]⟩
  obtain ⟨out, hout⟩ := key ops N' hk
  exact ⟨.done :: out, by simp only [List.cons_append, strRun, strOut, hout]⟩

/-- Non-vacuity for C67: a readable stack, and a history in which two stress tables are returned. -/
example : ∃ l S T, Readable l ∧ StrObj.run ⟨.fresh l, fun _ => 1⟩ [.stress, .setLoads (fun _ => 2), .lam .ABD, .stress] =
    [.rows (.ok S), .done, .lam (.m6 l.ABD), .rows (.ok T)] ∧ S.length = 6 ∧ T.length = 6 := by
  obtain ⟨l, hl, hs, hne, hadm, -⟩ := carbon_stack
  have hr : Readable l := fun p hp => by
    obtain ⟨-, Q, hQ, -⟩ := hadm p hp
    exact ⟨Q, hQ⟩
  obtain ⟨e1, h1⟩ := C29_admissible l (fun _ => 1) hs hne hadm
  obtain ⟨e2, h2⟩ := C29_admissible l (fun _ => 2) hs hne hadm
  have hlen : l.layup.length = 3 := by
    obtain ⟨l', hl', hlay⟩ := C10_single [0, 45, 30] carbon
    rw [hl] at hl'
    cases hl'
    simp [hlay]
  refine ⟨l, stressRows l e1, stressRows l e2, hr, ?_, ?_, ?_⟩
  · rw [C67_history_free l _ hr]
    simp only [strRun, strOut, hs.stress_eq, h1, h2, freshOut, ok_map, Lam.mutate]
  · rw [stressRows, flatMap_pair_length, hlen]
  · rw [stressRows, flatMap_pair_length, hlen]

/-! ## C68 (refuted) -/

theorem accLoop_prefix (w : ℝ → ℝ → ℝ) (L : List (ℝ × M3)) (more : List ℝ) (z : ℝ) (pre : List ℝ) (acc : M3) :
    accLoop w (pre ++ zList z (L.map Prod.fst ++ more)) ((L.map Prod.snd).zipIdx pre.length) acc =
      (.ok (), acc + mom w z L) := by
  induction L generalizing z pre acc with
  | nil => simp [accLoop, mom]
  | cons p L ih =>
    obtain ⟨t, Q⟩ := p
    have h0 : pyIdx (pre ++ zList z (t :: (L.map Prod.fst ++ more))) pre.length = .ok z := by
      have := pyIdx_append pre (zList z (t :: (L.map Prod.fst ++ more))) 0
      simpa [zList, pyIdx] using this
    have h1 : pyIdx (pre ++ zList z (t :: (L.map Prod.fst ++ more))) (pre.length + 1) = .ok (z + t) := by
      rw [pyIdx_append]
      simp [zList, pyIdx, zList_head]
    simp only [List.map_cons, List.cons_append, List.zipIdx_cons, accLoop, h0, h1]
    have h2 := ih (z + t) (pre ++ [z]) (acc + w z (z + t) • Q)
    simp only [List.append_assoc, List.singleton_append, List.length_append, List.length_singleton] at h2
    simp only [zList, mom, ← add_assoc]
    exact h2

/-- The stiffness the second call works with: the moments of the plies below the unreadable one, taken at their true
heights. -/
noncomputable def Spec.prefixABD (L P : List (ℝ × Mat)) : M6 :=
  Matrix.fromBlocks (mom wA (bottom L) (P.map layer)) (mom wB (bottom L) (P.map layer))
    (mom wB (bottom L) (P.map layer)) (mom wD (bottom L) (P.map layer))

theorem zPosition_split (l : Lam) (P S : List (ℝ × Mat)) (h : l.layup = P ++ S) :
    l.zPosition = zList (bottom l.layup) ((P.map layer).map Prod.fst ++ S.map fun p => p.2.thickness) := by
  rw [Lam.zPosition, zPositionOf_eq, h]
  simp [bottom, layer, Function.comp_def]

/-- The cache slots hold nothing or the prefix values; `Q` holds the prefix. -/
structure Truncated (l : Lam) (P : List (ℝ × Mat)) (c : Cache) : Prop where
  Q : c.Q = some (P.map plyQ!)
  A : c.A = none ∨ c.A = some (mom wA (bottom l.layup) (P.map layer))
  B : c.B = none ∨ c.B = some (mom wB (bottom l.layup) (P.map layer))
  D : c.D = none ∨ c.D = some (mom wD (bottom l.layup) (P.map layer))

theorem readSlot_trunc {w : ℝ → ℝ → ℝ} {get : Cache → Option M3} {set : Cache → M3 → Cache} {l : Lam} {c : Cache}
    {P S : List (ℝ × Mat)} (h : l.layup = P ++ S) (hQ : c.Q = some (P.map plyQ!)) (hset : ∀ M, (set c M).Q = c.Q)
    (hss : ∀ M, set (set c 0) M = set c M)
    (hget : get c = none ∨ get c = some (mom w (bottom l.layup) (P.map layer))) :
    readSlot w get set l c = (.ok (mom w (bottom l.layup) (P.map layer)), c) ∨
    readSlot w get set l c = (.ok (mom w (bottom l.layup) (P.map layer)),
      set c (mom w (bottom l.layup) (P.map layer))) := by
  unfold readSlot
  rcases hget with hget | hget
  · right
    have hq : readQ l (set c 0) = (.ok (P.map plyQ!), set c 0) := by
      unfold readQ
      rw [hset, hQ]
    have hz := zPosition_split l P S h
    have ha := accLoop_prefix w (P.map layer) (S.map fun p => p.2.thickness) (bottom l.layup) [] 0
    have hm : (P.map layer).map Prod.snd = P.map plyQ! := by simp [layer, Function.comp_def]
    rw [hm, List.nil_append, List.length_nil, zero_add, ← hz] at ha
    rw [hget]
    simp only [hq, ha, hss]
  · left
    rw [hget]

theorem sEpsilon0_trunc {l : Lam} (hs : IsStack l) {P S : List (ℝ × Mat)} (h : l.layup = P ++ S) (N : V6) (c : Cache)
    (hc : Truncated l P c) : (sEpsilon0 l N c).1 = (npInv (prefixABD l.layup P)).map (· *ᵥ N) ∧
      Truncated l P (sEpsilon0 l N c).2 := by
  have hxA := hs.lp_none.1
  have hxD := hs.lp_none.2.2.1
  have hA : ∀ c, Truncated l P c → ∃ c', readA l c = (.ok (mom wA (bottom l.layup) (P.map layer)), c') ∧
      Truncated l P c' := by
    intro c hc
    simp only [readA, hxA]
    rcases readSlot_trunc (w := wA) (get := Cache.A) (set := fun c M => { c with A := some M }) h hc.Q (fun _ => rfl)
      (fun _ => rfl) hc.A with he | he
    · exact ⟨_, he, hc⟩
    · exact ⟨_, he, ⟨hc.Q, Or.inr rfl, hc.B, hc.D⟩⟩
  have hB : ∀ c, Truncated l P c → ∃ c', readB l c = (.ok (mom wB (bottom l.layup) (P.map layer)), c') ∧
      Truncated l P c' := by
    intro c hc
    simp only [readB, hxA]
    rcases readSlot_trunc (w := wB) (get := Cache.B) (set := fun c M => { c with B := some M }) h hc.Q (fun _ => rfl)
      (fun _ => rfl) hc.B with he | he
    · exact ⟨_, he, hc⟩
    · exact ⟨_, he, ⟨hc.Q, hc.A, Or.inr rfl, hc.D⟩⟩
  have hD : ∀ c, Truncated l P c → ∃ c', readD l c = (.ok (mom wD (bottom l.layup) (P.map layer)), c') ∧
      Truncated l P c' := by
    intro c hc
    simp only [readD, hxD]
    rcases readSlot_trunc (w := wD) (get := Cache.D) (set := fun c M => { c with D := some M }) h hc.Q (fun _ => rfl)
      (fun _ => rfl) hc.D with he | he
    · exact ⟨_, he, hc⟩
    · exact ⟨_, he, ⟨hc.Q, hc.A, hc.B, Or.inr rfl⟩⟩
  obtain ⟨c1, e1, h1⟩ := hA c hc
  obtain ⟨c2, e2, h2⟩ := hB c1 h1
  obtain ⟨c3, e3, h3⟩ := hB c2 h2
  obtain ⟨c4, e4, h4⟩ := hD c3 h3
  have hM : readABD l c = (.ok (prefixABD l.layup P), c4) := by
    simp only [readABD, e1, e2, e3, e4, prefixABD]
  simp only [sEpsilon0, CM.bind, hM, CM.lift]
  cases npInv (prefixABD l.layup P) with
  | error e => exact ⟨rfl, h4⟩
  | ok M => exact ⟨rfl, h4⟩

theorem zip_range_le {α β : Type} (f : ℕ → α) (g : ℕ → β) (k n : ℕ) (h : k ≤ n) :
    ((List.range k).map f).zip ((List.range n).map g) = (List.range k).map fun i => (f i, g i) := by
  apply List.ext_getElem
  · simp [h]
  · intro i h1 h2
    simp

theorem zip_range_ge {α β : Type} (f : ℕ → α) (g : ℕ → β) (k n : ℕ) (h : k ≤ n) :
    ((List.range n).map f).zip ((List.range k).map g) = (List.range k).map fun i => (f i, g i) := by
  apply List.ext_getElem
  · simp [h]
  · intro i h1 h2
    simp

theorem fillRows_le (l : Lam) (k : ℕ) (hk : k ≤ l.layup.length) (xb xt mb mt : ℕ → V3) (th : ℕ → ℝ) (n : ℕ) (hn : k ≤ n) :
    fillRows l.zPosition ((List.range k).map fun i => (xb i, xt i))
      ((List.range k).map fun i => (mb i, mt i)) ((List.range n).map th) =
    .ok ((List.range k).flatMap fun i =>
      [(⟨i + 1, l.zAt i, .bot, th i, xb i, mb i⟩ : Row), ⟨i + 1, l.zAt (i + 1), .top, th i, xt i, mt i⟩]) := by
  simp only [fillRows, zip_range_le _ th k n hn, List.zip_map', zipIdx_range_map]
  rw [mapM_eq_ok _ (fun p =>
    [(⟨p.2 + 1, l.zAt p.2, .bot, p.1.2.2, p.1.1.1, p.1.2.1.1⟩ : Row),
     ⟨p.2 + 1, l.zAt (p.2 + 1), .top, p.1.2.2, p.1.1.2, p.1.2.1.2⟩])]
  · simp only [ok_bind, pure_eq_ok, List.map_map, Function.comp_def, List.flatMap_def]
  · intro p hp
    obtain ⟨i, hi, rfl⟩ := List.mem_map.mp hp
    have hi' : i < k := List.mem_range.mp hi
    simp [pyIdx_zAt l i (by omega), pyIdx_zAt l (i + 1) (by omega)]

/-- The first `k` plies of the stress table for the mid-plane response `e`. -/
noncomputable def Spec.firstStressRows (l : Lam) (k : ℕ) (e : V6) : List Row :=
  (List.range k).flatMap fun i =>
    [⟨i + 1, l.zAt i, .bot, l.angleAt i, l.QAt i *ᵥ strainAt e (l.zAt i),
      Treal (l.angleAt i) *ᵥ (l.QAt i *ᵥ strainAt e (l.zAt i))⟩,
     ⟨i + 1, l.zAt (i + 1), .top, l.angleAt i, l.QAt i *ᵥ strainAt e (l.zAt (i + 1)),
      Treal (l.angleAt i) *ᵥ (l.QAt i *ᵥ strainAt e (l.zAt (i + 1)))⟩]

theorem sStressk_trunc {l : Lam} (hs : IsStack l) {P S : List (ℝ × Mat)} (h : l.layup = P ++ S) (N : V6) (c : Cache)
    (hc : Truncated l P c) : (sStressk l N c).1 = ((npInv (prefixABD l.layup P)).map (· *ᵥ N)).map (fun e =>
      (List.range P.length).map fun i => (l.QAt i *ᵥ strainAt e (l.zAt i), l.QAt i *ᵥ strainAt e (l.zAt (i + 1)))) ∧
      Truncated l P (sStressk l N c).2 := by
  have hq : readQ l c = (.ok (P.map plyQ!), c) := by
    unfold readQ
    rw [hc.Q]
  obtain ⟨h1, h2⟩ := sEpsilon0_trunc hs h N c hc
  simp only [sStressk, sEpsilonk, CM.bind, hq, CM.lift, hs.zPairs_eq]
  rcases hr : sEpsilon0 l N c with ⟨r, c'⟩
  rw [hr] at h1 h2
  simp only at h1 h2
  rw [← h1]
  have hle : P.length ≤ l.layup.length := by rw [h]; simp
  cases r with
  | error e => exact ⟨rfl, h2⟩
  | ok e =>
    refine ⟨?_, h2⟩
    simp only [Except.map, List.map_map, Function.comp_def]
    have hP : P.map plyQ! = (List.range P.length).map l.QAt := by
      apply List.ext_getElem
      · simp
      · intro i h1 h2
        have hi : i < P.length := by simpa using h2
        simp only [List.getElem_map, List.getElem_range]
        rw [Lam.QAt_eq l i (by omega)]
        congr 1
        simp only [h]
        rw [List.getElem_append_left hi]
    rw [hP, zip_range_le _ _ _ _ hle, List.map_map]
    rfl

theorem sStress_trunc {l : Lam} (hs : IsStack l) {P S : List (ℝ × Mat)} (h : l.layup = P ++ S) (N : V6) (c : Cache)
    (hc : Truncated l P c) : (sCalculateStress l N c).1 =
      ((npInv (prefixABD l.layup P)).map (· *ᵥ N)).map (firstStressRows l P.length) ∧
      Truncated l P (sCalculateStress l N c).2 := by
  obtain ⟨h1, h2⟩ := sStressk_trunc hs h N c hc
  simp only [sCalculateStress, sStressk123, CM.bind, CM.lift, hs.toAngles_eq]
  rcases hr : sStressk l N c with ⟨r, c'⟩
  rw [hr] at h1 h2
  simp only at h1 h2
  obtain ⟨h3, h4⟩ := sStressk_trunc hs h N c' h2
  have hle : P.length ≤ l.layup.length := by rw [h]; simp
  cases hi : npInv (prefixABD l.layup P) with
  | error e =>
    rw [hi] at h1
    simp only [Except.map] at h1
    rw [h1]
    exact ⟨rfl, h2⟩
  | ok M =>
    rw [hi] at h1 h3
    simp only [Except.map] at h1 h3
    rw [h1]
    rcases hr' : sStressk l N c' with ⟨r', c''⟩
    rw [hr'] at h3 h4
    simp only at h3 h4
    subst h3
    simp only [hr']
    refine ⟨?_, h4⟩
    simp only [Except.map]
    rw [zip_range_ge _ _ _ _ hle, List.map_map]
    exact fillRows_le l _ hle _ _ _ _ _ _ hle

theorem prefix_regular (L P : List (ℝ × Mat)) (hne : P ≠ []) (h : ∀ p ∈ P, AdmissiblePly p) :
    (prefixABD L P).det ≠ 0 := by
  have hL : ∀ p ∈ P.map layer, 0 < p.1 ∧ IsPD p.2 := by
    intro p hp
    obtain ⟨q, hq, rfl⟩ := List.mem_map.mp hp
    exact layer_pd (h q hq)
  intro hdet
  obtain ⟨v, hv, hv0⟩ := Matrix.exists_mulVec_eq_zero_iff.mpr hdet
  have hsym : ∀ (M : List (ℝ × M3)) (z : ℝ), (∀ p ∈ M, 0 < p.1 ∧ IsPD p.2) → (mom wB z M).IsSymm := by
    intro M
    induction M with
    | nil => intro z _; simp [mom]
    | cons p M ih =>
      intro z hM
      obtain ⟨t, Q⟩ := p
      have h1 := (hM (t, Q) (by simp)).2.1
      exact (h1.smul _).add (ih _ fun q hq => hM q (by simp [hq]))
  have hq := fromBlocks_quad (mom wA (bottom L) (P.map layer)) (mom wB (bottom L) (P.map layer))
    (mom wD (bottom L) (P.map layer)) (hsym _ _ hL) v
  rw [prefixABD] at hv0
  rw [hv0, dotProduct_zero] at hq
  have hpos := stackEnergy_pos (bottom L) (P.map layer) (by simpa using hne) hL (v ∘ Sum.inl) (v ∘ Sum.inr) (by
    by_contra hcon
    push Not at hcon
    apply hv
    ext i
    cases i with
    | inl i => exact congrFun hcon.1 i
    | inr i => exact congrFun hcon.2 i)
  rw [stackEnergy, ← hq] at hpos
  exact lt_irrefl _ hpos

/-- **C68** what happens for *every* stack whose lowest unreadable ply lies above at least one admissible ply: the first
`calculate_stress` raises `ZeroDivisionError`; the second, and every later one, silently returns a table which stops
below the unreadable ply and distributes the whole load over the plies below it. -/
theorem C68_truncated_table (l : Lam) (hs : IsStack l) (P S : List (ℝ × Mat)) (p : ℝ × Mat)
    (h : l.layup = P ++ p :: S) (hP : ∀ q ∈ P, AdmissiblePly q) (hne : P ≠ []) (hp : ¬ ∃ Q, p.2.Q0 = .ok Q) (N : V6) (n : ℕ) :
    ∃ e, prefixABD l.layup P *ᵥ e = N ∧ StrObj.run ⟨.fresh l, N⟩ (.stress :: List.replicate n .stress) =
      .rows (.error .zeroDivisionError) :: List.replicate n (.rows (.ok (firstStressRows l P.length e))) := by
  have hdet := prefix_regular l.layup P hne hP
  have hinv : npInv (prefixABD l.layup P) = .ok (prefixABD l.layup P)⁻¹ := by simp [npInv, hdet]
  refine ⟨(prefixABD l.layup P)⁻¹ *ᵥ N, ?_, ?_⟩
  · rw [Matrix.mulVec_mulVec, Matrix.mul_nonsing_inv _ hdet.isUnit, Matrix.one_mulVec]
  have hall : AllOk P := fun q hq => by
    rw [plyQ_ok_iff]
    obtain ⟨-, Q, hQ, -⟩ := hP q hq
    exact ⟨Q, hQ⟩
  have herr : plyQ p = .error .zeroDivisionError := by
    cases hq : plyQ p with
    | error e => rw [plyQ_err hq]
    | ok Q => exact absurd ((plyQ_ok_iff p).mp ⟨Q, hq⟩) hp
  have hf : fillQ l.layup [] = (.error .zeroDivisionError, P.map plyQ!) := by
    rw [h, fillQ_err P S p hall _ herr]; simp
  have hfirst : sCalculateStress l N .empty = (.error .zeroDivisionError, { Cache.empty with Q := some (P.map plyQ!) }) := by
    simp [sCalculateStress, sStressk, CM.bind, readQ, Cache.empty, hf]
  have hrest : ∀ (n : ℕ) (c : Cache), Truncated l P c → StrObj.run ⟨⟨l, c⟩, N⟩ (List.replicate n .stress) =
      List.replicate n (.rows (.ok (firstStressRows l P.length ((prefixABD l.layup P)⁻¹ *ᵥ N)))) := by
    intro n
    induction n with
    | zero => intro c _; rfl
    | succ n ih =>
      intro c hc
      obtain ⟨h1, h2⟩ := sStress_trunc hs h N c hc
      rw [hinv] at h1
      simp only [List.replicate_succ, StrObj.run, StrObj.step]
      rw [ih _ h2, h1]
      rfl
  simp only [StrObj.run, StrObj.step, LamObj.fresh, hfirst]
  rw [hrest n _ ⟨rfl, Or.inl rfl, Or.inl rfl, Or.inl rfl⟩]

/-- **C68** the table has `2|P|` rows although the laminate has more than `|P|` plies. -/
theorem C68_rows_missing (l : Lam) (P S : List (ℝ × Mat)) (p : ℝ × Mat) (h : l.layup = P ++ p :: S) (e : V6) :
    (firstStressRows l P.length e).length = 2 * P.length ∧ 2 * P.length < 2 * l.layup.length := by
  refine ⟨flatMap_pair_length _ _ _, ?_⟩
  rw [h]
  simp

/-- The margin table of the later calls: all plies, with margins for the first `k` and NaN for the others. -/
noncomputable def Spec.firstMarginRows (l : Lam) (k : ℕ) (e : V6) : List MarginRow :=
  (List.range l.layup.length).flatMap fun i =>
    let m (z : ℝ) : Fin 5 → PyFloat := if i < k then margins (l.allowAt i) (Treal (l.angleAt i) *ᵥ (l.QAt i *ᵥ strainAt e z)) else fun _ => .nan
    [⟨i + 1, .top, l.angleAt i, m (l.zAt i), idxmin (m (l.zAt i))⟩, ⟨i + 1, .bot, l.angleAt i, m (l.zAt (i + 1)), idxmin (m (l.zAt (i + 1)))⟩]

theorem pair_get {β : Type} (n : ℕ) (f g : ℕ → β) (i : ℕ) :
    ((List.range n).flatMap fun i => [f i, g i])[i]? = if i < 2 * n then some (if i % 2 = 0 then f (i / 2) else g (i / 2)) else none := by
  induction n with
  | zero => simp
  | succ n ih =>
    have hl : ((List.range n).flatMap fun i => [f i, g i]).length = 2 * n := flatMap_two_length _ _ (by simp) |>.trans (by simp)
    rw [List.range_succ, List.flatMap_append, List.getElem?_append, hl, ih]
    by_cases h : i < 2 * n
    · have h' : i < 2 * (n + 1) := by omega
      simp only [h, h', if_true]
    · rw [if_neg h]
      by_cases h0 : i = 2 * n
      · subst h0
        simp
      · by_cases h1 : i = 2 * n + 1
        · subst h1
          have a1 : 2 * n + 1 - 2 * n = 1 := by omega
          have a2 : (2 * n + 1) % 2 = 1 := by omega
          have a3 : (2 * n + 1) / 2 = n := by omega
          simp [a1, a2, a3]
          omega
        · rw [if_neg (by omega)]
          simp
          omega

/-- **C68** the same for `calculate_maxstressmargin`: after one exception it returns, on every later call, a table of the full length in
which the plies from the unreadable one on have NaN margins, and the margins of the others are computed as if they carried the whole load. -/
theorem C68_margin_nan (l : Lam) (hs : IsStack l) (P S : List (ℝ × Mat)) (p : ℝ × Mat)
    (h : l.layup = P ++ p :: S) (hP : ∀ q ∈ P, AdmissiblePly q) (hne : P ≠ []) (hp : ¬ ∃ Q, p.2.Q0 = .ok Q) (ha : HasAllowables l)
    (N : V6) (n : ℕ) :
    ∃ e, prefixABD l.layup P *ᵥ e = N ∧ StrObj.run ⟨.fresh l, N⟩ (.margin :: List.replicate n .margin) =
      .margins (.error .zeroDivisionError) :: List.replicate n (.margins (.ok (firstMarginRows l P.length e))) := by
  have hdet := prefix_regular l.layup P hne hP
  have hinv : npInv (prefixABD l.layup P) = .ok (prefixABD l.layup P)⁻¹ := by simp [npInv, hdet]
  refine ⟨(prefixABD l.layup P)⁻¹ *ᵥ N, ?_, ?_⟩
  · rw [Matrix.mulVec_mulVec, Matrix.mul_nonsing_inv _ hdet.isUnit, Matrix.one_mulVec]
  have hall : AllOk P := fun q hq => by
    rw [plyQ_ok_iff]
    obtain ⟨-, Q, hQ, -⟩ := hP q hq
    exact ⟨Q, hQ⟩
  have herr : plyQ p = .error .zeroDivisionError := by
    cases hq : plyQ p with
    | error e => rw [plyQ_err hq]
    | ok Q => exact absurd ((plyQ_ok_iff p).mp ⟨Q, hq⟩) hp
  have hf : fillQ l.layup [] = (.error .zeroDivisionError, P.map plyQ!) := by
    rw [h, fillQ_err P S p hall _ herr]; simp
  have hal : calculateAllowable l = .ok ((List.range l.layup.length).flatMap fun i =>
      [(⟨i + 1, .top, l.angleAt i, l.allowAt i⟩ : AllowRow), ⟨i + 1, .bot, l.angleAt i, l.allowAt i⟩]) := by
    simp only [calculateAllowable, allowablek_ok l ha, hs.iter_eq, ok_bind, pure_eq_ok, List.zip_map', zipIdx_range_map, List.flatMap_map]
  have hfirst : sCalculateMargin l N .empty = (.error .zeroDivisionError, { Cache.empty with Q := some (P.map plyQ!) }) := by
    simp [sCalculateMargin, sCalculateStress, sStressk, CM.bind, CM.lift, hal, readQ, Cache.empty, hf]
  have hle : P.length ≤ l.layup.length := by rw [h]; simp
  have hrows : ∀ e, alignMargins ((List.range l.layup.length).flatMap fun i =>
      [(⟨i + 1, .top, l.angleAt i, l.allowAt i⟩ : AllowRow), ⟨i + 1, .bot, l.angleAt i, l.allowAt i⟩]) (firstStressRows l P.length e) =
      firstMarginRows l P.length e := by
    intro e
    apply List.ext_getElem?
    intro i
    rw [alignMargins, List.getElem?_map, List.getElem?_zipIdx, pair_get, firstMarginRows, pair_get, firstStressRows]
    by_cases hi : i < 2 * l.layup.length
    · rw [if_pos hi, if_pos hi]
      simp only [Option.map_some, pair_get, Nat.zero_add]
      by_cases hk : i < 2 * P.length
      · have hk' : i / 2 < P.length := by omega
        rcases Nat.mod_two_eq_zero_or_one i with h2 | h2 <;> simp [hk, hk', h2]
      · have hk' : ¬ i / 2 < P.length := by omega
        rcases Nat.mod_two_eq_zero_or_one i with h2 | h2 <;> simp [hk, hk', h2]
    · rw [if_neg hi, if_neg hi]
      rfl
  have hrest : ∀ (n : ℕ) (c : Cache), Truncated l P c → StrObj.run ⟨⟨l, c⟩, N⟩ (List.replicate n .margin) =
      List.replicate n (.margins (.ok (firstMarginRows l P.length ((prefixABD l.layup P)⁻¹ *ᵥ N)))) := by
    intro n
    induction n with
    | zero => intro c _; rfl
    | succ n ih =>
      intro c hc
      obtain ⟨h1, h2⟩ := sStress_trunc hs h N c hc
      rw [hinv] at h1
      have hm : sCalculateMargin l N c = (.ok (firstMarginRows l P.length ((prefixABD l.layup P)⁻¹ *ᵥ N)), (sCalculateStress l N c).2) := by
        rcases hr : sCalculateStress l N c with ⟨r, c'⟩
        rw [hr] at h1
        simp only [Except.map] at h1
        subst h1
        simp only [sCalculateMargin, CM.bind, CM.lift, hal, hr, hrows]
      simp only [List.replicate_succ, StrObj.run, StrObj.step, hm]
      rw [ih _ h2]
  simp only [StrObj.run, StrObj.step, LamObj.fresh, hfirst]
  rw [hrest n _ ⟨rfl, Or.inl rfl, Or.inl rfl, Or.inl rfl⟩]

/-- **C68** is false: a laminate whose first stress table raises and whose second is returned. -/
theorem C68_failed_call_keeps_failing_false :
    ¬ ∀ (l : Lam) (N : V6) (x : PyErr), IsStack l → StrObj.run ⟨.fresh l, N⟩ [.stress] = [.rows (.error x)] →
      ∃ y, StrObj.run ⟨.fresh l, N⟩ [.stress, .stress] = [.rows (.error x), .rows (.error y)] := by
  intro H
  obtain ⟨l, hl, hlay⟩ : ∃ l, Lam.init (.angles [0, 45]) (.list [carbon, degenerate]) = .ok l ∧
      l.layup = [(0, carbon)] ++ (45, degenerate) :: [] := ⟨_, rfl, rfl⟩
  have hs : IsStack l := ⟨_, _, hl⟩
  have hp : ¬ ∃ Q, degenerate.Q0 = .ok Q := by
    rw [degenerate_Q0]
    rintro ⟨Q, hQ⟩
    cases hQ
  have hadm : ∀ q ∈ [((0 : ℝ), carbon)], AdmissiblePly q := by
    intro q hq
    rw [List.mem_singleton] at hq
    subst hq
    exact carbon_admissible 0
  obtain ⟨e, -, h1⟩ := C68_truncated_table l hs [(0, carbon)] [] (45, degenerate) hlay hadm (by simp) hp (fun _ => 1) 0
  obtain ⟨e', -, h2⟩ := C68_truncated_table l hs [(0, carbon)] [] (45, degenerate) hlay hadm (by simp) hp (fun _ => 1) 1
  obtain ⟨y, h3⟩ := H l (fun _ => 1) _ hs h1
  simp only [List.replicate_succ, List.replicate_zero] at h2
  rw [h2] at h3
  simp at h3

/-- Non-vacuity of `C68_margin_nan`: an orthotropic ply that cannot be read above a carbon ply; the later tables have four rows, two of
them without margins. -/
example : ∃ l R, IsStack l ∧ StrObj.run ⟨.fresh l, fun _ => 1⟩ [.margin, .margin] = [.margins (.error .zeroDivisionError), .margins (.ok R)] ∧
    R.length = 4 ∧ ∃ r, R[3]? = some r ∧ r.margin 0 = .nan := by
  obtain ⟨l, hl, hlay⟩ : ∃ l, Lam.init (.angles [0, 45]) (.list [carbon, degenerate]) = .ok l ∧
      l.layup = [(0, carbon)] ++ (45, degenerate) :: [] := ⟨_, rfl, rfl⟩
  have hs : IsStack l := ⟨_, _, hl⟩
  have hp : ¬ ∃ Q, degenerate.Q0 = .ok Q := by
    rw [degenerate_Q0]
    rintro ⟨Q, hQ⟩
    cases hQ
  have hadm : ∀ q ∈ [((0 : ℝ), carbon)], AdmissiblePly q := by
    intro q hq
    rw [List.mem_singleton] at hq
    subst hq
    exact carbon_admissible 0
  have ha : HasAllowables l := by
    intro q hq
    rw [hlay] at hq
    simp only [List.cons_append, List.nil_append, List.mem_cons, List.not_mem_nil, or_false] at hq
    rcases hq with rfl | rfl <;> exact ⟨_, rfl⟩
  obtain ⟨e, -, h1⟩ := C68_margin_nan l hs [(0, carbon)] [] (45, degenerate) hlay hadm (by simp) hp ha (fun _ => 1) 1
  have hlen : l.layup.length = 2 := by simp [hlay]
  refine ⟨l, _, hs, h1, ?_, ?_⟩
  · rw [firstMarginRows, flatMap_two_length _ _ (by simp), List.length_range, hlen]
  · rw [firstMarginRows, hlen]
    exact ⟨_, rfl, rfl⟩

/-! ## C69 (refuted): the caller's list is read again by the strength methods -/

/-- The laminate after the caller replaced the contents of the stacking list. -/
theorem mutated_fields {l : Lam} (hs : IsStack l) (new : List ℝ) :
    (l.mutate (.setStacking new)).stacking = .angles new ∧ (l.mutate (.setStacking new)).layup = l.layup := by
  have h := hs.fields.1
  simp only [Lam.mutate, h]
  exact ⟨trivial, trivial⟩

theorem mutated_eps0 {l : Lam} (new : List ℝ) (N : V6) :
    epsilon0 (l.mutate (.setStacking new)) N = epsilon0 l N := by
  have := (sameStiff_mutate l (.setStacking new)).getters.2.2.2.2.2.2
  simp only [epsilon0, this]

theorem zPairs_le (l : Lam) (k : ℕ) (hk : k ≤ l.layup.length) :
    zPairs l.zPosition k = .ok ((List.range k).map fun i => (l.zAt i, l.zAt (i + 1))) := by
  rw [zPairs]
  apply mapM_eq_ok
  intro i hi
  have hi' : i < k := List.mem_range.mp hi
  simp [pyIdx_zAt l i (by omega), pyIdx_zAt l (i + 1) (by omega)]

/-- The stress table after the caller's list became `new`. -/
noncomputable def Spec.mutatedStressRows (l : Lam) (new : List ℝ) (e : V6) : List Row :=
  (List.range new.length).flatMap fun i =>
    [⟨i + 1, l.zAt i, .bot, new.getD i 0, l.QAt i *ᵥ strainAt e (l.zAt i),
      Treal (new.getD i 0) *ᵥ (l.QAt i *ᵥ strainAt e (l.zAt i))⟩,
     ⟨i + 1, l.zAt (i + 1), .top, new.getD i 0, l.QAt i *ᵥ strainAt e (l.zAt (i + 1)),
      Treal (new.getD i 0) *ᵥ (l.QAt i *ᵥ strainAt e (l.zAt (i + 1)))⟩]

/-- **C69** what happens when the caller's list is changed (to one of at most the same length) after construction: the
plate-axis stresses of the listed plies stay, but angles and material-axis stresses are those of the *new* angles, and
plies beyond the new length vanish from the table. -/
theorem C69_mutated_stress (l : Lam) (hs : IsStack l) (h : Readable l) (N e : V6) (he : epsilon0 l N = .ok e) (new : List ℝ)
    (hlen : new.length ≤ l.layup.length) :
    StrObj.run ⟨.fresh l, N⟩ [.stress, .lam (.setStacking new), .stress] =
      [.rows (.ok (stressRows l e)), .lam .done, .rows (.ok (mutatedStressRows l new e))] := by
  rw [C67_history_free l N h]
  obtain ⟨f1, f2⟩ := mutated_fields hs new
  have hall := (readable_iff l).mp h
  have hz : (l.mutate (.setStacking new)).zPosition = l.zPosition := by simp only [Lam.zPosition, f2]
  have hQ : (l.mutate (.setStacking new)).Qlayup = .ok (l.layup.map plyQ!) := by
    rw [Lam.Qlayup_ok _ (by rw [f2]; exact hall), f2]
  have hQr : l.layup.map plyQ! = (List.range l.layup.length).map l.QAt := by
    conv_lhs => rw [list_eq_range_map (l.layup.map plyQ!) 0]
    simp [Lam.QAt]
  have hnew : new = (List.range new.length).map fun i => new.getD i 0 := list_eq_range_map new 0
  have hek : epsilonk (l.mutate (.setStacking new)) N =
      .ok ((List.range new.length).map fun i => (strainAt e (l.zAt i), strainAt e (l.zAt (i + 1)))) := by
    simp only [epsilonk, hz, f1, Stacking.len, zPairs_le l _ hlen, mutated_eps0, he, ok_bind, pure_eq_ok, List.map_map]
    rfl
  have hsk : stressk (l.mutate (.setStacking new)) N =
      .ok ((List.range new.length).map fun i => (l.QAt i *ᵥ strainAt e (l.zAt i), l.QAt i *ᵥ strainAt e (l.zAt (i + 1)))) := by
    simp only [stressk, hQ, hek, ok_bind, pure_eq_ok]
    rw [hQr, zip_range_ge _ _ _ _ hlen, List.map_map]
    rfl
  have hst : calculateStress (l.mutate (.setStacking new)) N = .ok (mutatedStressRows l new e) := by
    simp only [calculateStress, stressk123, hsk, f1, Stacking.toAngles, ok_bind, pure_eq_ok, hz]
    conv_lhs => rw [hnew]
    simp only [List.length_map, List.length_range, List.zip_map', List.map_map]
    exact fillRows_le l _ hlen _ _ _ _ _ _ le_rfl
  simp only [strRun, strOut, freshOut, hs.stress_eq, he, hst, ok_map]

/-- **C69** if the caller's list grew, every table raises `IndexError`. -/
theorem C69_longer_raises (l : Lam) (hs : IsStack l) (h : Readable l) (N : V6) (new : List ℝ)
    (hlen : l.layup.length < new.length) :
    StrObj.run ⟨.fresh l, N⟩ [.lam (.setStacking new), .strain, .stress] =
      [.lam .done, .rows (.error .indexError), .rows (.error .indexError)] := by
  rw [C67_history_free l N h]
  obtain ⟨f1, f2⟩ := mutated_fields hs new
  have hall := (readable_iff l).mp h
  have hz : (l.mutate (.setStacking new)).zPosition = l.zPosition := by simp only [Lam.zPosition, f2]
  have hQ : (l.mutate (.setStacking new)).Qlayup = .ok (l.layup.map plyQ!) := by
    rw [Lam.Qlayup_ok _ (by rw [f2]; exact hall), f2]
  have hzp : zPairs l.zPosition new.length = .error .indexError := by
    have hsplit : List.range new.length = List.range l.layup.length ++
        l.layup.length :: (List.range (new.length - l.layup.length - 1)).map (l.layup.length + 1 + ·) := by
      rw [show new.length = l.layup.length + (1 + (new.length - l.layup.length - 1)) by omega, List.range_add,
        List.range_add]
      simp [Function.comp_def, add_assoc]
    have h1 := zPairs_le l l.layup.length le_rfl
    rw [zPairs] at h1 ⊢
    rw [hsplit, List.mapM_append, h1, ok_bind, List.mapM_cons, pyIdx_zAt l _ le_rfl, ok_bind,
      pyIdx_of_ge _ _ (by rw [zPosition_length]), error_bind, error_bind, error_bind]
  have hek : epsilonk (l.mutate (.setStacking new)) N = .error .indexError := by
    simp only [epsilonk, hz, f1, Stacking.len, hzp, error_bind]
  have hstrain : calculateStrain (l.mutate (.setStacking new)) N = .error .indexError := by
    simp only [calculateStrain, hek, error_bind]
  have hstress : calculateStress (l.mutate (.setStacking new)) N = .error .indexError := by
    simp only [calculateStress, stressk, hQ, hek, ok_bind, error_bind]
  simp only [strRun, strOut, freshOut, hstrain, hstress]

/-- **C69** is false of the code: replacing an angle in the caller's list after construction changes the material-axis
stresses of the next table, although the plate-axis stresses stay. -/
theorem C69_list_change_false : ¬ ∀ (l : Lam) (N : V6) (new : List ℝ) (S T : List Row), IsStack l → Readable l →
    new.length = l.layup.length →
    StrObj.run ⟨.fresh l, N⟩ [.stress, .lam (.setStacking new), .stress] = [.rows (.ok S), .lam .done, .rows (.ok T)] →
    S.map (·.m12) = T.map (·.m12) := by
  intro H
  obtain ⟨l, hl, hlay⟩ := C10_single [0] carbon
  have hs : IsStack l := ⟨_, _, hl⟩
  have hadm : ∀ p ∈ l.layup, AdmissiblePly p := by
    intro p hp
    rw [hlay] at hp
    obtain ⟨a, -, rfl⟩ := List.mem_map.mp hp
    exact carbon_admissible a
  have hr : Readable l := fun p hp => by
    obtain ⟨-, Q, hQ, -⟩ := hadm p hp
    exact ⟨Q, hQ⟩
  obtain ⟨A, D, M, -, -, hM, -, -, -, hdet⟩ := C15_posDef l hs (by simp [hlay]) hadm
  set e : V6 := Pi.single (.inl 0) 1 with he
  obtain ⟨e', he', -, hu⟩ := C29_epsilon0_unique l (M *ᵥ e) M hM hdet
  have hee := hu e rfl
  subst hee
  have hlen : l.layup.length = 1 := by simp [hlay]
  have hrun := C69_mutated_stress l hs hr (M *ᵥ e) e he' [90] (by simp [hlen])
  have hmap := H l (M *ᵥ e) [90] _ _ hs hr (by simp [hlen]) hrun
  have h0 := congrArg (fun L => L[0]?) hmap
  have hQ : l.QAt 0 = plyQ! (0, carbon) := by simp [Lam.QAt, hlay]
  have hang : l.angleAt 0 = 0 := by simp [Lam.angleAt, hlay]
  simp only [stressRows, mutatedStressRows, hlen, List.length_singleton, List.range_one, List.flatMap_cons,
    List.flatMap_nil, List.append_nil, List.map_cons, List.getElem?_cons_zero, Option.some.injEq, hang,
    List.getD_cons_zero] at h0
  have hst : strainAt e (l.zAt 0) = ![1, 0, 0] := by
    ext i
    fin_cases i <;> simp [strainAt, membrane, curvature, he]
  have hpl : plyQ! (0, carbon) = !![132000 / (1 - 1/4 * (1/4 * (10300 / 132000))), 1/4 * 10300 / (1 - 1/4 * (1/4 * (10300 / 132000))), 0;
      1/4 * 10300 / (1 - 1/4 * (1/4 * (10300 / 132000))), 10300 / (1 - 1/4 * (1/4 * (10300 / 132000))), 0; 0, 0, 5500] := by
    have h1 := plyQ_of_ok ((plyQ_ok_iff (0, carbon)).mpr (hr (0, carbon) (by simp [hlay])))
    rw [C12_zero] at h1
    have h2 : carbon.Q0 = _ := OrthoMat.Q0_of_ne ⟨132000, 10300, 1/4, 5500, 0.127, 1500, 1200, 50, 200, 70⟩
      (by norm_num [OrthoMat.v21])
    rw [h2] at h1
    exact (Except.ok.inj h1).symm
  rw [hQ, hpl, hst] at h0
  have h00 := congrFun h0 0
  have c0 : cosd 0 = 1 := by simp [cosd]
  have s0 : sind 0 = 0 := by simp [sind]
  have c90 : cosd 90 = 0 := by
    rw [cosd, show (90 : ℝ) * Real.pi / 180 = Real.pi / 2 by ring, Real.cos_pi_div_two]
  have s90 : sind 90 = 1 := by
    rw [sind, show (90 : ℝ) * Real.pi / 180 = Real.pi / 2 by ring, Real.sin_pi_div_two]
  simp [Treal, Matrix.mulVec, dotProduct, Fin.sum_univ_three, c0, s0, c90, s90] at h00
  norm_num at h00

end Composipy
