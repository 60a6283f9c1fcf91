import Verif.Model.PcompAny
import Verif.Props.Pcomp

/-!
# C136: dictionaries and sets as arguments of `build_pcomp`
-/

namespace Composipy
open Spec

namespace Spec

/-- The same argument for `Verif.Model.Pcomp`. -/
def toCont : PlyArg → ContArg
  | .scalar t => .scalar t
  | .seq ts => .cont (.list ts)

/-- The same argument for `Verif.Model.Pcomp`. -/
def toContSout : SoutArg → ContSout
  | .text t => .text t
  | .seq ts => .cont (.list ts)
  | .noLen => .noLen

def IsDict : PyCont → Prop
  | .dict _ _ _ => True
  | _ => False

/-- The object holds the datum `f` of every ply at the place of the ply. -/
def HoldsEach (c : PyCont) (f : PlyRec → Text) (ps : List PlyRec) : Prop :=
  match c with
  | .list ts => ts = ps.map f
  | .dict keys val _ => ∀ (i : ℕ) (h : i < ps.length), i ∈ keys ∧ val i = f ps[i]
  | .set _ => ps = []

/-- The argument gives the datum `f` of every ply: an object that holds it and has no other entries, or one value for all. -/
def Gives (a : ContArg) (f : PlyRec → Text) (ps : List PlyRec) : Prop :=
  match a with
  | .cont c => c.len = ps.length ∧ HoldsEach c f ps
  | .scalar t => ∀ p ∈ ps, f p = t

/-- The output requests asked for by the argument. -/
def Asks (a : ContSout) (ps : List PlyRec) : Prop :=
  match a with
  | .text t => Requested (.text t) ps.length (ps.map PlyRec.out)
  | .cont c => c.len = ps.length ∧ HoldsEach c PlyRec.out ps
  | .noLen => False

/-- The exception of the first entry that raises. -/
def firstErr : List (Except PyErr Text) → Option PyErr
  | [] => none
  | .error e :: _ => some e
  | .ok _ :: l => firstErr l

end Spec

theorem contLoop_congr {g h : ℕ → Except PyErr Text} (is : List ℕ) (hi : ∀ i ∈ is, g i = h i ∧ g (i + 1) = h (i + 1)) (body : Text) :
    contLoop g is body = contLoop h is body := by
  induction is generalizing body with
  | nil => rfl
  | cons i is ih =>
    have h1 : contStep g body i = contStep h body i := by
      simp only [contStep, hi i (by simp)]
    simp only [contLoop, h1]
    cases contStep h body i with
    | error e => rfl
    | ok b => exact ih (fun j hj => hi j (by simp [hj])) b

theorem pcompLoop_contLoop (M T Q O : List Text) (is : List ℕ) (body : Text) :
    pcompLoop M T Q O is body = contLoop (plyText M T Q O) is body := by
  induction is generalizing body with
  | nil => rfl
  | cons i is ih =>
    have h1 : pcompStep M T Q O body i = contStep (plyText M T Q O) body i := rfl
    simp only [contLoop, pcompLoop, h1]
    cases contStep (plyText M T Q O) body i with
    | error e => rfl
    | ok b => exact ih b

/-- **C136** for lists, texts and single values this is the function of C63 and C64. -/
theorem C136_lists (sequence : List Text) (midi ti : PlyArg) (pid : PidArg) (z0 : Text) (sout : SoutArg) :
    buildPcompAny (.list sequence) (toCont midi) (toCont ti) pid z0 (toContSout sout) = buildPcomp sequence midi ti pid z0 sout := by
  have h1 : ∀ (a : PlyArg) n, convertCont (toCont a) n = PyCont.list <$> convertToList a n := fun a n => by
    cases a with
    | scalar t => rfl
    | seq ts =>
      by_cases h : ts.length = n <;> simp [toCont, convertCont, convertToList, PyCont.len, h]
  have h2 : ∀ (a : SoutArg) n, convertContSout (toContSout a) n = PyCont.list <$> convertSout a n := fun a n => by
    cases a with
    | text t => rfl
    | seq ts =>
      by_cases h : ts.length = n <;> simp [toContSout, convertContSout, convertSout, PyCont.len, h]
    | noLen => rfl
  simp only [buildPcompAny, buildPcomp, h1, h2, PyCont.len]
  cases pid.toInt with
  | error e => rfl
  | ok k =>
    cases convertToList ti sequence.length with
    | error e => rfl
    | ok T =>
      cases convertToList midi sequence.length with
      | error e => rfl
      | ok M =>
        cases convertSout sout sequence.length with
        | error e => rfl
        | ok O =>
          simp only [ok_bind, ok_map]
          rw [pcompLoop_contLoop]
          rfl

theorem contLoop_error {g : ℕ → Except PyErr Text} {e : PyErr} (he : e ≠ .indexError) (m s : ℕ) (body : Text) (i0 : ℕ) (h1 : 2 * s ≤ i0)
    (h2 : i0 < 2 * (s + m)) (hg : g i0 = .error e) (hok : ∀ j, 2 * s ≤ j → j < i0 → ∃ t, g j = .ok t) :
    contLoop g ((List.range' s m).map (2 * ·)) body = .error e := by
  induction m generalizing s body with
  | zero => omega
  | succ m ih =>
    rw [List.range'_succ, List.map_cons, contLoop]
    by_cases c1 : i0 = 2 * s
    · subst c1
      simp [contStep, hg]
    · obtain ⟨t, ht⟩ := hok (2 * s) le_rfl (by omega)
      by_cases c2 : i0 = 2 * s + 1
      · subst c2
        have : contStep g body (2 * s) = .error e := by
          simp [contStep, ht, hg]
        simp [this]
      · obtain ⟨t', ht'⟩ := hok (2 * s + 1) (by omega) (by omega)
        simp only [contStep, ht, ok_bind, ht']
        exact ih (s + 1) _ (by omega) (by omega) (fun j hj hj' => hok j (by omega) hj')

theorem contPly_firstErr (M T Q O : PyCont) (i : ℕ) (e : PyErr) :
    contPly M T Q O i = .error e ↔ firstErr [M.get i, T.get i, Q.get i, O.get i] = some e := by
  unfold contPly
  cases M.get i <;> cases T.get i <;> cases Q.get i <;> cases O.get i <;> simp [firstErr]

theorem contLoop_ok {g : ℕ → Except PyErr Text} (is : List ℕ) (h : ∀ i ∈ is, (∃ t, g i = .ok t) ∧ ((∃ t, g (i + 1) = .ok t) ∨ g (i + 1) = .error .indexError))
    (body : Text) : ∃ t, contLoop g is body = .ok t := by
  induction is generalizing body with
  | nil => exact ⟨_, rfl⟩
  | cons i is ih =>
    obtain ⟨⟨t, ht⟩, h2⟩ := h i (by simp)
    have : ∃ b, contStep g body i = .ok b := by
      rcases h2 with ⟨t', ht'⟩ | h2
      · exact ⟨_, by simp only [contStep, ht, ok_bind, ht']; rfl⟩
      · exact ⟨_, by simp only [contStep, ht, ok_bind, h2]; rfl⟩
    obtain ⟨b, hb⟩ := this
    simp only [contLoop, hb, ok_bind]
    exact ih (fun j hj => h j (by simp [hj])) b

theorem pyIdx_get {l : List Text} {i : ℕ} (h : i < l.length) : pyIdx l i = .ok l[i] := by
  simp [pyIdx, h]

theorem pyIdx_end {l : List Text} {i : ℕ} (h : l.length ≤ i) : pyIdx l i = .error .indexError := by
  simp [pyIdx, h]

/-- A dictionary with the keys `0, ..., n - 1` and no other key. -/
theorem dict_full {keys : List ℕ} {others n : ℕ} (hl : keys.length + others = n) (h : ∀ i < n, i ∈ keys) : n ∉ keys := by
  intro hn
  have : (List.range (n + 1)).Subperm keys := List.nodup_range.subperm fun i hi => by
    rcases Nat.lt_succ_iff_lt_or_eq.mp (List.mem_range.mp hi) with h' | rfl
    · exact h i h'
    · exact hn
  have := this.length_le
  simp at this
  omega

theorem holdsEach_get {c : PyCont} {f : PlyRec → Text} {ps : List PlyRec} (hne : ps ≠ []) (hl : c.len = ps.length) (h : HoldsEach c f ps) :
    (∀ (i : ℕ) (hi : i < ps.length), c.get i = .ok (f ps[i])) ∧ c.get ps.length = .error (if c matches .dict _ _ _ then .keyError else .indexError) := by
  cases c with
  | list ts =>
    simp only [HoldsEach] at h
    subst h
    exact ⟨fun i hi => by simp [PyCont.get, pyIdx_get (l := ps.map f) (i := i) (by simpa using hi)], pyIdx_end (by simp)⟩
  | dict keys val others =>
    refine ⟨fun i hi => ?_, ?_⟩
    · obtain ⟨h1, h2⟩ := h i hi
      simp [PyCont.get, h1, h2]
    · have := dict_full hl fun i hi => (h i hi).1
      simp [PyCont.get, this]
  | set n => exact absurd h hne

theorem gives_get {a : ContArg} {f : PlyRec → Text} {ps : List PlyRec} (hne : ps ≠ []) (h : Gives a f ps) :
    ∃ c, convertCont a ps.length = .ok c ∧ (∀ (i : ℕ) (hi : i < ps.length), c.get i = .ok (f ps[i])) ∧
      c.get ps.length = .error (if a matches .cont (.dict _ _ _) then .keyError else .indexError) := by
  cases a with
  | scalar t =>
    refine ⟨_, rfl, fun i hi => ?_, pyIdx_end (by simp)⟩
    rw [PyCont.get, pyIdx_get (by simpa using hi)]
    simp [h _ (List.getElem_mem hi)]
  | cont c =>
    obtain ⟨h1, h2⟩ := h
    obtain ⟨h3, h4⟩ := holdsEach_get hne h1 h2
    refine ⟨c, by simp [convertCont, h1], h3, h4.trans ?_⟩
    cases c <;> rfl

theorem asks_get {a : ContSout} {ps : List PlyRec} (hne : ps ≠ []) (h : Asks a ps) :
    ∃ c, convertContSout a ps.length = .ok c ∧ ∀ (i : ℕ) (hi : i < ps.length), c.get i = .ok (ps[i].out) := by
  cases a with
  | text t =>
    have := (C64_sout_iff (.text t) ps.length _ (by simpa using hne)).mpr h
    refine ⟨_, by simp [convertContSout, this, pure_eq_ok]; rfl, fun i hi => ?_⟩
    rw [PyCont.get, pyIdx_get (by simpa using hi)]
    simp
  | cont c =>
    obtain ⟨h1, h2⟩ := h
    exact ⟨c, by simp [convertContSout, h1], (holdsEach_get hne h1 h2).1⟩
  | noLen => exact h.elim

/-- **C136** dictionaries in place of lists: the card is the one of the lists, except for an odd number of plies with `midi` a dictionary, which raises `KeyError`.
The other arguments may be dictionaries in all cases. -/
theorem C136_card (ps : List PlyRec) (hne : ps ≠ []) (sequence : PyCont) (midi ti : ContArg) (pid : PidArg) (k : ℤ) (hk : pid.toInt = .ok k) (z0 : Text)
    (sout : ContSout) (hl : sequence.len = ps.length) (hq : HoldsEach sequence PlyRec.angle ps) (hm : Gives midi PlyRec.mid ps) (ht : Gives ti PlyRec.thick ps)
    (ho : Asks sout ps) :
    ((ps.length % 2 = 1 ∧ ∃ c, midi = .cont c ∧ IsDict c) → buildPcompAny sequence midi ti pid z0 sout = .error .keyError) ∧
    (¬ (ps.length % 2 = 1 ∧ ∃ c, midi = .cont c ∧ IsDict c) → buildPcompAny sequence midi ti pid z0 sout =
      buildPcomp (ps.map PlyRec.angle) (.seq (ps.map PlyRec.mid)) (.seq (ps.map PlyRec.thick)) pid z0 (.seq (ps.map PlyRec.out))) := by
  obtain ⟨cM, m1, m2, m3⟩ := gives_get hne hm
  obtain ⟨cT, t1, t2, -⟩ := gives_get hne ht
  obtain ⟨cO, o1, o2⟩ := asks_get hne ho
  have q2 := (holdsEach_get hne hl hq).1
  have hply : ∀ i < ps.length, contPly cM cT sequence cO i = plyText (ps.map PlyRec.mid) (ps.map PlyRec.thick) (ps.map PlyRec.angle) (ps.map PlyRec.out) i := by
    intro i hi
    rw [plyText_ok ps i hi, plyRecText_eq]
    simp [contPly, m2 i hi, t2 i hi, q2 i hi, o2 i hi]
  simp only [buildPcompAny, hl, hk, ok_bind, m1, t1, o1]
  constructor
  · rintro ⟨hodd, c, rfl, hd⟩
    have : contLoop (contPly cM cT sequence cO) ((List.range ((ps.length + 1) / 2)).map (2 * ·)) [] = .error .keyError := by
      rw [List.range_eq_range']
      refine contLoop_error (by simp) _ 0 [] ps.length (by omega) (by omega) ?_ (fun j _ hj => ⟨_, (hply j hj).trans (plyText_ok ps j hj)⟩)
      cases c with
      | dict keys val others => simp [contPly, m3]
      | list ts => exact hd.elim
      | set n => exact hd.elim
    rw [this]
    rfl
  · intro hnot
    simp only [buildPcomp, hk, ok_bind, convertToList, convertSout, List.length_map, if_true]
    rw [pcompLoop_contLoop, contLoop_congr]
    intro i hi
    obtain ⟨j, hj, rfl⟩ := List.mem_map.mp hi
    have hj' := List.mem_range.mp hj
    refine ⟨hply _ (by omega), ?_⟩
    by_cases hlt : 2 * j + 1 < ps.length
    · exact hply _ hlt
    · have he : 2 * j + 1 = ps.length := by omega
      have hnd : ¬ ∃ c, midi = .cont c ∧ IsDict c := fun h => hnot ⟨by omega, h⟩
      rw [plyText_end ps _ (by omega), he, contPly, m3]
      cases midi with
      | scalar t => rfl
      | cont c =>
        cases c with
        | dict keys val others => exact absurd ⟨_, rfl, trivial⟩ hnd
        | list ts => rfl
        | set n => rfl

theorem get_not_index {c : PyCont} {i : ℕ} (h : i < c.len) : c.get i ≠ .error .indexError := by
  cases c with
  | list ts => simp [PyCont.get, pyIdx_get (l := ts) h]
  | dict keys val others => by_cases hi : i ∈ keys <;> simp [PyCont.get, hi]
  | set n => simp [PyCont.get]

theorem contPly_not_index {M T Q O : PyCont} {i : ℕ} (h1 : i < M.len) (h2 : i < T.len) (h3 : i < Q.len) (h4 : i < O.len) :
    contPly M T Q O i ≠ .error .indexError := by
  have a1 := get_not_index h1
  have a2 := get_not_index h2
  have a3 := get_not_index h3
  have a4 := get_not_index h4
  unfold contPly
  cases e1 : M.get i <;> cases e2 : T.get i <;> cases e3 : Q.get i <;> cases e4 : O.get i <;> simp_all

/-- **C136** objects of matching lengths: the exceptions are those of the first ply, for which some object has no entry, and the first object in the order
`midi`, `ti`, `sequence`, `sout` without it: `KeyError` for a dictionary, `TypeError` for a set.  For an odd number of plies one more ply is tried, and of its
exceptions `IndexError` alone is caught. -/
theorem C136_raises (Q M T O : PyCont) (pid : PidArg) (k : ℤ) (hk : pid.toInt = .ok k) (z0 : Text) (hM : M.len = Q.len) (hT : T.len = Q.len)
    (hO : O.len = Q.len) (e : PyErr) : buildPcompAny Q (.cont M) (.cont T) pid z0 (.cont O) = .error e ↔
      ∃ i, (i < Q.len ∨ i = Q.len ∧ Q.len % 2 = 1) ∧ firstErr [M.get i, T.get i, Q.get i, O.get i] = some e ∧ e ≠ .indexError ∧
        ∀ j < i, firstErr [M.get j, T.get j, Q.get j, O.get j] = none := by
  have key : buildPcompAny Q (.cont M) (.cont T) pid z0 (.cont O) = .error e ↔
      contLoop (contPly M T Q O) ((List.range ((Q.len + 1) / 2)).map (2 * ·)) [] = .error e := by
    simp only [buildPcompAny, hk, ok_bind, convertCont, convertContSout, hM, hT, hO, if_true]
    cases contLoop (contPly M T Q O) ((List.range ((Q.len + 1) / 2)).map (2 * ·)) [] <;> simp
  have hnone : ∀ j, firstErr [M.get j, T.get j, Q.get j, O.get j] = none ↔ ∃ t, contPly M T Q O j = .ok t := fun j => by
    cases hj : contPly M T Q O j with
    | error e' => simp [(contPly_firstErr M T Q O j e').mp hj]
    | ok t =>
      simp only [Except.ok.injEq, exists_eq', iff_true]
      cases hf : firstErr [M.get j, T.get j, Q.get j, O.get j] with
      | none => rfl
      | some e' => simp [(contPly_firstErr M T Q O j e').mpr hf] at hj
  have hrun : ∀ i e', (i < Q.len ∨ i = Q.len ∧ Q.len % 2 = 1) → contPly M T Q O i = .error e' → e' ≠ .indexError → (∀ j < i, ∃ t, contPly M T Q O j = .ok t) →
      contLoop (contPly M T Q O) ((List.range ((Q.len + 1) / 2)).map (2 * ·)) [] = .error e' := by
    intro i e' hi h1 h2 h3
    rw [List.range_eq_range']
    exact contLoop_error h2 _ 0 [] i (by omega) (by omega) h1 (fun j _ hj => h3 j hj)
  simp only [key, ← contPly_firstErr, hnone]
  constructor
  · intro h
    by_cases hex : ∃ i, i < Q.len ∧ ∃ e', contPly M T Q O i = .error e'
    · classical
      obtain ⟨h1, e', h2⟩ := Nat.find_spec hex
      have hmin : ∀ j < Nat.find hex, ∃ t, contPly M T Q O j = .ok t := fun j hj => by
        have := Nat.find_min hex hj
        cases hc : contPly M T Q O j with
        | ok t => exact ⟨t, rfl⟩
        | error x => exact absurd ⟨by omega, x, hc⟩ this
      have hni : e' ≠ .indexError := fun h' => contPly_not_index (by omega) (by omega) h1 (by omega) (h' ▸ h2)
      have := hrun _ e' (.inl h1) h2 hni hmin
      rw [h] at this
      cases this
      exact ⟨_, .inl h1, h2, hni, hmin⟩
    · have hall : ∀ j < Q.len, ∃ t, contPly M T Q O j = .ok t := fun j hj => by
        cases hc : contPly M T Q O j with
        | ok t => exact ⟨t, rfl⟩
        | error x => exact absurd ⟨j, hj, x, hc⟩ hex
      by_cases hlast : Q.len % 2 = 1 ∧ ∃ e', contPly M T Q O Q.len = .error e' ∧ e' ≠ .indexError
      · obtain ⟨ho, e', h2, hni⟩ := hlast
        have := hrun _ e' (.inr ⟨rfl, ho⟩) h2 hni hall
        rw [h] at this
        cases this
        exact ⟨_, .inr ⟨rfl, ho⟩, h2, hni, hall⟩
      · obtain ⟨t, ht⟩ := contLoop_ok (g := contPly M T Q O) ((List.range ((Q.len + 1) / 2)).map (2 * ·)) (fun i hi => by
          obtain ⟨j, hj, rfl⟩ := List.mem_map.mp hi
          have hj' := List.mem_range.mp hj
          refine ⟨hall _ (by omega), ?_⟩
          by_cases hlt : 2 * j + 1 < Q.len
          · exact .inl (hall _ hlt)
          · have he : 2 * j + 1 = Q.len := by omega
            rw [he]
            cases hc : contPly M T Q O Q.len with
            | ok t => exact .inl ⟨t, rfl⟩
            | error x =>
              by_cases hx : x = .indexError
              · exact .inr (by rw [hx])
              · exact absurd ⟨by omega, x, hc, hx⟩ hlast) []
        rw [h] at ht
        cases ht
  · rintro ⟨i, h1, h2, h3, h4⟩
    exact hrun i e h1 h2 h3 h4

/-- **C136** a single value is the list that repeats it; a text for `sout` is the list that it stands for. -/
theorem C136_single (Q : PyCont) (midi ti : ContArg) (pid : PidArg) (z0 : Text) (sout : ContSout) (t : Text) :
    buildPcompAny Q (.scalar t) ti pid z0 sout = buildPcompAny Q (.cont (.list (List.replicate Q.len t))) ti pid z0 sout ∧
    buildPcompAny Q midi (.scalar t) pid z0 sout = buildPcompAny Q midi (.cont (.list (List.replicate Q.len t))) pid z0 sout ∧
    ∀ O, convertSout (.text t) Q.len = .ok O → buildPcompAny Q midi ti pid z0 (.text t) = buildPcompAny Q midi ti pid z0 (.cont (.list O)) := by
  refine ⟨?_, ?_, fun O hO => ?_⟩
  · simp [buildPcompAny, convertCont, PyCont.len]
  · simp [buildPcompAny, convertCont, PyCont.len]
  · have hlen : convertContSout (.text t) Q.len = convertContSout (.cont (.list O)) Q.len := by
      have : O.length = Q.len := by
        by_cases h0 : Q.len = 0
        · rw [h0] at hO ⊢
          by_cases h1 : t = tFIBER
          · subst h1
            cases hO
          by_cases h2 : t = tNO
          · subst h2
            cases hO
            rfl
          by_cases h3 : t = tYES
          · subst h3
            cases hO
            rfl
          by_cases h4 : t.length = 0
          · simp only [convertSout, h1, h2, h3, h4, if_true, if_false, Except.ok.injEq] at hO
            simp [← hO, h4]
          · simp [convertSout, h1, h2, h3, h4] at hO
        · exact requested_length ((C64_sout_iff _ _ _ h0).mp hO)
      have e1 : (PyCont.list O).len = Q.len := this
      simp only [convertContSout, hO, e1, if_true, ok_bind, pure_eq_ok]
    simp only [buildPcompAny, hlen]

/-- **C136** an object of another length raises `ValueError`, also a dictionary or a set. -/
theorem C136_misfit (Q : PyCont) (midi ti : ContArg) (pid : PidArg) (k : ℤ) (hk : pid.toInt = .ok k) (z0 : Text) (sout : ContSout)
    (h : (∃ c, ti = .cont c ∧ c.len ≠ Q.len) ∨ (∃ c, midi = .cont c ∧ c.len ≠ Q.len) ∨ ∃ c, sout = .cont c ∧ c.len ≠ Q.len) :
    buildPcompAny Q midi ti pid z0 sout = .error .valueError := by
  have hcl : ∀ a n, (∃ r, convertCont a n = .ok r) ∨ convertCont a n = .error .valueError := fun a n => by
    cases a with
    | scalar t => exact .inl ⟨_, rfl⟩
    | cont c =>
      by_cases h : c.len = n
      · exact .inl ⟨c, by simp [convertCont, h]⟩
      · exact .inr (by simp [convertCont, h])
  simp only [buildPcompAny, hk, ok_bind]
  rcases hcl ti Q.len with ⟨t, ht⟩ | ht
  · rcases hcl midi Q.len with ⟨m, hm⟩ | hm
    · rcases h with ⟨c, rfl, h⟩ | ⟨c, rfl, h⟩ | ⟨c, rfl, h⟩
      · simp [convertCont, h] at ht
      · simp [convertCont, h] at hm
      · simp [ht, hm, convertContSout, h]
    · simp [ht, hm]
  · simp [ht]

/-- A dictionary `{0: '7', 1: '8', 2: '9'}`. -/
def demoDict : PyCont := .dict [0, 1, 2] (fun i => [['7', '8', '9'].getD i '0']) 0

def demoAngles : PyCont := .list ["0".toList, "45".toList, "90".toList]

def demoPlies : List PlyRec := [⟨"7".toList, "1".toList, "0".toList, tYES⟩, ⟨"8".toList, "1".toList, "45".toList, tNO⟩, ⟨"9".toList, "1".toList, "90".toList, tYES⟩]

/-- Non-vacuity for C136_card: three materials in a dictionary raise `KeyError`, three thicknesses in a dictionary give the card of the list. -/
example : Gives (.cont demoDict) PlyRec.mid demoPlies ∧ HoldsEach demoAngles PlyRec.angle demoPlies ∧ Asks (.text tFIBER) demoPlies ∧
    buildPcompAny demoAngles (.cont demoDict) (.scalar "1".toList) (.int 1) [] (.text tFIBER) = .error .keyError ∧
    buildPcompAny demoAngles (.scalar "1".toList) (.cont demoDict) (.int 1) [] (.text tFIBER) =
      .ok "PCOMP,1,,,,,,+\n+,1,7,0,YES,1,8,45,NO+\n+,1,9,90,YES".toList := by
  refine ⟨⟨rfl, ?_⟩, rfl, ?_, rfl, rfl⟩
  · intro i hi
    have h3 : i < 3 := hi
    obtain rfl | rfl | rfl : i = 0 ∨ i = 1 ∨ i = 2 := by omega
    all_goals exact ⟨by simp, rfl⟩
  · exact (C64_sout_iff (.text tFIBER) 3 _ (by simp)).mp rfl

/-- Non-vacuity for C136_card: with two plies a dictionary of materials gives the card of the list. -/
example : buildPcompAny (.list ["0".toList, "45".toList]) (.cont (.dict [1, 0] (fun i => [['7', '8'].getD i '0']) 0)) (.scalar "1".toList) (.int 1) []
    (.text tFIBER) = .ok "PCOMP,1,,,,,,+\n+,7,1,0,YES,8,1,45,YES+\n".toList := rfl

/-- Non-vacuity for C136_raises: a dictionary with another key, a set, and a set behind a dictionary. -/
example : buildPcompAny demoAngles (.cont (.dict [0, 2] (fun _ => []) 1)) (.scalar []) (.int 1) [] (.text tNO) = .error .keyError ∧
    buildPcompAny demoAngles (.cont (.set 3)) (.scalar []) (.int 1) [] (.text tNO) = .error .typeError ∧
    buildPcompAny demoAngles (.cont (.dict [1, 2] (fun _ => []) 1)) (.cont (.set 3)) (.int 1) [] (.text tNO) = .error .keyError ∧
    firstErr [.ok [], .error .typeError, .error .keyError] = some .typeError := ⟨rfl, rfl, rfl, rfl⟩

/-- Non-vacuity for C136_misfit. -/
example : buildPcompAny demoAngles (.cont (.set 2)) (.scalar []) (.int 1) [] (.text tNO) = .error .valueError := rfl

end Composipy
