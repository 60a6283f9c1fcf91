import Verif.Props.Sequence

/-!
# C91, C92: `build_sequence` on arbitrary texts
-/

namespace Composipy
open Spec

/-! ## C91: exceptions -/

/-- **C91** `build_sequence` raises nothing but `ValueError` and `IndexError`. -/
theorem C91_only_errors (t : Text) (e : PyErr) (h : buildSequence t = .error e) : e = .valueError ∨ e = .indexError := by
  rcases hl : (pyStrip t).getLast? with _ | c
  · unfold buildSequence at h
    simp only [hl] at h
    exact Or.inr (Except.error.inj h).symm
  by_cases hne : (pyStrip t).filter (· != 's') = []
  · unfold buildSequence at h
    simp only [hl, hne] at h
    exact Or.inr (Except.error.inj h).symm
  rw [buildSequence_eq hl hne] at h
  rcases hr : seqRun (loopText (pyStrip t) ++ ['/']) .init with e' | st
  · rw [hr] at h
    obtain rfl : e' = e := Except.error.inj h
    exact Or.inl (seqRun_error hr)
  · rw [hr] at h; cases h

/-- **C91** `IndexError` is raised exactly for texts that consist of white space around letters `s` (or nothing). -/
theorem C91_index_iff (t : Text) : buildSequence t = .error .indexError ↔ ∀ c ∈ pyStrip t, c = 's' := by
  constructor
  · intro h
    by_contra hne
    push Not at hne
    obtain ⟨d, hd, hds⟩ := hne
    have hf : (pyStrip t).filter (· != 's') ≠ [] := by
      intro he
      rw [List.filter_eq_nil_iff] at he
      exact he d hd (by simpa using hds)
    rcases hl : (pyStrip t).getLast? with _ | c
    · rw [List.getLast?_eq_none_iff] at hl
      rw [hl] at hd
      cases hd
    rw [buildSequence_eq hl hf] at h
    rcases hr : seqRun (loopText (pyStrip t) ++ ['/']) .init with e' | st
    · rw [hr] at h
      obtain rfl : e' = .indexError := Except.error.inj h
      cases seqRun_error hr
    · rw [hr] at h; cases h
  · intro h
    unfold buildSequence
    have hf : (pyStrip t).filter (· != 's') = [] := by
      rw [List.filter_eq_nil_iff]
      intro c hc
      simp [h c hc]
    rcases hl : (pyStrip t).getLast? with _ | c
    · simp only [hl]
    · simp only [hl, hf]

/-! ## C91: where the angles come from -/

/-- `q` is the value of a numeral whose characters occur in `t` in this order, or its negative. -/
def Spec.FromText (t : Text) (q : XF ℚ) : Prop := ∃ u x, u.Sublist t ∧ parseFloat u = some x ∧ (q = x ∨ q = flipSign 1 x)

theorem Spec.FromText.mono {t t' : Text} {q : XF ℚ} (h : FromText t q) (ht : t.Sublist t') : FromText t' q := by
  obtain ⟨u, x, hu, hx, hq⟩ := h
  exact ⟨u, x, hu.trans ht, hx, hq⟩

theorem removePm_sublist : (t : Text) → (removePm t).Sublist t
  | [] => by simp [removePm]
  | c :: cs => by
    unfold removePm
    split
    · rename_i ds heq
      rw [heq]
      exact (((removePm_sublist ds).cons _).cons _).cons _
    · rename_i d ds _ heq
      obtain ⟨rfl, rfl⟩ := List.cons.inj heq
      exact (removePm_sublist _).cons_cons _
    · rename_i heq
      cases heq
  termination_by t => t.length
  decreasing_by
    all_goals (simp_all [List.length_cons]; try omega)

theorem split_sublist {sep : Char} {t : Text} : ∀ p ∈ pySplit sep t, p.Sublist t := by
  induction t with
  | nil => simp [pySplit]
  | cons c cs ih =>
    intro p hp
    unfold pySplit at hp
    split at hp
    · rcases List.mem_cons.mp hp with rfl | hp
      · exact List.nil_sublist _
      · exact (ih p hp).cons _
    · split at hp
      · rename_i heq
        rcases List.mem_cons.mp hp with rfl | hp
        · exact (List.nil_sublist _).cons_cons _
        · cases hp
      · rename_i p' ps heq
        rcases List.mem_cons.mp hp with rfl | hp
        · exact (ih p' (by rw [heq]; exact List.mem_cons_self)).cons_cons _
        · exact (ih p (by rw [heq]; exact List.mem_cons_of_mem _ hp)).cons _

theorem strip_sublist (p : Char → Bool) (t : Text) : (stripBy p t).Sublist t := by
  obtain ⟨l, r, hs, -, -⟩ := stripBy_split p t
  conv_rhs => rw [hs]
  exact (List.sublist_append_right _ _).trans (List.sublist_append_left _ _)

theorem flipSign_cases (i : ℕ) (x : XF ℚ) : flipSign i x = x ∨ flipSign i x = flipSign 1 x := by
  rcases Nat.mod_two_eq_zero_or_one i with h | h
  · left
    cases x <;> simp [flipSign, h, (Nat.even_iff.mpr h).neg_one_pow]
  · right
    cases x <;> simp [flipSign, h, (Nat.odd_iff.mpr h).neg_one_pow]

theorem unit_from {s : Text} {r : List (XF ℚ)} (h : buildStackUnit s = .ok r) : ∀ q ∈ r, FromText s q := by
  have hsub : ∀ p ∈ pySplit '_' (pyStrip (removePm s)), p.Sublist s := fun p hp =>
    ((split_sublist p hp).trans (strip_sublist _ _)).trans (removePm_sublist _)
  have key : ∀ a x i, a ∈ pySplit '_' (pyStrip (removePm s)) → parseFloat a = some x → FromText s (flipSign i x) :=
    fun a x i ha hx => ⟨a, x, hsub a ha, hx, flipSign_cases i x⟩
  have key0 : ∀ a x, a ∈ pySplit '_' (pyStrip (removePm s)) → parseFloat a = some x → FromText s x :=
    fun a x ha hx => ⟨a, x, hsub a ha, hx, Or.inl rfl⟩
  unfold buildStackUnit pyFloat pyInt at h
  split at h
  · rename_i a hsp
    rcases hf : parseFloat a with _ | x <;> rw [hf] at h
    · cases h
    · simp only [ok_bind] at h
      split at h <;> obtain rfl := Except.ok.inj h
      · intro q hq
        simp only [buildPmUnit, List.mem_map] at hq
        obtain ⟨i, -, rfl⟩ := hq
        exact key a x i (by rw [hsp]; simp) hf
      · intro q hq
        rw [List.mem_singleton.mp hq]
        exact key0 a x (by rw [hsp]; simp) hf
  · rename_i a t hsp
    rcases hf : parseFloat a with _ | x <;> rw [hf] at h
    · cases h
    · rcases hi : parseInt (dropBraces t) with _ | y <;> rw [hi] at h
      · cases h
      · simp only [ok_bind] at h
        split at h <;> obtain rfl := Except.ok.inj h
        · intro q hq
          simp only [buildPmUnit, List.mem_map] at hq
          obtain ⟨i, -, rfl⟩ := hq
          exact key a x i (by rw [hsp]; simp) hf
        · intro q hq
          rw [List.eq_of_mem_replicate hq]
          exact key0 a x (by rw [hsp]; simp) hf
  · cases h

/-- What the loop has collected comes from what it has read. -/
structure StateFrom (t : Text) (st : SeqState) : Prop where
  cur : st.cur.Sublist t
  all : ∀ q ∈ st.unities ++ st.unity ++ st.block, FromText t q

theorem mem_pyRepeat {n : ℤ} {l : List (XF ℚ)} {q : XF ℚ} (h : q ∈ pyRepeat n l) : q ∈ l := by
  simp only [pyRepeat, List.mem_flatten] at h
  obtain ⟨l', hl', hq⟩ := h
  rw [List.eq_of_mem_replicate hl'] at hq
  exact hq

theorem seqStep_from {t : Text} {st st' : SeqState} {c : Char} (h : StateFrom t st) (hs : seqStep st c = .ok st') :
    StateFrom (t ++ [c]) st' := by
  have hsub : t.Sublist (t ++ [c]) := List.sublist_append_left _ _
  have hall : ∀ q ∈ st.unities ++ st.unity ++ st.block, FromText (t ++ [c]) q := fun q hq => (h.all q hq).mono hsub
  simp only [List.mem_append] at hall
  have hnew : ∀ {r}, buildStackUnit st.cur = .ok r → ∀ q ∈ r, FromText (t ++ [c]) q := fun hr q hq =>
    (unit_from hr q hq).mono (h.cur.trans hsub)
  unfold seqStep at hs
  split at hs
  · obtain rfl := Except.ok.inj hs
    exact ⟨h.cur.trans hsub, by simpa only [List.mem_append] using hall⟩
  split at hs
  · rcases hu : buildStackUnit st.cur with e | r <;> rw [hu] at hs
    · cases hs
    obtain rfl := Except.ok.inj hs
    refine ⟨List.nil_sublist _, fun q hq => ?_⟩
    simp only [List.mem_append] at hq
    rcases hq with (hq | hq) | hq | hq
    · exact hall q (.inl (.inl hq))
    · exact hnew hu q hq
    · exact hall q (.inr hq)
    · exact hnew hu q hq
  split at hs
  · split at hs
    · rcases hu : buildStackUnit st.cur with e | r <;> rw [hu] at hs
      · cases hs
      obtain rfl := Except.ok.inj hs
      refine ⟨List.nil_sublist _, fun q hq => ?_⟩
      simp only [List.mem_append, List.not_mem_nil, or_false] at hq
      rcases hq with (hq | hq) | hq
      · exact hall q (.inl (.inl hq))
      · exact hnew hu q hq
      · exact hall q (.inr hq)
    · rcases hu : buildStackUnit st.cur with e | r <;> rw [hu] at hs
      · cases hs
      obtain rfl := Except.ok.inj hs
      refine ⟨List.nil_sublist _, fun q hq => ?_⟩
      simp only [List.mem_append] at hq
      rcases hq with (hq | hq) | hq | hq
      · exact hall q (.inl (.inl hq))
      · exact hnew hu q hq
      · exact hall q (.inr hq)
      · exact hnew hu q hq
    · rcases hu : blockTimes st.cur with e | r <;> rw [hu] at hs
      · cases hs
      obtain rfl := Except.ok.inj hs
      refine ⟨List.nil_sublist _, fun q hq => ?_⟩
      simp only [List.mem_append, List.not_mem_nil, or_false] at hq
      rcases hq with (hq | hq) | hq
      · exact hall q (.inl (.inl hq))
      · exact hall q (.inl (.inr (mem_pyRepeat hq)))
      · exact hall q (.inr hq)
    · rcases hu : blockTimes st.cur with e | r <;> rw [hu] at hs
      · cases hs
      obtain rfl := Except.ok.inj hs
      refine ⟨List.nil_sublist _, fun q hq => ?_⟩
      simp only [List.mem_append, List.not_mem_nil, or_false] at hq
      rcases hq with hq | hq
      · exact hall q (.inl (.inl hq))
      · exact hall q (.inr (mem_pyRepeat hq))
  · obtain rfl := Except.ok.inj hs
    exact ⟨h.cur.append (List.Sublist.refl _), by simpa only [List.mem_append] using hall⟩

theorem seqRun_from {x t : Text} {st st' : SeqState} (h : StateFrom t st) (hs : seqRun x st = .ok st') : StateFrom (t ++ x) st' := by
  induction x generalizing t st with
  | nil =>
    obtain rfl := Except.ok.inj hs
    simpa using h
  | cons c cs ih =>
    simp only [seqRun] at hs
    rcases hc : seqStep st c with e | st1 <;> rw [hc] at hs
    · cases hs
    · have := ih (seqStep_from h hc) hs
      simpa using this

/-- A numeral contains no slash. -/
theorem from_slash {t : Text} {q : XF ℚ} (h : FromText (t ++ ['/']) q) : FromText t q := by
  obtain ⟨u, x, hu, hx, hq⟩ := h
  refine ⟨u, x, ?_, hx, hq⟩
  obtain ⟨u1, u2, rfl, h1, h2⟩ := List.sublist_append_iff.mp hu
  rcases List.sublist_singleton.mp h2 with rfl | rfl
  · simpa using h1
  · exfalso
    exact parseFloat_chars hx '/' (by simp) (by unfold badFloatChar; decide)

/-- **C91** every angle returned is, up to sign, a numeral of the text. -/
theorem C91_angles_from_text (t : Text) (r : List (XF ℚ)) (h : buildSequence t = .ok r) : ∀ q ∈ r, FromText t q := by
  obtain ⟨c, st, -, -, hrun, rfl⟩ := buildSequence_ok h
  have h0 : StateFrom [] SeqState.init := ⟨List.nil_sublist _, by simp [SeqState.init]⟩
  have h1 := seqRun_from h0 hrun
  have hsub : (loopText (pyStrip t)).Sublist t := by
    unfold loopText
    exact (List.filter_sublist.trans List.filter_sublist).trans (strip_sublist _ _)
  intro q hq
  have hq' : q ∈ st.unities := by
    split at hq
    · simpa using hq
    · exact hq
  have := h1.all q (by simp [hq'])
  rw [List.nil_append] at this
  exact (from_slash this).mono hsub

/-- Non-vacuity of C91: the three outcomes. -/
example : buildSequence "  ss ".toList = .error .indexError ∧ buildSequence "0/x".toList = .error .valueError ∧
    buildSequence " [0/\\pm45_2] ".toList = .ok [.fin 0, .fin 45, .fin (-45)] := by
  refine ⟨?_, ?_, ?_⟩ <;> decide +kernel

/-! ## C92: unclosed groups -/

/-- A text without `s`, `S`, brackets, but with a digit: the result is what the loop collects. -/
theorem buildSequence_plain {t : Text} {st : SeqState} (hfree : ∀ c ∈ t, ¬ reserved c) (hd : ∃ d : Fin 10, digitChar d ∈ t)
    (h : seqRun (t ++ ['/']) .init = .ok st) : buildSequence t = .ok st.unities := by
  have hloop : loopText t = t := loopText_id fun c hc => by
    have := hfree c hc
    unfold reserved at this
    tauto
  have hrun := loop_strip t st (by rw [hloop]; exact h)
  obtain ⟨d, hd⟩ := hd
  have hmem : digitChar d ∈ pyStrip t := strip_keeps hd (pySpace_digitChar d)
  rcases hl : (pyStrip t).getLast? with _ | c
  · rw [List.getLast?_eq_none_iff] at hl
    rw [hl] at hmem
    cases hmem
  · have hc := hfree c (strip_subset (List.mem_of_getLast? hl))
    rw [buildSequence_eq hl, hrun]
    · simp only [Except.map]
      rw [if_neg (free_s hc)]
    · intro he
      rw [List.filter_eq_nil_iff] at he
      exact he _ hmem (by simpa using digitChar_ne (by decide) d)

/-- Inside a group that is not closed, the units only fill the block. -/
theorem open_run (u : SUnit) (us : List SUnit) (ys bl y : List (XF ℚ)) :
    ∃ y' bl', seqRun (slashed ((u :: us).map SUnit.text) ++ ['/']) ⟨ys, y, bl, [], true, false⟩ =
      .ok ⟨ys, y', bl', [], true, false⟩ := by
  induction us generalizing u bl y with
  | nil =>
    refine ⟨u.plies.map .fin, bl ++ u.plies.map .fin, ?_⟩
    simp only [List.map_cons, List.map_nil, slashed]
    rw [seqRun_append, seqRun_plain (unit_plain u)]
    have := unit_parses u 0 0
    simp only [blanks, List.replicate_zero, List.append_nil, List.nil_append] at this
    simp [seqRun, seqStep, this]
  | cons v vs ih =>
    have := unit_parses u 0 0
    simp only [blanks, List.replicate_zero, List.append_nil, List.nil_append] at this
    obtain ⟨y', bl', h⟩ := ih v (bl ++ u.plies.map .fin) (u.plies.map .fin)
    refine ⟨y', bl', ?_⟩
    rw [List.map_cons, List.map_cons, slashed, List.append_assoc, List.append_assoc, seqRun_append, seqRun_plain (unit_plain u), ok_bind,
      seqRun_append]
    · simp only [seqRun, seqStep, List.nil_append, this, ok_bind, ← List.map_cons]
      simp only [show ('/' == '(') = false from rfl, show ('/' == ')') = false from rfl, beq_self_eq_true, if_true,
        Bool.false_eq_true, if_false, ok_bind]
      exact h
    · simp

theorem units_free {us : List SUnit} {c : Char} (h : c ∈ slashed (us.map SUnit.text)) : ¬ reserved c := by
  rcases mem_slashed h with rfl | ⟨t, ht, hc⟩
  · unfold reserved; decide
  · obtain ⟨u, -, rfl⟩ := List.mem_map.mp ht
    exact unit_free hc

/-- **C92** a group that is opened and not closed is dropped without an exception: `items/(units` gives the plies of `items`. -/
theorem C92_unclosed_dropped (it : Item) (its : List Item) (u : SUnit) (us : List SUnit) :
    buildSequence (slashed ((it :: its).map Item.text) ++ ['/', '('] ++ slashed ((u :: us).map SUnit.text)) =
      .ok (((it :: its).flatMap Item.plies).map .fin) := by
  obtain ⟨y', bl', h2⟩ := open_run u us (((it :: its).flatMap Item.plies).map .fin) [] []
  have h1 := items_run it its 0 0 [] []
  simp only [blanks, List.replicate_zero, List.append_nil, List.nil_append] at h1
  have hrun : seqRun (slashed ((it :: its).map Item.text) ++ ['/', '('] ++ slashed ((u :: us).map SUnit.text) ++ ['/']) .init
      = .ok ⟨((it :: its).flatMap Item.plies).map .fin, y', bl', [], true, false⟩ := by
    rw [show slashed ((it :: its).map Item.text) ++ ['/', '('] ++ slashed ((u :: us).map SUnit.text) ++ ['/']
      = (slashed ((it :: its).map Item.text) ++ ['/']) ++ ('(' :: (slashed ((u :: us).map SUnit.text) ++ ['/'])) by simp,
      seqRun_append, SeqState.init, h1, ok_bind]
    simp only [seqRun, seqStep, beq_self_eq_true, if_true, ok_bind]
    exact h2
  refine buildSequence_plain (st := ⟨_, y', bl', [], true, false⟩) ?_ ?_ hrun
  · intro c hc
    simp only [List.mem_append, List.mem_cons, List.not_mem_nil, or_false] at hc
    rcases hc with (hc | rfl | rfl) | hc
    · exact items_free hc
    · unfold reserved; decide
    · unfold reserved; decide
    · exact units_free hc
  · obtain ⟨d, hd⟩ := item_has_digit it
    exact ⟨d, by simp only [List.mem_append]; exact Or.inl (Or.inl (slashed_mem (List.mem_map_of_mem List.mem_cons_self) hd))⟩

/-- **C92** alone, an unclosed group gives the empty stacking. -/
theorem C92_unclosed_empty (u : SUnit) (us : List SUnit) : buildSequence ('(' :: slashed ((u :: us).map SUnit.text)) = .ok [] := by
  obtain ⟨y', bl', h2⟩ := open_run u us [] [] []
  refine buildSequence_plain (st := ⟨[], y', bl', [], true, false⟩) ?_ ?_ ?_
  · intro c hc
    rcases List.mem_cons.mp hc with rfl | hc
    · unfold reserved; decide
    · exact units_free hc
  · exact ⟨_, List.mem_cons_of_mem _ (slashed_mem (List.mem_map_of_mem List.mem_cons_self) (unit_has_digit u))⟩
  · simp only [List.cons_append, seqRun, seqStep, beq_self_eq_true, if_true, ok_bind, SeqState.init]
    exact h2

/-- **C92** a closed group needs its repetition count: `items/(units)` raises `ValueError`. -/
theorem C92_missing_count_raises (it : Item) (its : List Item) (u : SUnit) (us : List SUnit) :
    buildSequence (slashed ((it :: its).map Item.text) ++ ['/', '('] ++ slashed ((u :: us).map SUnit.text) ++ [')']) =
      .error .valueError := by
  set t := slashed ((it :: its).map Item.text) ++ ['/', '('] ++ slashed ((u :: us).map SUnit.text) ++ [')'] with ht
  obtain ⟨y', h2⟩ := group_run u us 0 (((it :: its).flatMap Item.plies).map .fin) [] []
  simp only [blanks, List.replicate_zero] at h2
  have h1 := items_run it its 0 0 [] []
  simp only [blanks, List.replicate_zero, List.append_nil, List.nil_append] at h1
  have hrun : seqRun (t ++ ['/']) .init = .error .valueError := by
    rw [ht, show slashed ((it :: its).map Item.text) ++ ['/', '('] ++ slashed ((u :: us).map SUnit.text) ++ [')'] ++ ['/']
      = (slashed ((it :: its).map Item.text) ++ ['/']) ++ ('(' :: ((slashed ((u :: us).map SUnit.text) ++ [')']) ++ ['/'])) by simp,
      seqRun_append, SeqState.init, h1, ok_bind]
    simp only [seqRun, seqStep, beq_self_eq_true, if_true, ok_bind]
    rw [seqRun_append, h2, ok_bind]
    rfl
  have hfree : ∀ c ∈ t, ¬ reserved c := by
    intro c hc
    simp only [ht, List.mem_append, List.mem_cons, List.not_mem_nil, or_false] at hc
    rcases hc with ((hc | rfl | rfl) | hc) | rfl
    · exact items_free hc
    · unfold reserved; decide
    · unfold reserved; decide
    · exact units_free hc
    · unfold reserved; decide
  have hloop : loopText t = t := loopText_id fun c hc => by
    have := hfree c hc
    unfold reserved at this
    tauto
  obtain ⟨d, hd⟩ := item_has_digit it
  have hmem : digitChar d ∈ pyStrip t := strip_keeps (by
    simp only [ht, List.mem_append]
    exact Or.inl (Or.inl (Or.inl (slashed_mem (List.mem_map_of_mem List.mem_cons_self) hd)))) (pySpace_digitChar d)
  rcases hb : buildSequence t with e | r
  · rcases C91_only_errors t e hb with rfl | rfl
    · rfl
    · have := (C91_index_iff t).mp hb _ hmem
      exact absurd this (digitChar_ne (by decide) d)
  · exfalso
    obtain ⟨c, st, -, -, hr, -⟩ := buildSequence_ok hb
    obtain ⟨l, w, hs, hl, hw⟩ := stripBy_split isPySpace t
    obtain rfl : w = [] := by
      rcases List.eq_nil_or_concat w with rfl | ⟨w', c, rfl⟩
      · rfl
      · exfalso
        have h3 : t.getLast? = some c := by rw [hs]; simp
        have h4 : t.getLast? = some ')' := by rw [ht]; exact List.getLast?_concat
        obtain rfl : c = ')' := Option.some.inj (h3.symm.trans h4)
        exact absurd (hw ')' (by simp)) (by decide)
    have hfree' : loopText (pyStrip t) = pyStrip t := loopText_id fun c hc => by
      have := hfree c (strip_subset hc)
      unfold reserved at this
      tauto
    rw [List.append_nil] at hs
    rw [hs, List.append_assoc, seqRun_append, seqRun_plain fun c hc => space_plain (hl c hc), ok_bind] at hrun
    have h5 := seqRun_leading hl (stripBy isPySpace t) .init rfl
    simp only [SeqState.init, List.append_nil, List.nil_append] at h5 hrun
    rw [h5] at hrun
    rw [hfree'] at hr
    unfold pyStrip at hr
    rw [SeqState.init, hrun] at hr
    cases hr

/-- **C92** refuted: a text with unbalanced parentheses need not raise. -/
theorem C92_unbalanced_raises_false : ¬ ∀ t : Text, t.count '(' ≠ t.count ')' → ∃ e, buildSequence t = .error e := by
  intro h
  obtain ⟨e, he⟩ := h "45/(0/90".toList (by decide)
  have : buildSequence "45/(0/90".toList = .ok [.fin 45] := by decide +kernel
  rw [this] at he
  cases he

end Composipy
