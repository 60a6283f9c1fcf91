import Verif.Lemmas.Text

/-!
# C60 - C62: stacking expressions
-/

namespace Composipy
open Spec

/-! ## Running the loop -/

theorem seqRun_append (x y : Text) (st : SeqState) : seqRun (x ++ y) st = seqRun x st >>= seqRun y := by
  induction x generalizing st with
  | nil => rfl
  | cons c cs ih =>
    simp only [List.cons_append, seqRun]
    rcases seqStep st c with e | st'
    · rfl
    · exact ih st'

/-- Characters that are only collected. -/
def plain (c : Char) : Prop := c ≠ '(' ∧ c ≠ ')' ∧ c ≠ '/'

theorem seqStep_plain {c : Char} (h : plain c) (st : SeqState) : seqStep st c = .ok { st with cur := st.cur ++ [c] } := by
  obtain ⟨h1, h2, h3⟩ := h
  simp [seqStep, h1, h2, h3]

theorem seqRun_plain {x : Text} (h : ∀ c ∈ x, plain c) (st : SeqState) : seqRun x st = .ok { st with cur := st.cur ++ x } := by
  induction x generalizing st with
  | nil => simp [seqRun]
  | cons c cs ih =>
    simp only [seqRun, seqStep_plain (h c List.mem_cons_self), ok_bind]
    rw [ih fun d hd => h d (List.mem_cons_of_mem _ hd)]
    simp

theorem space_plain {c : Char} (h : isPySpace c = true) : plain c := by
  refine ⟨?_, ?_, ?_⟩ <;> rintro rfl <;> revert h <;> decide

/-! ## Units -/

theorem removePm_cons {c : Char} (hc : c ≠ '\\') (cs : Text) : removePm (c :: cs) = c :: removePm cs := by
  rw [removePm.eq_2]
  rintro cs' rfl
  exact absurd rfl hc

theorem removePm_left {l : Text} (h : ∀ c ∈ l, c ≠ '\\') (x : Text) : removePm (l ++ x) = l ++ removePm x := by
  induction l with
  | nil => rfl
  | cons c cs ih =>
    rw [List.cons_append, removePm_cons (h c List.mem_cons_self), ih fun d hd => h d (List.mem_cons_of_mem _ hd)]
    rfl

theorem hasPm_left {l : Text} (h : ∀ c ∈ l, c ≠ '\\') (x : Text) : hasPm (l ++ x) = hasPm x := by
  induction l with
  | nil => rfl
  | cons c cs ih =>
    have := h c List.mem_cons_self
    simp only [List.cons_append, hasPm, beq_eq_false_iff_ne.mpr this, Bool.false_and, Bool.false_or]
    exact ih fun d hd => h d (List.mem_cons_of_mem _ hd)

theorem removePm_free {x : Text} (h : '\\' ∉ x) : removePm x = x := by
  have := removePm_left (l := x) (fun c hc e => h (e ▸ hc)) []
  simpa [removePm] using this

theorem hasPm_free {x : Text} (h : '\\' ∉ x) : hasPm x = false := by
  have := hasPm_left (l := x) (fun c hc e => h (e ▸ hc)) []
  simpa [hasPm] using this

theorem removePm_right {l : Text} (h : ∀ c ∈ l, isPySpace c = true) (x : Text) : removePm (x ++ l) = removePm x ++ l := by
  have hb : '\\' ∉ l := fun hm => absurd (h _ hm) (by decide)
  induction x using removePm.induct with
  | case1 cs ih => simpa [removePm] using ih
  | case2 c cs hne ih =>
    rw [removePm.eq_2 _ _ hne, List.cons_append, removePm.eq_2, ih, List.cons_append]
    intro cs' hc hcs
    match cs, l with
    | [], [] => cases hcs
    | [], d :: ds =>
      obtain rfl : d = 'p' := (List.cons.inj hcs).1
      exact absurd (h _ List.mem_cons_self) (by decide)
    | [d], [] => simp at hcs
    | [d], d' :: ds =>
      obtain rfl : d' = 'm' := (List.cons.inj (List.cons.inj hcs).2).1
      exact absurd (h _ List.mem_cons_self) (by decide)
    | d :: d' :: ds, l =>
      simp only [List.cons_append, List.cons.injEq] at hcs
      exact hne ds hc (by rw [hcs.1, hcs.2.1])
  | case3 => simp [removePm, removePm_free hb]

theorem hasPm_right {l : Text} (h : ∀ c ∈ l, isPySpace c = true) (x : Text) : hasPm (x ++ l) = hasPm x := by
  have hb : '\\' ∉ l := fun hm => absurd (h _ hm) (by decide)
  induction x with
  | nil => simpa [hasPm] using hasPm_free hb
  | cons c cs ih =>
    have ht : ((cs ++ l).take 2 == ['p', 'm']) = (cs.take 2 == ['p', 'm']) := by
      match cs, l with
      | [], [] => rfl
      | [], [d] => rw [Bool.eq_iff_iff]; simp
      | [], d :: d' :: ds =>
        have hd := h d List.mem_cons_self
        rw [Bool.eq_iff_iff]
        simp only [List.nil_append, List.take_succ_cons, List.take_zero, List.take_nil, beq_iff_eq, List.cons.injEq, and_true]
        constructor
        · rintro ⟨rfl, -⟩
          exact absurd hd (by decide)
        · simp
      | [d], [] => rfl
      | [d], d' :: ds =>
        have hd := h d' List.mem_cons_self
        rw [Bool.eq_iff_iff]
        simp only [List.cons_append, List.nil_append, List.take_succ_cons, List.take_zero, List.take_nil, beq_iff_eq,
          List.cons.injEq, and_true]
        constructor
        · rintro ⟨-, rfl⟩
          exact absurd hd (by decide)
        · simp
      | d :: d' :: ds, l => rfl
    rw [List.cons_append, hasPm, hasPm, ih, ht]

theorem space_no_backslash {l : Text} (h : ∀ c ∈ l, isPySpace c = true) : ∀ c ∈ l, c ≠ '\\' := by
  rintro c hc rfl
  exact absurd (h _ hc) (by decide)

/-- White space around a unit is ignored. -/
theorem buildStackUnit_left {l : Text} (h : ∀ c ∈ l, isPySpace c = true) (x : Text) :
    buildStackUnit (l ++ x) = buildStackUnit x := by
  unfold buildStackUnit
  rw [removePm_left (space_no_backslash h), hasPm_left (space_no_backslash h)]
  unfold pyStrip
  rw [stripBy_left _ h]

theorem buildStackUnit_right {l : Text} (h : ∀ c ∈ l, isPySpace c = true) (x : Text) :
    buildStackUnit (x ++ l) = buildStackUnit x := by
  unfold buildStackUnit
  rw [removePm_right h, hasPm_right h]
  unfold pyStrip
  rw [stripBy_right _ h]

theorem pySplit_free {sep : Char} {x : Text} (h : sep ∉ x) : pySplit sep x = [x] := by
  induction x with
  | nil => rfl
  | cons c cs ih =>
    have hc : c ≠ sep := fun e => h (e ▸ List.mem_cons_self)
    simp [pySplit, hc, ih fun hm => h (List.mem_cons_of_mem _ hm)]

theorem pySplit_append {sep : Char} {x : Text} (h : sep ∉ x) (y : Text) : pySplit sep (x ++ sep :: y) = x :: pySplit sep y := by
  induction x with
  | nil => simp [pySplit]
  | cons c cs ih =>
    have hc : c ≠ sep := fun e => h (e ▸ List.mem_cons_self)
    simp [pySplit, hc, ih fun hm => h (List.mem_cons_of_mem _ hm)]

theorem angle_chars (a : Angle) (c : Char) (hc : c ∈ a.text) : isDig c = true ∨ c = '-' ∨ c = '+' ∨ c = '.' := by
  unfold Angle.text at hc
  simp only [List.mem_append] at hc
  rcases hc with (hc | hc) | hc
  · rcases hs : a.sign with _ | _ | _ <;> rw [hs] at hc <;> simp [signText] at hc <;> tauto
  · obtain ⟨d, -, rfl⟩ := List.mem_map.mp hc
    exact Or.inl (isDig_digitChar d)
  · rcases hf : a.frac with _ | ds <;> rw [hf] at hc
    · simp [fracText] at hc
    · rcases List.mem_cons.mp hc with rfl | hc
      · tauto
      · obtain ⟨d, -, rfl⟩ := List.mem_map.mp hc
        exact Or.inl (isDig_digitChar d)

theorem count_chars (n : Count) (c : Char) (hc : c ∈ n.text) : isDig c = true ∨ c = '{' ∨ c = '}' ∨ c = '-' ∨ c = '+' := by
  have core : ∀ c ∈ signText n.sign ++ (n.first :: n.digits).map digitChar,
      isDig c = true ∨ c = '{' ∨ c = '}' ∨ c = '-' ∨ c = '+' := by
    intro c hc
    rcases List.mem_append.mp hc with hc | hc
    · rcases hs : n.sign with _ | _ | _ <;> rw [hs] at hc <;> simp [signText] at hc <;> tauto
    · obtain ⟨d, -, rfl⟩ := List.mem_map.mp hc
      exact Or.inl (isDig_digitChar d)
  unfold Count.text at hc
  simp only at hc
  split at hc
  · rw [List.cons_append] at hc
    rcases List.mem_cons.mp hc with rfl | hc
    · tauto
    rcases List.mem_append.mp hc with hc | hc
    · exact core c hc
    · simp at hc; tauto
  · exact core c hc

theorem dig_cases {c : Char} (h : isDig c = true) : ∃ d : Fin 10, c = digitChar d := by
  have h2 : 48 ≤ c.toNat ∧ c.toNat ≤ 57 := by
    simp only [isDig, Bool.and_eq_true, decide_eq_true_eq] at h
    exact ⟨h.1, h.2⟩
  refine ⟨⟨c.toNat - 48, by omega⟩, ?_⟩
  unfold digitChar
  simp only
  rw [show 48 + (c.toNat - 48) = c.toNat by omega, Char.ofNat_toNat]

/-- Text of a unit without the blanks. -/
def SUnitCore (u : SUnit) : Text := (if u.pm then ['\\', 'p', 'm'] else []) ++ (u.angle.text ++ countText u.count)

theorem body_chars (u : SUnit) (c : Char) (hc : c ∈ u.angle.text ++ countText u.count) :
    isDig c = true ∨ c = '-' ∨ c = '+' ∨ c = '.' ∨ c = '_' ∨ c = '{' ∨ c = '}' := by
  rcases List.mem_append.mp hc with hc | hc
  · have := angle_chars _ _ hc
    tauto
  · rcases hn : u.count with _ | n <;> rw [hn] at hc
    · cases hc
    · rcases List.mem_cons.mp hc with rfl | hc
      · tauto
      · have := count_chars n c hc
        tauto

theorem body_not {P : Char → Bool} (hd : ∀ d, P (digitChar d) = false) (h1 : P '-' = false) (h2 : P '+' = false) (h3 : P '.' = false)
    (h4 : P '_' = false) (h5 : P '{' = false) (h6 : P '}' = false) (u : SUnit) (c : Char)
    (hc : c ∈ u.angle.text ++ countText u.count) : P c = false := by
  rcases body_chars u c hc with h | rfl | rfl | rfl | rfl | rfl | rfl
  · obtain ⟨d, rfl⟩ := dig_cases h
    exact hd d
  all_goals assumption

theorem angle_no_underscore (a : Angle) : '_' ∉ a.text := by
  intro h
  rcases angle_chars a _ h with h | h | h | h <;> revert h <;> decide

theorem dropBraces_count (n : Count) : dropBraces n.text = signText n.sign ++ (n.first :: n.digits).map digitChar := by
  have hd : dropBraces (signText n.sign ++ (n.first :: n.digits).map digitChar) =
      signText n.sign ++ (n.first :: n.digits).map digitChar := by
    unfold dropBraces
    rw [List.filter_eq_self]
    intro c hc
    rcases List.mem_append.mp hc with hc | hc
    · rcases hs : n.sign with _ | _ | _ <;> rw [hs] at hc <;> simp [signText] at hc <;> subst hc <;> decide
    · obtain ⟨d, -, rfl⟩ := List.mem_map.mp hc
      fin_cases d <;> decide
  unfold Count.text
  simp only
  split
  · unfold dropBraces at hd ⊢
    rw [List.cons_append, List.filter_cons_of_neg (by decide), List.filter_append, hd]
    simp
  · exact hd

/-- The integer read from a count, and the number of repetitions. -/
theorem count_toNat (n : Count) :
    (if n.sign = some true then -(number (n.first :: n.digits) : ℤ) else number (n.first :: n.digits)).toNat = n.value := by
  unfold Count.value
  split
  · simp
  · simp

theorem flipSign_fin (i : ℕ) (q : ℚ) : flipSign i (.fin q) = .fin (if i % 2 = 0 then q else -q) := by
  show XF.fin ((-1) ^ i * q) = _
  rcases Nat.mod_two_eq_zero_or_one i with h | h
  · rw [if_pos h, (Nat.even_iff.mpr h).neg_one_pow, one_mul]
  · rw [if_neg (by omega), (Nat.odd_iff.mpr h).neg_one_pow, neg_one_mul]

theorem unit_core (u : SUnit) : buildStackUnit (SUnitCore u) = .ok (u.plies.map .fin) := by
  have hb : '\\' ∉ u.angle.text ++ countText u.count := by
    intro h
    have := body_not (P := (· == '\\')) (by decide) rfl rfl rfl rfl rfl rfl u _ h
    exact absurd this (by decide)
  have hpm : hasPm (SUnitCore u) = u.pm := by
    unfold SUnitCore
    rcases u.pm with _ | _
    · simpa using hasPm_free hb
    · rfl
  have hrm : removePm (SUnitCore u) = u.angle.text ++ countText u.count := by
    unfold SUnitCore
    rcases u.pm with _ | _
    · simpa using removePm_free hb
    · simpa [removePm] using removePm_free hb
  have hst : pyStrip (u.angle.text ++ countText u.count) = u.angle.text ++ countText u.count := by
    have hsp := body_not (P := isPySpace) pySpace_digitChar (by decide) (by decide) (by decide) (by decide) (by decide) (by decide) u
    exact stripBy_id (fun c hc => hsp c (List.mem_of_mem_head? hc)) fun c hc => hsp c (List.mem_of_getLast? hc)
  unfold buildStackUnit
  rw [hrm, hst, hpm]
  rcases hn : u.count with _ | n
  · rw [show countText none = [] from rfl, List.append_nil, pySplit_free (angle_no_underscore _)]
    simp only [pyFloat, parseFloat_angle, ok_bind]
    rcases hp : u.pm with _ | _
    · simp [SUnit.plies, hn, hp]
    · simp [SUnit.plies, hn, hp, buildPmUnit, flipSign]
  · rw [show countText (some n) = '_' :: n.text from rfl, pySplit_append (angle_no_underscore _), pySplit_free]
    · simp only [pyFloat, parseFloat_angle, ok_bind, dropBraces_count, pyInt, parseInt_signed]
      rcases hp : u.pm with _ | _
      · simp [SUnit.plies, hn, hp, count_toNat]
      · simp only [if_true, SUnit.plies, hn, hp, buildPmUnit, count_toNat, Option.map_some, Option.getD_some,
          List.map_map, Except.ok.injEq]
        apply List.map_congr_left
        intro i _
        exact flipSign_fin i _
    · intro h
      rcases count_chars n _ h with h | h | h | h | h <;> revert h <;> decide

theorem blanks_space (n : ℕ) : ∀ c ∈ blanks n, isPySpace c = true := by
  intro c hc
  obtain rfl := List.eq_of_mem_replicate hc
  decide

theorem blanks_numSpace (n : ℕ) : ∀ c ∈ blanks n, isNumSpace c = true := by
  intro c hc
  obtain rfl := List.eq_of_mem_replicate hc
  decide

theorem blanks_add (i j : ℕ) : blanks (i + j) = blanks i ++ blanks j := List.replicate_add i j ' '

theorem unit_text (u : SUnit) : u.text = blanks u.before ++ SUnitCore u ++ blanks u.after := by
  simp [SUnit.text, SUnitCore]

/-- `_build_stack_unit` of a unit with blanks around it. -/
theorem unit_parses (u : SUnit) (i j : ℕ) : buildStackUnit (blanks i ++ u.text ++ blanks j) = .ok (u.plies.map .fin) := by
  rw [unit_text, buildStackUnit_right (blanks_space j), buildStackUnit_left (blanks_space i), buildStackUnit_right (blanks_space _),
    buildStackUnit_left (blanks_space _), unit_core]

theorem unit_plain (u : SUnit) : ∀ c ∈ u.text, plain c := by
  intro c hc
  rw [unit_text] at hc
  simp only [List.mem_append] at hc
  rcases hc with (hc | hc) | hc
  · exact space_plain (blanks_space _ c hc)
  · unfold SUnitCore at hc
    rcases List.mem_append.mp hc with hc | hc
    · split at hc
      · simp only [List.mem_cons, List.not_mem_nil, or_false] at hc
        rcases hc with rfl | rfl | rfl <;> simp [plain]
      · cases hc
    · rcases body_chars u c hc with h | rfl | rfl | rfl | rfl | rfl | rfl
      · obtain ⟨d, rfl⟩ := dig_cases h
        exact ⟨digitChar_ne (by decide) d, digitChar_ne (by decide) d, digitChar_ne (by decide) d⟩
      all_goals simp [plain]
  · exact space_plain (blanks_space _ c hc)

/-! ## Items -/

/-- Inside a group, the units up to the closing parenthesis fill the block. -/
theorem group_run (u : SUnit) (us : List SUnit) (i : ℕ) (ys bl : List (XF ℚ)) (y : List (XF ℚ)) :
    ∃ y', seqRun (slashed ((u :: us).map SUnit.text) ++ [')']) ⟨ys, y, bl, blanks i, true, false⟩ =
      .ok ⟨ys, y', bl ++ ((u :: us).flatMap SUnit.plies).map .fin, [], true, true⟩ := by
  induction us generalizing u i bl y with
  | nil =>
    refine ⟨u.plies.map .fin, ?_⟩
    simp only [List.map_cons, List.map_nil, slashed]
    rw [seqRun_append, seqRun_plain (unit_plain u)]
    have := unit_parses u i 0
    simp only [blanks, List.replicate_zero, List.append_nil] at this
    simp [seqRun, seqStep, blanks, this]
  | cons v vs ih =>
    have := unit_parses u i 0
    simp only [blanks, List.replicate_zero, List.append_nil] at this
    obtain ⟨y', h⟩ := ih v 0 (bl ++ u.plies.map .fin) (u.plies.map .fin)
    refine ⟨y', ?_⟩
    rw [List.map_cons, List.map_cons, slashed, List.append_assoc, List.append_assoc, seqRun_append, seqRun_plain (unit_plain u), ok_bind,
      seqRun_append]
    · simp only [seqRun, seqStep, blanks, this, ok_bind, ← List.map_cons]
      simp only [show ('/' == '(') = false from rfl, show ('/' == ')') = false from rfl, beq_self_eq_true, if_true,
        Bool.false_eq_true, if_false, ok_bind]
      have h' : seqRun (slashed (List.map SUnit.text (v :: vs)) ++ [')'])
        ⟨ys, u.plies.map .fin, bl ++ u.plies.map .fin, [], true, false⟩ = _ := h
      rw [h']
      simp
    · simp

theorem count_plain (n : Count) : ∀ c ∈ n.text, plain c := by
  intro c hc
  rcases count_chars n c hc with h | rfl | rfl | rfl | rfl
  · obtain ⟨d, rfl⟩ := dig_cases h
    exact ⟨digitChar_ne (by decide) d, digitChar_ne (by decide) d, digitChar_ne (by decide) d⟩
  all_goals simp [plain]

theorem blockTimes_count (b : Bool) (n : Count) (j : ℕ) :
    blockTimes ((if b then ['_'] else []) ++ n.text ++ blanks j) =
      .ok (if n.sign = some true then -(number (n.first :: n.digits) : ℤ) else number (n.first :: n.digits)) := by
  have hf : ((if b then ['_'] else []) ++ n.text ++ blanks j).filter (· != '_') = n.text ++ blanks j := by
    rw [List.filter_append, List.filter_append]
    have h1 : n.text.filter (· != '_') = n.text := by
      rw [List.filter_eq_self]
      intro c hc
      rcases count_chars n c hc with h | rfl | rfl | rfl | rfl
      · obtain ⟨d, rfl⟩ := dig_cases h
        simpa using digitChar_ne (by decide) d
      all_goals decide
    have h2 : (blanks j).filter (· != '_') = blanks j := by
      rw [List.filter_eq_self]
      intro c hc
      obtain rfl := List.eq_of_mem_replicate hc
      decide
    rw [h1, h2]
    rcases b <;> simp
  have hb : dropBraces (n.text ++ blanks j) = signText n.sign ++ (n.first :: n.digits).map digitChar ++ blanks j := by
    have h2 : dropBraces (blanks j) = blanks j := by
      unfold dropBraces
      rw [List.filter_eq_self]
      intro c hc
      obtain rfl := List.eq_of_mem_replicate hc
      decide
    have h3 := dropBraces_count n
    unfold dropBraces at h2 h3 ⊢
    rw [List.filter_append, h3, h2]
  unfold blockTimes
  rw [hf, hb]
  simp only [pyInt, parseInt_right (blanks_numSpace j), parseInt_signed]

/-- One item followed by `/` appends its plies. -/
theorem item_run (it : Item) (i j : ℕ) (ys y : List (XF ℚ)) :
    seqRun (it.text ++ blanks j ++ ['/']) ⟨ys, y, [], blanks i, false, false⟩ =
      .ok ⟨ys ++ it.plies.map .fin, [], [], [], false, false⟩ := by
  cases it with
  | unit u =>
    simp only [Item.text, Item.plies]
    rw [List.append_assoc, seqRun_append, seqRun_plain (unit_plain u), ok_bind, seqRun_append,
      seqRun_plain fun c hc => space_plain (blanks_space j c hc), ok_bind]
    have := unit_parses u i j
    rw [List.append_assoc] at this
    simp [seqRun, seqStep, this]
  | group i' u us b n j' =>
    simp only [Item.text, Item.plies]
    obtain ⟨y', hg⟩ := group_run u us (i + i') ys [] y
    rw [show blanks i' ++ ['('] ++ slashed ((u :: us).map SUnit.text) ++ [')'] ++ (if b then ['_'] else []) ++ n.text ++ blanks j' ++
        blanks j ++ ['/'] = blanks i' ++ (['('] ++ ((slashed ((u :: us).map SUnit.text) ++ [')']) ++
          (((if b then ['_'] else []) ++ n.text ++ blanks (j' + j)) ++ ['/']))) by
      rw [blanks_add]
      simp only [List.append_assoc]]
    rw [seqRun_append, seqRun_plain fun c hc => space_plain (blanks_space i' c hc), ok_bind, seqRun_append]
    have h1 : seqRun ['('] ⟨ys, y, [], blanks i ++ blanks i', false, false⟩ = .ok ⟨ys, y, [], blanks (i + i'), true, false⟩ := by
      rw [blanks_add]
      rfl
    simp only
    rw [h1, ok_bind, seqRun_append, hg, ok_bind, seqRun_append, seqRun_plain, ok_bind]
    · have := blockTimes_count b n (j' + j)
      simp only [List.nil_append, seqRun, seqStep, this, ok_bind, pyRepeat, count_toNat]
      simp [List.map_flatten]
    · intro c hc
      simp only [List.mem_append] at hc
      rcases hc with (hc | hc) | hc
      · rcases b <;> simp at hc
        subst hc
        simp [plain]
      · exact count_plain n c hc
      · exact space_plain (blanks_space _ c hc)

theorem items_run (it : Item) (its : List Item) (i j : ℕ) (ys y : List (XF ℚ)) :
    seqRun (slashed ((it :: its).map Item.text) ++ blanks j ++ ['/']) ⟨ys, y, [], blanks i, false, false⟩ =
      .ok ⟨ys ++ ((it :: its).flatMap Item.plies).map .fin, [], [], [], false, false⟩ := by
  induction its generalizing it i ys y with
  | nil => simpa [slashed] using item_run it i j ys y
  | cons v vs ih =>
    have h1 := item_run it i 0 ys y
    simp only [blanks, List.replicate_zero, List.append_nil] at h1
    have h2 := ih v 0 (ys ++ it.plies.map .fin) []
    rw [List.map_cons, List.map_cons, slashed, List.append_assoc, List.append_assoc, seqRun_append (it.text ++ ['/'])]
    · unfold blanks at *
      rw [h1, ok_bind]
      simp only [List.replicate_zero, ← List.map_cons, List.append_assoc] at h2 ⊢
      rw [h2]
      simp
    · simp

/-! ## White space at the ends of the whole text -/

/-- White space in front of the text is ignored by the loop. -/
theorem seqRun_leading {l : Text} (hl : ∀ c ∈ l, isPySpace c = true) (x : Text) (st : SeqState) (hm : st.isMult = false) :
    seqRun (x ++ ['/']) { st with cur := l ++ st.cur } = seqRun (x ++ ['/']) st := by
  induction x generalizing st with
  | nil =>
    obtain ⟨ys, y, bl, cur, b, m⟩ := st
    obtain rfl : m = false := hm
    rcases b <;> simp [seqRun, seqStep, buildStackUnit_left hl]
  | cons c cs ih =>
    obtain ⟨ys, y, bl, cur, b, m⟩ := st
    obtain rfl : m = false := hm
    simp only [List.cons_append, seqRun]
    by_cases h1 : c = '('
    · subst h1
      simp only [seqStep, beq_self_eq_true, if_true, ok_bind]
      exact ih ⟨ys, y, bl, cur, true, false⟩ rfl
    by_cases h2 : c = ')'
    · subst h2
      simp [seqStep, buildStackUnit_left hl]
    by_cases h3 : c = '/'
    · subst h3
      rcases b <;> simp [seqStep, buildStackUnit_left hl]
    · rw [seqStep_plain ⟨h1, h2, h3⟩, seqStep_plain ⟨h1, h2, h3⟩, ok_bind, ok_bind]
      have := ih ⟨ys, y, bl, cur ++ [c], b, false⟩ rfl
      simpa using this

/-- White space after the text is ignored by the loop when the call succeeds. -/
theorem seqRun_trailing {l : Text} (hl : ∀ c ∈ l, isPySpace c = true) (x : Text) (st st' : SeqState)
    (h : seqRun (x ++ l ++ ['/']) st = .ok st') : seqRun (x ++ ['/']) st = .ok st' := by
  rw [List.append_assoc, seqRun_append] at h
  rw [seqRun_append]
  rcases hx : seqRun x st with e | s1
  · rw [hx] at h; cases h
  rw [hx, ok_bind, seqRun_append, seqRun_plain fun c hc => space_plain (hl c hc), ok_bind] at h
  rw [ok_bind]
  have hbt : ∀ v, blockTimes (s1.cur ++ l) = .ok v → blockTimes s1.cur = .ok v := by
    intro v hv
    have hf : dropBraces ((s1.cur ++ l).filter (· != '_')) = dropBraces (s1.cur.filter (· != '_')) ++ l := by
      unfold dropBraces
      rw [List.filter_append, List.filter_append]
      congr 1
      rw [List.filter_filter, List.filter_eq_self]
      intro c hc
      have := hl c hc
      have h1 : c ≠ '_' := by rintro rfl; exact absurd this (by decide)
      have h2 : c ≠ '{' := by rintro rfl; exact absurd this (by decide)
      have h3 : c ≠ '}' := by rintro rfl; exact absurd this (by decide)
      simp [h1, h2, h3]
    unfold blockTimes pyInt at hv ⊢
    rw [hf] at hv
    rcases hp : parseInt (dropBraces (s1.cur.filter (· != '_')) ++ l) with _ | w
    · rw [hp] at hv; cases hv
    rw [hp] at hv
    rw [parseInt_trailing hl hp]
    exact hv
  obtain ⟨ys, y, bl, cur, b, m⟩ := s1
  simp only [seqRun, seqStep] at h ⊢
  simp only [show ('/' == '(') = false from rfl, show ('/' == ')') = false from rfl, beq_self_eq_true, if_true,
    Bool.false_eq_true, if_false] at h ⊢
  rcases b <;> rcases m <;> simp only [buildStackUnit_right hl] at h ⊢
  · exact h
  · rcases hv : blockTimes (cur ++ l) with e | v
    · rw [hv] at h; cases h
    · rw [hv] at h
      rw [hbt v hv]
      exact h
  · exact h
  · rcases hv : blockTimes (cur ++ l) with e | v
    · rw [hv] at h; cases h
    · rw [hv] at h
      rw [hbt v hv]
      exact h

/-- The characters left for the loop. -/
def loopText (s : Text) : Text := (s.filter (· != 's')).filter fun c => c != '[' && c != ']'

theorem loopText_append (x y : Text) : loopText (x ++ y) = loopText x ++ loopText y := by
  simp [loopText, List.filter_append]

theorem loopText_id {x : Text} (h : ∀ c ∈ x, c ≠ 's' ∧ c ≠ '[' ∧ c ≠ ']') : loopText x = x := by
  unfold loopText
  rw [List.filter_filter, List.filter_eq_self]
  intro c hc
  obtain ⟨h1, h2, h3⟩ := h c hc
  simp [h1, h2, h3]

theorem loopText_space {l : Text} (h : ∀ c ∈ l, isPySpace c = true) : loopText l = l := by
  apply loopText_id
  intro c hc
  have := h c hc
  refine ⟨?_, ?_, ?_⟩ <;> rintro rfl <;> revert this <;> decide

/-- Stripping the text does not change a successful run of the loop. -/
theorem loop_strip (s : Text) (st : SeqState) (h : seqRun (loopText s ++ ['/']) .init = .ok st) :
    seqRun (loopText (pyStrip s) ++ ['/']) .init = .ok st := by
  obtain ⟨l, r, hs, hl, hr⟩ := stripBy_split isPySpace s
  rw [hs, loopText_append, loopText_append, loopText_space hl, loopText_space hr, List.append_assoc, List.append_assoc,
    seqRun_append, seqRun_plain fun c hc => space_plain (hl c hc), ok_bind] at h
  have h2 := seqRun_leading hl (loopText (stripBy isPySpace s) ++ r) .init rfl
  simp only [SeqState.init, List.append_nil, List.nil_append, List.append_assoc] at h2 h
  rw [h2, ← List.append_assoc] at h
  exact seqRun_trailing hr _ _ _ h

theorem buildSequence_eq {s : Text} {c : Char} (hl : (pyStrip s).getLast? = some c) (hne : (pyStrip s).filter (· != 's') ≠ []) :
    buildSequence s = (seqRun (loopText (pyStrip s) ++ ['/']) .init).map fun st =>
      if c = 's' ∨ c = 'S' then st.unities ++ st.unities.reverse else st.unities := by
  unfold buildSequence
  simp only [hl]
  rcases hf : (pyStrip s).filter (· != 's') with _ | ⟨d, ds⟩
  · exact absurd hf hne
  rw [← hf]
  show (seqRun (loopText (pyStrip s) ++ ['/']) .init >>= _) = _
  rcases seqRun (loopText (pyStrip s) ++ ['/']) .init with e | st
  · rfl
  · by_cases hc : c = 's' ∨ c = 'S'
    · simp only [ok_bind, Except.map, if_pos hc]
      rw [if_pos (by simpa using hc)]
    · simp only [ok_bind, Except.map, if_neg hc]
      rw [if_neg (by simpa using hc)]

/-! ## C60 -/

theorem mem_slashed {ts : List Text} {c : Char} (h : c ∈ slashed ts) : c = '/' ∨ ∃ t ∈ ts, c ∈ t := by
  induction ts with
  | nil => cases h
  | cons t ts ih =>
    cases ts with
    | nil => exact Or.inr ⟨t, List.mem_cons_self, h⟩
    | cons t' ts =>
      simp only [slashed, List.mem_append, List.mem_singleton] at h
      rcases h with (h | h) | h
      · exact Or.inr ⟨t, List.mem_cons_self, h⟩
      · exact Or.inl h
      · rcases ih h with h | ⟨t'', ht, h⟩
        · exact Or.inl h
        · exact Or.inr ⟨t'', List.mem_cons_of_mem _ ht, h⟩

theorem slashed_mem {ts : List Text} {t : Text} {c : Char} (ht : t ∈ ts) (h : c ∈ t) : c ∈ slashed ts := by
  induction ts with
  | nil => cases ht
  | cons t' ts ih =>
    cases ts with
    | nil =>
      obtain rfl : t = t' := by simpa using ht
      exact h
    | cons t'' ts =>
      simp only [slashed, List.mem_append, List.mem_singleton]
      rcases List.mem_cons.mp ht with rfl | ht
      · exact Or.inl (Or.inl h)
      · exact Or.inr (ih ht)

/-- Letters that do not occur inside items. -/
def reserved (c : Char) : Prop := c = 's' ∨ c = 'S' ∨ c = '[' ∨ c = ']'

theorem free_s {c : Char} (h : ¬ reserved c) : ¬ (c = 's' ∨ c = 'S') := fun hc => h (hc.elim Or.inl fun h => Or.inr (Or.inl h))

theorem blanks_free {c : Char} {n : ℕ} (h : c ∈ blanks n) : ¬ reserved c := by
  obtain rfl := List.eq_of_mem_replicate h
  unfold reserved
  decide

theorem dig_free {c : Char} (h : isDig c = true) : ¬ reserved c := by
  rintro (rfl | rfl | rfl | rfl) <;> revert h <;> decide

theorem unit_free {u : SUnit} {c : Char} (h : c ∈ u.text) : ¬ reserved c := by
  rw [unit_text] at h
  simp only [List.mem_append] at h
  rcases h with (h | h) | h
  · exact blanks_free h
  · unfold SUnitCore at h
    rcases List.mem_append.mp h with h | h
    · split at h
      · simp only [List.mem_cons, List.not_mem_nil, or_false] at h
        rcases h with rfl | rfl | rfl <;> simp [reserved]
      · cases h
    · rcases body_chars u c h with h | rfl | rfl | rfl | rfl | rfl | rfl
      · exact dig_free h
      all_goals simp [reserved]
  · exact blanks_free h

theorem item_free {it : Item} {c : Char} (h : c ∈ it.text) : ¬ reserved c := by
  cases it with
  | unit u => exact unit_free h
  | group i u us b n j =>
    simp only [Item.text, List.mem_append] at h
    rcases h with (((((h | h) | h) | h) | h) | h) | h
    · exact blanks_free h
    · obtain rfl : c = '(' := by simpa using h
      simp [reserved]
    · rcases mem_slashed h with rfl | ⟨t, ht, h⟩
      · simp [reserved]
      · obtain ⟨v, -, rfl⟩ := List.mem_map.mp ht
        exact unit_free h
    · obtain rfl : c = ')' := by simpa using h
      simp [reserved]
    · rcases b <;> simp at h
      subst h
      simp [reserved]
    · rcases count_chars n c h with h | rfl | rfl | rfl | rfl
      · exact dig_free h
      all_goals simp [reserved]
    · exact blanks_free h

theorem items_free {its : List Item} {c : Char} (h : c ∈ slashed (its.map Item.text)) : ¬ reserved c := by
  rcases mem_slashed h with rfl | ⟨t, ht, h⟩
  · simp [reserved]
  · obtain ⟨it, -, rfl⟩ := List.mem_map.mp ht
    exact item_free h

theorem unit_has_digit (u : SUnit) : digitChar u.angle.first ∈ u.text := by
  simp [SUnit.text, Angle.text]

theorem item_has_digit (it : Item) : ∃ d : Fin 10, digitChar d ∈ it.text := by
  cases it with
  | unit u => exact ⟨_, unit_has_digit u⟩
  | group i u us b n j =>
    refine ⟨u.angle.first, ?_⟩
    simp only [Item.text, List.mem_append]
    exact Or.inl (Or.inl (Or.inl (Or.inl (Or.inr
      (slashed_mem (List.mem_map_of_mem List.mem_cons_self) (unit_has_digit u))))))

theorem strip_end {p : Char → Bool} {c : Char} (hc : p c = false) (x : Text) : stripBy p (x ++ [c]) = (x ++ [c]).dropWhile p := by
  unfold stripBy
  rw [dropWhile_reverse_comm, List.reverse_append]
  simp only [List.reverse_cons, List.reverse_nil, List.nil_append, List.singleton_append, List.dropWhile_cons, hc,
    Bool.false_eq_true, if_false, List.reverse_reverse]

/-- The last character survives stripping when it is not white space. -/
theorem getLast_strip {p : Char → Bool} {c : Char} (hc : p c = false) (x : Text) : (stripBy p (x ++ [c])).getLast? = some c := by
  unfold stripBy
  rw [dropWhile_reverse_comm, List.reverse_append, List.reverse_singleton, List.singleton_append, List.dropWhile_cons, hc]
  simp only [Bool.false_eq_true, if_false, List.reverse_cons, List.reverse_reverse]
  induction x with
  | nil => simp [List.dropWhile_cons, hc]
  | cons d ds ih =>
    rw [List.cons_append, List.dropWhile_cons]
    split
    · exact ih
    · rw [← List.cons_append, List.getLast?_append]; rfl

theorem strip_subset {p : Char → Bool} {s : Text} {c : Char} (h : c ∈ stripBy p s) : c ∈ s := by
  obtain ⟨l, r, hs, -, -⟩ := stripBy_split p s
  rw [hs]
  simp [h]

theorem strip_keeps {p : Char → Bool} {s : Text} {c : Char} (h : c ∈ s) (hc : p c = false) : c ∈ stripBy p s := by
  obtain ⟨l, r, hs, hl, hr⟩ := stripBy_split p s
  rw [hs] at h
  simp only [List.mem_append] at h
  rcases h with (h | h) | h
  · rw [hl c h] at hc; cases hc
  · exact h
  · rw [hr c h] at hc; cases hc

/-- **C60**: `build_sequence` of the text of any stacking expression is its expansion. -/
theorem C60_expands (e : Stacking) : buildSequence e.text = .ok (e.plies.map .fin) := by
  have hloop : loopText e.text = blanks e.before ++ (slashed ((e.item :: e.items).map Item.text) ++ blanks e.after) := by
    unfold Stacking.text
    simp only [loopText_append]
    rw [loopText_space (blanks_space _), loopText_space (blanks_space _), loopText_id (x := slashed _) fun c hc => ?_]
    · rcases e.brackets <;> rcases e.symm <;> simp [loopText]
    · have := items_free hc
      unfold reserved at this
      tauto
  have hrun : seqRun (loopText e.text ++ ['/']) .init = .ok ⟨((e.item :: e.items).flatMap Item.plies).map .fin, [], [], [], false, false⟩ := by
    rw [hloop, List.append_assoc, seqRun_append, seqRun_plain fun c hc => space_plain (blanks_space _ c hc), ok_bind]
    have := items_run e.item e.items e.before e.after [] []
    simpa [SeqState.init] using this
  have hrun2 := loop_strip _ _ hrun
  obtain ⟨d, hd⟩ := item_has_digit e.item
  have hmem : digitChar d ∈ pyStrip e.text := by
    refine strip_keeps ?_ (pySpace_digitChar d)
    unfold Stacking.text
    simp only [List.mem_append]
    exact Or.inl (Or.inl (Or.inl (Or.inr (slashed_mem (List.mem_map_of_mem List.mem_cons_self) hd))))
  have hne : (pyStrip e.text).filter (· != 's') ≠ [] := by
    intro h
    rw [List.filter_eq_nil_iff] at h
    exact h _ hmem (by simpa using digitChar_ne (by decide) d)
  have hlast : ∃ c, (pyStrip e.text).getLast? = some c ∧ ((c = 's' ∨ c = 'S') ↔ e.symm = true) := by
    rcases hs : e.symm with _ | _
    · rcases hl : (pyStrip e.text).getLast? with _ | c
      · rw [List.getLast?_eq_none_iff] at hl
        rw [hl] at hmem
        cases hmem
      · refine ⟨c, rfl, ?_⟩
        have hc := strip_subset (List.mem_of_getLast? hl)
        unfold Stacking.text at hc
        simp only [hs, Bool.false_eq_true, if_false, List.append_nil, List.mem_append] at hc
        have hr : ¬ (c = 's' ∨ c = 'S') := by
          rcases hc with (((hc | hc) | hc) | hc) | hc
          · exact free_s (blanks_free hc)
          · split at hc
            · obtain rfl := List.mem_singleton.mp hc
              decide
            · cases hc
          · exact free_s (items_free hc)
          · split at hc
            · obtain rfl := List.mem_singleton.mp hc
              decide
            · cases hc
          · exact free_s (blanks_free hc)
        simpa using hr
    · refine ⟨'s', ?_, by simp⟩
      unfold Stacking.text pyStrip
      rw [stripBy_right _ (blanks_space _), hs]
      exact getLast_strip (by decide) _
  obtain ⟨c, hl, hc⟩ := hlast
  rw [buildSequence_eq hl hne, hrun2]
  simp only [Except.map, Stacking.plies]
  by_cases h : e.symm = true
  · rw [if_pos (hc.mpr h), if_pos h]
    simp
  · rw [if_neg fun h' => h (hc.mp h'), if_neg h]

/-! ## C61 -/

/-- **C61**: for a text `u` without the letter `s`, `build_sequence(u + 's')` is `build_sequence(u)` followed by its mirror image,
and fails with the same exception when that fails. -/
theorem C61_symmetric (u : Text) (c : Char) (hu : 's' ∉ u) (hc : u.getLast? = some c) (hsp : isPySpace c = false) (hS : c ≠ 'S') :
    buildSequence (u ++ ['s']) = (buildSequence u).map fun h => h ++ h.reverse := by
  obtain ⟨x, rfl⟩ : ∃ x, u = x ++ [c] := by
    obtain ⟨x, hx⟩ := List.getLast?_eq_some_iff.mp hc
    exact ⟨x, hx⟩
  have h1 : (pyStrip (x ++ [c])).getLast? = some c := getLast_strip hsp x
  have h2 : (pyStrip ((x ++ [c]) ++ ['s'])).getLast? = some 's' := getLast_strip (by decide) _
  have hcs : c ≠ 's' := by rintro rfl; simp at hu
  have hmem : ∀ {t : Text}, c ∈ t → (pyStrip t).filter (· != 's') ≠ [] := by
    intro t ht h
    rw [List.filter_eq_nil_iff] at h
    exact h c (strip_keeps ht hsp) (by simpa using hcs)
  have h3 : pyStrip ((x ++ [c]) ++ ['s']) = pyStrip (x ++ [c]) ++ ['s'] := by
    unfold pyStrip
    rw [strip_end (by decide), strip_end hsp, List.dropWhile_append]
    split
    · rename_i h
      exfalso
      rw [List.isEmpty_iff, List.dropWhile_eq_nil_iff] at h
      have := h c (by simp)
      rw [hsp] at this
      cases this
    · rfl
  rw [buildSequence_eq h2 (hmem (by simp)), buildSequence_eq h1 (hmem (by simp)), h3, loopText_append]
  rw [show loopText ['s'] = [] from rfl, List.append_nil]
  rcases seqRun (loopText (pyStrip (x ++ [c])) ++ ['/']) .init with e | st
  · rfl
  · simp [Except.map, hcs, hS]

/-- Exceptions other than `ValueError` do not occur in the loop. -/
theorem unit_error {s : Text} {e : PyErr} (h : buildStackUnit s = .error e) : e = .valueError := by
  unfold buildStackUnit pyFloat pyInt at h
  split at h
  · rename_i a _
    rcases hf : parseFloat a with _ | x <;> rw [hf] at h
    · exact (Except.error.inj h).symm
    · simp only [ok_bind] at h
      split at h <;> cases h
  · rename_i a t _
    rcases hf : parseFloat a with _ | x <;> rw [hf] at h
    · exact (Except.error.inj h).symm
    · rcases hi : parseInt (dropBraces t) with _ | y <;> rw [hi] at h
      · exact (Except.error.inj h).symm
      · simp only [ok_bind] at h
        split at h <;> cases h
  · exact (Except.error.inj h).symm

theorem blockTimes_error {s : Text} {e : PyErr} (h : blockTimes s = .error e) : e = .valueError := by
  unfold blockTimes pyInt at h
  split at h
  · cases h
  · exact (Except.error.inj h).symm

theorem bind_error {α β : Type} {x : Except PyErr α} {f : α → β} {e : PyErr} (h : (x >>= fun a => Except.ok (f a)) = .error e) :
    x = .error e := by
  cases x with
  | error e' => exact congrArg _ (Except.error.inj h)
  | ok a => cases h

theorem seqStep_error {st : SeqState} {c : Char} {e : PyErr} (h : seqStep st c = .error e) : e = .valueError := by
  unfold seqStep at h
  split at h
  · cases h
  split at h
  · exact unit_error (bind_error h)
  split at h
  · split at h
    · exact unit_error (bind_error h)
    · exact unit_error (bind_error h)
    · exact blockTimes_error (bind_error h)
    · exact blockTimes_error (bind_error h)
  · cases h

theorem seqRun_error {x : Text} {st : SeqState} {e : PyErr} (h : seqRun x st = .error e) : e = .valueError := by
  induction x generalizing st with
  | nil => cases h
  | cons c cs ih =>
    simp only [seqRun] at h
    rcases hs : seqStep st c with e' | st'
    · rw [hs] at h
      obtain rfl := Except.error.inj h
      exact seqStep_error hs
    · rw [hs] at h
      exact ih h

theorem mem_removePm {c : Char} (h1 : c ≠ '\\') (h2 : c ≠ 'p') (h3 : c ≠ 'm') {s : Text} (h : c ∈ s) : c ∈ removePm s := by
  induction s using removePm.induct with
  | case1 cs ih =>
    simp only [List.mem_cons, h1, h2, h3, false_or] at h
    simpa [removePm] using ih h
  | case2 d cs hne ih =>
    rw [removePm.eq_2 _ _ hne]
    rcases List.mem_cons.mp h with rfl | h
    · exact List.mem_cons_self
    · exact List.mem_cons_of_mem _ (ih h)
  | case3 => cases h

theorem mem_pySplit {sep c : Char} (hc : c ≠ sep) {s : Text} (h : c ∈ s) : ∃ p ∈ pySplit sep s, c ∈ p := by
  induction s with
  | nil => cases h
  | cons d ds ih =>
    unfold pySplit
    by_cases hd : d = sep
    · subst hd
      rw [if_pos (by simp)]
      rcases List.mem_cons.mp h with rfl | h
      · exact absurd rfl hc
      · obtain ⟨p, hp, hcp⟩ := ih h
        exact ⟨p, List.mem_cons_of_mem _ hp, hcp⟩
    · rw [if_neg (by simpa using hd)]
      rcases hs : pySplit sep ds with _ | ⟨p, ps⟩
      · rcases List.mem_cons.mp h with rfl | h
        · exact ⟨[c], by simp, by simp⟩
        · obtain ⟨p, hp, -⟩ := ih h
          rw [hs] at hp
          cases hp
      · rcases List.mem_cons.mp h with rfl | h
        · exact ⟨c :: p, by simp, by simp⟩
        · obtain ⟨p', hp, hcp⟩ := ih h
          rw [hs] at hp
          rcases List.mem_cons.mp hp with rfl | hp
          · exact ⟨d :: p', by simp, List.mem_cons_of_mem _ hcp⟩
          · exact ⟨p', List.mem_cons_of_mem _ hp, hcp⟩

theorem badFloat_S : badFloatChar 'S' := by
  unfold badFloatChar
  decide

theorem int_no_S {s : Text} {v : ℤ} (h : parseInt s = some v) : 'S' ∉ s := by
  intro hm
  have := parseInt_chars h _ hm
  revert this
  decide

theorem unit_no_S {s : Text} {r : List (XF ℚ)} (h : buildStackUnit s = .ok r) : 'S' ∉ s := by
  intro hm
  obtain ⟨p, hp, hS⟩ := mem_pySplit (sep := '_') (by decide)
    (strip_keeps (p := isPySpace) (mem_removePm (by decide) (by decide) (by decide) hm) (by decide))
  unfold buildStackUnit pyFloat pyInt at h
  split at h
  · rename_i a ha
    obtain rfl : p = a := by
      unfold pyStrip at ha
      rw [ha] at hp
      simpa using hp
    rcases hf : parseFloat p with _ | x
    · rw [hf] at h; cases h
    · exact parseFloat_chars hf _ hS badFloat_S
  · rename_i a t ha
    unfold pyStrip at ha
    rw [ha] at hp
    rcases hf : parseFloat a with _ | x
    · rw [hf] at h; cases h
    rcases hi : parseInt (dropBraces t) with _ | y
    · rw [hf, hi] at h; cases h
    simp only [List.mem_cons, List.not_mem_nil, or_false] at hp
    rcases hp with rfl | rfl
    · exact parseFloat_chars hf _ hS badFloat_S
    · refine int_no_S hi ?_
      unfold dropBraces
      rw [List.mem_filter]
      exact ⟨hS, by decide⟩
  · cases h

theorem blockTimes_no_S {s : Text} {v : ℤ} (h : blockTimes s = .ok v) : 'S' ∉ s := by
  intro hm
  unfold blockTimes pyInt at h
  rcases hi : parseInt (dropBraces (s.filter (· != '_'))) with _ | y
  · rw [hi] at h; cases h
  · refine int_no_S hi ?_
    unfold dropBraces
    rw [List.mem_filter, List.mem_filter]
    exact ⟨⟨hm, by decide⟩, by decide⟩

/-- A successful run has met no letter `S`. -/
theorem seqRun_no_S {x : Text} {st st' : SeqState} (h : seqRun (x ++ ['/']) st = .ok st') : 'S' ∉ st.cur ++ x := by
  induction x generalizing st with
  | nil =>
    obtain ⟨ys, y, bl, cur, b, m⟩ := st
    simp only [List.nil_append, seqRun, seqStep, show ('/' == '(') = false from rfl, show ('/' == ')') = false from rfl,
      beq_self_eq_true, if_true, Bool.false_eq_true, if_false] at h
    rw [List.append_nil]
    rcases b <;> rcases m <;> simp only at h
    · rcases hu : buildStackUnit cur with e | r
      · rw [hu] at h; cases h
      · exact unit_no_S hu
    · rcases hu : blockTimes cur with e | r
      · rw [hu] at h; cases h
      · exact blockTimes_no_S hu
    · rcases hu : buildStackUnit cur with e | r
      · rw [hu] at h; cases h
      · exact unit_no_S hu
    · rcases hu : blockTimes cur with e | r
      · rw [hu] at h; cases h
      · exact blockTimes_no_S hu
  | cons c cs ih =>
    obtain ⟨ys, y, bl, cur, b, m⟩ := st
    simp only [List.cons_append, seqRun] at h
    by_cases h1 : c = '('
    · subst h1
      simp only [seqStep, beq_self_eq_true, if_true, ok_bind] at h
      have := ih h
      simpa using this
    by_cases h2 : c = ')'
    · subst h2
      simp only [seqStep, show (')' == '(') = false from rfl, beq_self_eq_true, if_true, Bool.false_eq_true, if_false] at h
      rcases hu : buildStackUnit cur with e | r
      · rw [hu] at h; cases h
      · rw [hu, ok_bind, ok_bind] at h
        have h3 := ih h
        have h4 := unit_no_S hu
        simp at h3
        simp [h3, h4]
    by_cases h3 : c = '/'
    · subst h3
      simp only [seqStep, show ('/' == '(') = false from rfl, show ('/' == ')') = false from rfl, beq_self_eq_true, if_true,
        Bool.false_eq_true, if_false] at h
      rcases b <;> rcases m <;> simp only at h
      all_goals
        first
        | rcases hu : buildStackUnit cur with e | r
          · rw [hu] at h; cases h
          · rw [hu, ok_bind, ok_bind] at h
            have h3 := ih h
            have h4 := unit_no_S hu
            simp at h3
            simp [h3, h4]
            done
        | rcases hu : blockTimes cur with e | r
          · rw [hu] at h; cases h
          · rw [hu, ok_bind, ok_bind] at h
            have h3 := ih h
            have h4 := blockTimes_no_S hu
            simp at h3
            simp [h3, h4]
            done
    · rw [seqStep_plain ⟨h1, h2, h3⟩, ok_bind] at h
      have := ih h
      simpa using this

theorem filter_idem (t : Text) : loopText (t.filter (· != 's')) = loopText t := by
  unfold loopText
  rw [List.filter_filter (p := fun c => c != 's')]
  simp only [Bool.and_self]

/-- What a successful call leaves behind. -/
theorem buildSequence_ok {t : Text} {r : List (XF ℚ)} (h : buildSequence t = .ok r) : ∃ c st, (pyStrip t).getLast? = some c ∧
    (pyStrip t).filter (· != 's') ≠ [] ∧ seqRun (loopText (pyStrip t) ++ ['/']) .init = .ok st ∧
    r = if c = 's' ∨ c = 'S' then st.unities ++ st.unities.reverse else st.unities := by
  rcases hl : (pyStrip t).getLast? with _ | c
  · unfold buildSequence at h
    simp only [hl] at h
    cases h
  by_cases hne : (pyStrip t).filter (· != 's') = []
  · unfold buildSequence at h
    simp only [hl, hne] at h
    cases h
  rw [buildSequence_eq hl hne] at h
  rcases hr : seqRun (loopText (pyStrip t) ++ ['/']) .init with e | st
  · rw [hr] at h; cases h
  · rw [hr] at h
    exact ⟨c, st, rfl, hne, rfl, (Except.ok.inj h).symm⟩

/-- **C61**: whenever `build_sequence` succeeds on a text ending in `s`, the result is a palindrome of even length whose first half
is the result for the text with every `s` taken out. -/
theorem C61_palindrome (t : Text) (r : List (XF ℚ)) (hs : (pyStrip t).getLast? = some 's') (h : buildSequence t = .ok r) :
    r.reverse = r ∧ Even r.length ∧ ∃ half, r = half ++ half.reverse ∧ buildSequence (t.filter (· != 's')) = .ok half := by
  obtain ⟨c, st, hc, hne, hrun, rfl⟩ := buildSequence_ok h
  obtain rfl : c = 's' := by
    rw [hs] at hc
    exact (Option.some.inj hc).symm
  simp only [true_or, if_true]
  refine ⟨by simp, ⟨st.unities.length, by simp⟩, st.unities, rfl, ?_⟩
  obtain ⟨l, r, hsp, hl, hr⟩ := stripBy_split isPySpace t
  have hfl : ∀ {w : Text}, (∀ c ∈ w, isPySpace c = true) → w.filter (· != 's') = w := by
    intro w hw
    rw [List.filter_eq_self]
    intro c hc
    have := hw c hc
    have h1 : c ≠ 's' := by rintro rfl; exact absurd this (by decide)
    simpa using h1
  have hst : pyStrip (t.filter (· != 's')) = pyStrip ((pyStrip t).filter (· != 's')) := by
    unfold pyStrip
    conv_lhs => rw [hsp]
    rw [List.filter_append, List.filter_append, hfl hl, hfl hr, stripBy_right _ hr, stripBy_left _ hl]
  have hrun2 : seqRun (loopText (pyStrip (t.filter (· != 's'))) ++ ['/']) .init = .ok st := by
    rw [hst]
    apply loop_strip
    rw [filter_idem]
    exact hrun
  have hnoS := seqRun_no_S hrun2
  have hS : 'S' ∉ pyStrip (t.filter (· != 's')) := by
    intro hm
    apply hnoS
    apply List.mem_append_right
    unfold loopText
    rw [List.mem_filter, List.mem_filter]
    exact ⟨⟨hm, by decide⟩, by decide⟩
  have hlow : 's' ∉ pyStrip (t.filter (· != 's')) := fun hm => by
    have := strip_subset hm
    rw [List.mem_filter] at this
    exact absurd this.2 (by decide)
  rcases hl' : (pyStrip (t.filter (· != 's'))).getLast? with _ | c'
  · rw [List.getLast?_eq_none_iff] at hl'
    rw [hl'] at hrun2
    have hu : buildStackUnit [] = .error .valueError := rfl
    have : seqRun (loopText [] ++ ['/']) .init = .error .valueError := by
      simp [loopText, seqRun, seqStep, SeqState.init, hu]
    rw [this] at hrun2
    cases hrun2
  · have hmem := List.mem_of_getLast? hl'
    rw [buildSequence_eq hl', hrun2]
    · have h1 : c' ≠ 's' := fun e => hlow (e ▸ hmem)
      have h2 : c' ≠ 'S' := fun e => hS (e ▸ hmem)
      simp [Except.map, h1, h2]
    · intro he
      rw [List.filter_eq_nil_iff] at he
      exact he c' hmem (by
        have h1 : c' ≠ 's' := fun e => hlow (e ▸ hmem)
        simpa using h1)

/-- **C61**, refuted for the upper-case letter: a text ending in `S` always raises `ValueError`. -/
theorem C61_uppercase_raises (t : Text) (hS : (pyStrip t).getLast? = some 'S') : buildSequence t = .error .valueError := by
  have hmem := List.mem_of_getLast? hS
  rw [buildSequence_eq hS fun he => ?_]
  · rcases hr : seqRun (loopText (pyStrip t) ++ ['/']) .init with e | st
    · rw [seqRun_error hr]; rfl
    · exfalso
      apply seqRun_no_S hr
      apply List.mem_append_right
      unfold loopText
      rw [List.mem_filter, List.mem_filter]
      exact ⟨⟨hmem, by decide⟩, by decide⟩
  · rw [List.filter_eq_nil_iff] at he
    exact he _ hmem (by decide)

/-- Non-vacuity of C61. -/
example : buildSequence "[0_2/90]s".toList = .ok [.fin 0, .fin 0, .fin 90, .fin 90, .fin 0, .fin 0] ∧
    buildSequence "[0_2/90]S".toList = .error .valueError := by
  constructor <;> decide +kernel

/-! ## C62 -/

/-- Digits of a numeral. -/
def plainAngle (first : Fin 10) (digits : List (Fin 10)) : Angle := ⟨none, first, digits, none⟩

/-- The expression of the docstring, `[\pm45_{1}/0_2/90/(0/90)_1]s`. -/
def docStacking : Stacking where
  before := 0
  brackets := true
  item := .unit ⟨0, true, plainAngle 4 [5], some ⟨true, none, 1, []⟩, 0⟩
  items := [.unit ⟨0, false, plainAngle 0 [], some ⟨false, none, 2, []⟩, 0⟩, .unit ⟨0, false, plainAngle 9 [0], none, 0⟩,
    .group 0 ⟨0, false, plainAngle 0 [], none, 0⟩ [⟨0, false, plainAngle 9 [0], none, 0⟩] true ⟨false, none, 1, []⟩ 0]
  symm := true
  after := 0

theorem docStacking_text : docStacking.text = "[\\pm45_{1}/0_2/90/(0/90)_1]s".toList := by decide +kernel

/-- **C62**: what the documented call really returns. -/
theorem C62_example_returns : buildSequence "[\\pm45_{1}/0_2/90/(0/90)_1]s".toList =
    .ok ([45, 0, 0, 90, 0, 90, 90, 0, 90, 0, 0, 45].map .fin) := by
  rw [← docStacking_text, C60_expands]
  congr 2
  decide +kernel

/-- **C62** refuted: the documented result is a different one. -/
theorem C62_example_false : buildSequence "[\\pm45_{1}/0_2/90/(0/90)_1]s".toList ≠
    .ok ([45, -45, 0, 90, 0, 90, 90, 0, 90, 0, -45, 45].map .fin) := by
  rw [C62_example_returns]
  decide +kernel

/-- **C62**: a `\pm` unit yields the opposite angle exactly when its repeat count is at least two. -/
theorem C62_pm_opposite (a : Angle) (n : Count) (ha : a.value ≠ 0) :
    ∃ r, buildSequence ("\\pm".toList ++ a.text ++ ['_'] ++ n.text) = .ok r ∧ r.length = n.value ∧
      (XF.fin (-a.value) ∈ r ↔ 2 ≤ n.value) := by
  let e : Stacking := ⟨0, false, .unit ⟨0, true, a, some n, 0⟩, [], false, 0⟩
  have he : e.text = "\\pm".toList ++ a.text ++ ['_'] ++ n.text := by
    simp [e, Stacking.text, slashed, Item.text, SUnit.text, countText, blanks]
  refine ⟨e.plies.map .fin, by rw [← he, C60_expands], ?_, ?_⟩
  · simp [e, Stacking.plies, Item.plies, SUnit.plies]
  · simp only [e, Stacking.plies, Item.plies, SUnit.plies, List.flatMap_cons, List.flatMap_nil, List.append_nil, Option.map_some,
      Option.getD_some, if_true, Bool.false_eq_true, if_false, List.mem_map, List.mem_range, XF.fin.injEq]
    constructor
    · rintro ⟨q, ⟨i, hi, rfl⟩, hq⟩
      by_contra hlt
      obtain rfl : i = 0 := by omega
      rw [if_pos rfl] at hq
      exact ha (by linarith)
    · intro h
      exact ⟨-a.value, ⟨1, by omega, by simp⟩, rfl⟩

end Composipy
