import Verif.Model.Pcomp
import Verif.Spec.Card
import Verif.Lemmas.Text
import Mathlib.Data.Nat.Digits.Defs

/-!
# C63, C64: PCOMP cards
-/

namespace Composipy
open Spec

/-! ## C64 -/

namespace Spec

/-- The argument gives the datum `f` of every ply: a sequence with one entry per ply, or one value for all. -/
def Supplies (a : PlyArg) (f : PlyRec → Text) (ps : List PlyRec) : Prop :=
  a = .seq (ps.map f) ∨ ∃ t, a = .scalar t ∧ ∀ p ∈ ps, f p = t

/-- The output requests asked for by the argument, for `n` plies. -/
def Requested (a : SoutArg) (n : ℕ) (out : List Text) : Prop :=
  match a with
  | .text t =>
    if t = tFIBER then out.length = n ∧ ∀ (i : ℕ) (h : i < out.length), out[i] = if i = 0 ∨ i + 1 = n then tYES else tNO
    else if t = tNO then out = List.replicate n tNO
    else if t = tYES then out = List.replicate n tYES
    else t.length = n ∧ out = t.map fun c => [c]
  | .seq ts => ts.length = n ∧ out = ts
  | .noLen => False

end Spec

theorem map_range_const (n : ℕ) (t : Text) : ((List.range n).map fun _ => t) = List.replicate n t := by
  rw [List.map_const', List.length_range]

/-- **C64**: `sout='FIBER'` marks exactly the first and the last ply. -/
theorem C64_fiber (n : ℕ) (hn : n ≠ 0) : ∃ out, convertSout (.text tFIBER) n = .ok out ∧ out.length = n ∧
    ∀ (i : ℕ) (h : i < out.length), out[i] = if i = 0 ∨ i + 1 = n then tYES else tNO := by
  have h0 : ((List.range n).map fun _ => tNO) ≠ [] := by simpa using hn
  refine ⟨(((List.range n).map fun _ => tNO).set 0 tYES).set (n - 1) tYES, ?_, by simp, ?_⟩
  · have h1 : (((List.range n).map fun _ => tNO).set 0 tYES) ≠ [] := by
      intro h
      have := congrArg List.length h
      simp at this
      exact hn this
    simp only [convertSout, if_true, setFirst, if_neg h0, ok_bind, setLast, if_neg h1]
    simp
  · intro i h
    simp only [List.length_set, List.length_map, List.length_range] at h
    simp only [List.getElem_set, List.getElem_map]
    by_cases h1 : n - 1 = i
    · rw [if_pos h1, if_pos (by omega)]
    · rw [if_neg h1]
      by_cases h2 : 0 = i
      · rw [if_pos h2, if_pos (by omega)]
      · rw [if_neg h2, if_neg (by omega)]

/-- **C64**: `'YES'` and `'NO'` mark all plies. -/
theorem C64_all (n : ℕ) : convertSout (.text tYES) n = .ok (List.replicate n tYES) ∧
    convertSout (.text tNO) n = .ok (List.replicate n tNO) := by
  constructor
  · simp only [convertSout, if_neg (show tYES ≠ tFIBER by decide), if_neg (show tYES ≠ tNO by decide), if_true, map_range_const]
  · simp only [convertSout, if_neg (show tNO ≠ tFIBER by decide), if_true, map_range_const]

/-- **C64**: `_convert_sout` succeeds exactly when the argument asks for something that fits, and then returns that. -/
theorem C64_sout_iff (a : SoutArg) (n : ℕ) (out : List Text) (hn : n ≠ 0) : convertSout a n = .ok out ↔ Requested a n out := by
  cases a with
  | text t =>
    by_cases h1 : t = tFIBER
    · subst h1
      obtain ⟨o, ho, hl, hi⟩ := C64_fiber n hn
      rw [ho]
      simp only [Requested, if_true, Except.ok.injEq]
      constructor
      · rintro rfl
        exact ⟨hl, hi⟩
      · rintro ⟨hl', hi'⟩
        apply List.ext_getElem (by rw [hl, hl'])
        intro i h h'
        rw [hi i h, hi' i h']
    by_cases h2 : t = tNO
    · subst h2
      rw [(C64_all n).2]
      simp only [Requested, if_neg h1, if_true, Except.ok.injEq]
      exact eq_comm
    by_cases h3 : t = tYES
    · subst h3
      rw [(C64_all n).1]
      simp only [Requested, if_neg h1, if_neg h2, if_true, Except.ok.injEq]
      exact eq_comm
    · simp only [convertSout, Requested, if_neg h1, if_neg h2, if_neg h3]
      by_cases h : t.length = n
      · simp [h, eq_comm]
      · simp [h]
  | seq ts =>
    simp only [convertSout, Requested]
    by_cases h : ts.length = n
    · simp [h, eq_comm]
    · simp [h]
  | noLen => simp [convertSout, Requested]

/-- **C64**: a `sout` of another length, another text of another length, or a number raises `ValueError`. -/
theorem C64_sout_refused (n : ℕ) :
    (∀ ts : List Text, ts.length ≠ n → convertSout (.seq ts) n = .error .valueError) ∧
    (∀ t : Text, t ≠ tFIBER → t ≠ tNO → t ≠ tYES → t.length ≠ n → convertSout (.text t) n = .error .valueError) ∧
    convertSout .noLen n = .error .valueError := by
  refine ⟨fun ts h => ?_, fun t h1 h2 h3 h => ?_, rfl⟩
  · simp [convertSout, h]
  · simp [convertSout, h, h1, h2, h3]

/-- **C64**: `_convert_to_list` returns a matching sequence unchanged, refuses any other one, and repeats a single value. -/
theorem C64_convert (a : PlyArg) (n : ℕ) : convertToList a n =
    match a with
    | .seq ts => if ts.length = n then .ok ts else .error .valueError
    | .scalar t => .ok (List.replicate n t) := by
  cases a with
  | seq ts => rfl
  | scalar t => simp only [convertToList, map_range_const]

/-- **C64**: `build_pcomp` refuses list arguments of the wrong length. -/
theorem C64_length_mismatch (sequence : List Text) (midi ti : PlyArg) (pid : ℤ) (z0 : Text) (sout : SoutArg)
    (h : (∃ ts, ti = .seq ts ∧ ts.length ≠ sequence.length) ∨ (∃ ts, midi = .seq ts ∧ ts.length ≠ sequence.length) ∨
      (∃ ts, sout = .seq ts ∧ ts.length ≠ sequence.length)) :
    buildPcomp sequence midi ti (.int pid) z0 sout = .error .valueError := by
  unfold buildPcomp
  simp only [PidArg.toInt, ok_bind]
  have hcl : ∀ a n, (∃ r, convertToList a n = .ok r) ∨ convertToList a n = .error .valueError := by
    intro a n
    rw [C64_convert]
    cases a with
    | seq ts =>
      by_cases h : ts.length = n
      · exact Or.inl ⟨ts, by simp [h]⟩
      · exact Or.inr (by simp [h])
    | scalar t => exact Or.inl ⟨_, rfl⟩
  rcases hcl ti sequence.length with ⟨t, ht⟩ | ht
  · rw [ht, ok_bind]
    rcases hcl midi sequence.length with ⟨m, hm⟩ | hm
    · rw [hm, ok_bind]
      rcases h with ⟨ts, rfl, h⟩ | ⟨ts, rfl, h⟩ | ⟨ts, rfl, h⟩
      · simp [convertToList, h] at ht
      · simp [convertToList, h] at hm
      · rw [(C64_sout_refused _).1 ts h]; rfl
    · rw [hm]; rfl
  · rw [ht]; rfl

/-- **C64**: an empty sequence with the default `sout` raises `IndexError`. -/
theorem C64_empty_fiber (m t : Text) (pid : ℤ) (z0 : Text) :
    buildPcomp [] (.scalar m) (.scalar t) (.int pid) z0 (.text tFIBER) = .error .indexError := rfl

/-- Non-vacuity of C64; a one-ply stack is marked `YES`, and a word as long as the sequence is taken letter by letter. -/
example : convertSout (.text tFIBER) 4 = .ok [tYES, tNO, tNO, tYES] ∧ convertSout (.text tFIBER) 1 = .ok [tYES] ∧
    convertSout (.text "abc".toList) 3 = .ok [['a'], ['b'], ['c']] ∧
    convertSout (.text "abc".toList) 2 = .error .valueError := ⟨rfl, rfl, rfl, rfl⟩

/-! ## C63 -/

/-- Text of one ply. -/
def plyRecText (p : PlyRec) : Text := [','].intercalate p.fields

theorem plyRecText_eq (p : PlyRec) : plyRecText p = p.mid ++ [','] ++ p.thick ++ [','] ++ p.angle ++ [','] ++ p.out := by
  simp [plyRecText, PlyRec.fields, List.intercalate]

/-- Text of the body. -/
def bodyText : List PlyRec → Text
  | [] => []
  | [p] => ['+', ','] ++ plyRecText p
  | p :: q :: ps => ['+', ','] ++ plyRecText p ++ [','] ++ plyRecText q ++ ['+', '\n'] ++ bodyText ps

theorem plyText_ok (ps : List PlyRec) (i : ℕ) (h : i < ps.length) :
    plyText (ps.map PlyRec.mid) (ps.map PlyRec.thick) (ps.map PlyRec.angle) (ps.map PlyRec.out) i = .ok (plyRecText ps[i]) := by
  simp [plyText, h, plyRecText_eq]

theorem plyText_end (ps : List PlyRec) (i : ℕ) (h : ps.length ≤ i) :
    plyText (ps.map PlyRec.mid) (ps.map PlyRec.thick) (ps.map PlyRec.angle) (ps.map PlyRec.out) i = .error .indexError := by
  simp [plyText, pyIdx, h]

theorem pcompLoop_eq (suf pre : List PlyRec) (s : ℕ) (hs : pre.length = 2 * s) (body : Text) :
    pcompLoop ((pre ++ suf).map PlyRec.mid) ((pre ++ suf).map PlyRec.thick) ((pre ++ suf).map PlyRec.angle)
      ((pre ++ suf).map PlyRec.out) ((List.range' s ((suf.length + 1) / 2)).map (2 * ·)) body = .ok (body ++ bodyText suf) := by
  induction suf using List.twoStepInduction generalizing pre s body with
  | nil => simp [pcompLoop, bodyText]
  | singleton p =>
    have h1 : 2 * s < (pre ++ [p]).length := by simp; omega
    have hg : (pre ++ [p])[2 * s] = p := by simp [← hs]
    have h2 : (pre ++ [p]).length ≤ 2 * s + 1 := by simp; omega
    rw [show ([p].length + 1) / 2 = 1 by simp, List.range'_one, List.map_singleton, pcompLoop]
    simp only [pcompLoop]
    unfold pcompStep
    rw [plyText_ok _ _ h1, plyText_end _ _ h2, hg]
    simp only [ok_bind, bodyText]
    rw [List.dropLast_concat, List.append_assoc]
  | cons_cons p q ps ih =>
    have h1 : 2 * s < (pre ++ p :: q :: ps).length := by simp; omega
    have h2 : 2 * s + 1 < (pre ++ p :: q :: ps).length := by simp; omega
    have hg1 : (pre ++ p :: q :: ps)[2 * s] = p := by simp [← hs]
    have hg2 : (pre ++ p :: q :: ps)[2 * s + 1] = q := by simp [← hs]
    have hr : ((p :: q :: ps).length + 1) / 2 = (ps.length + 1) / 2 + 1 := by simp; omega
    rw [hr, List.range'_succ, List.map_cons, pcompLoop]
    unfold pcompStep
    rw [plyText_ok _ _ h1, plyText_ok _ _ h2, hg1, hg2]
    simp only [ok_bind]
    have := ih (pre ++ [p, q]) (s + 1) (by simp; omega)
      (body ++ ['+', ','] ++ plyRecText p ++ [','] ++ plyRecText q ++ ['+', '\n'])
    rw [List.append_assoc pre] at this
    simp only [List.cons_append, List.nil_append] at this
    simp only [List.cons_append, List.nil_append, List.append_assoc] at this ⊢
    rw [this]
    simp [bodyText]

/-- Text of the header line. -/
def headerText (pid : ℤ) (z0 : Text) : Text := ['P', 'C', 'O', 'M', 'P', ','] ++ intText pid ++ [','] ++ z0 ++ [',', ',', ',', ',', ',', '+', '\n']

theorem supplies_convert {a : PlyArg} {f : PlyRec → Text} {ps : List PlyRec} (h : Supplies a f ps) :
    convertToList a ps.length = .ok (ps.map f) := by
  rw [C64_convert]
  rcases h with rfl | ⟨t, rfl, h⟩
  · simp
  · simp only [Except.ok.injEq]
    symm
    rw [List.eq_replicate_iff]
    simpa using h

/-- The whole text of the card. -/
theorem buildPcomp_text (ps : List PlyRec) (hne : ps ≠ []) (midi ti : PlyArg) (pid : PidArg) (n : ℤ) (z0 : Text) (sout : SoutArg)
    (hp : pid.toInt = .ok n) (hm : Supplies midi PlyRec.mid ps) (ht : Supplies ti PlyRec.thick ps)
    (ho : Requested sout ps.length (ps.map PlyRec.out)) :
    buildPcomp (ps.map PlyRec.angle) midi ti pid z0 sout = .ok (headerText n z0 ++ bodyText ps) := by
  have hn : ps.length ≠ 0 := by simpa using hne
  have h := pcompLoop_eq ps [] 0 rfl []
  simp only [List.nil_append] at h
  unfold buildPcomp
  simp only [hp, ok_bind, List.length_map, supplies_convert hm, supplies_convert ht, (C64_sout_iff sout ps.length _ hn).mpr ho]
  rw [List.range_eq_range', h]
  rfl

theorem intText_clean (n : ℤ) : ',' ∉ intText n ∧ '\n' ∉ intText n := by
  have hnat : ∀ m : ℕ, ∀ c ∈ (Nat.repr m).toList, c.isDigit = true := by
    intro m c hc
    rw [Nat.toList_repr] at hc
    exact Nat.isDigit_of_mem_toDigits (by decide) (by decide) hc
  have key : ∀ c ∈ intText n, c.isDigit = true ∨ c = '-' := by
    intro c hc
    unfold intText at hc
    cases n with
    | ofNat m => exact Or.inl (hnat m c hc)
    | negSucc m =>
      have : (toString (Int.negSucc m)).toList = '-' :: (Nat.repr (m + 1)).toList := by
        show (String.append "-" _).toList = _
        exact String.toList_append
      rw [this] at hc
      rcases List.mem_cons.mp hc with rfl | hc
      · exact Or.inr rfl
      · exact Or.inl (hnat _ c hc)
  constructor
  · intro h
    rcases key _ h with h | h <;> revert h <;> decide
  · intro h
    rcases key _ h with h | h <;> revert h <;> decide

/-- The lines of the body, as texts. -/
theorem bodyText_lines (ps : List PlyRec) :
    bodyText ps = ['\n'].intercalate ((cardLines ps).map (fun l => [','].intercalate l) ++ if ps.length % 2 = 0 then [[]] else []) := by
  induction ps using List.twoStepInduction with
  | nil => rfl
  | singleton p => simp [bodyText, cardLines, plyRecText_eq, PlyRec.fields, List.intercalate]
  | cons_cons p q ps ih =>
    have hl : (p :: q :: ps).length % 2 = ps.length % 2 := by simp only [List.length_cons]; omega
    rw [hl, cardLines, List.map_cons, List.cons_append, List.intercalate_cons_of_ne_nil, bodyText, ih]
    · simp [plyRecText_eq, PlyRec.fields, PlyRec.fieldsPlus, List.intercalate]
    · cases ps with
      | nil => simp
      | cons p' ps => cases ps <;> simp [cardLines]

theorem cardLines_clean (ps : List PlyRec) (hc : ∀ p ∈ ps, p.clean) : ∀ l ∈ cardLines ps, l ≠ [] ∧ ∀ t ∈ l, ',' ∉ t ∧ '\n' ∉ t := by
  have hplus : ∀ p ∈ ps, ∀ t ∈ p.fieldsPlus, ',' ∉ t ∧ '\n' ∉ t := by
    intro p hp t ht
    have := hc p hp
    simp only [PlyRec.clean, PlyRec.fields, PlyRec.fieldsPlus, List.mem_cons, List.not_mem_nil, or_false] at this ht
    rcases ht with rfl | rfl | rfl | rfl
    · exact this _ (Or.inl rfl)
    · exact this _ (Or.inr (Or.inl rfl))
    · exact this _ (Or.inr (Or.inr (Or.inl rfl)))
    · have := this _ (Or.inr (Or.inr (Or.inr rfl)))
      simpa using this
  induction ps using List.twoStepInduction with
  | nil => intro l hl; cases hl
  | singleton p =>
    intro l hl
    obtain rfl := List.mem_singleton.mp hl
    refine ⟨by simp, fun t ht => ?_⟩
    rcases List.mem_cons.mp ht with rfl | ht
    · decide
    · exact hc p List.mem_cons_self t ht
  | cons_cons p q ps ih =>
    intro l hl
    rcases List.mem_cons.mp hl with rfl | hl
    · refine ⟨by simp, fun t ht => ?_⟩
      rcases List.mem_cons.mp ht with rfl | ht
      · decide
      rcases List.mem_append.mp ht with ht | ht
      · exact hc p (by simp) t ht
      · exact hplus q (by simp) t ht
    · exact ih (fun p hp => hc p (by simp [hp])) (fun p hp => hplus p (by simp [hp])) l hl

theorem intercalate_no_newline {l : List Text} (h : ∀ t ∈ l, '\n' ∉ t) : '\n' ∉ [','].intercalate l := by
  induction l with
  | nil => simp [List.intercalate]
  | cons t ts ih =>
    cases ts with
    | nil => simpa [List.intercalate] using h t (by simp)
    | cons t' ts =>
      rw [List.intercalate_cons_of_ne_nil (by simp)]
      simp only [List.mem_append, List.mem_singleton, not_or]
      exact ⟨⟨h t (by simp), by decide⟩, ih fun t ht => h t (by simp [ht])⟩

theorem header_intercalate (a z0 : Text) : [','].intercalate ["PCOMP".toList, a, z0, [], [], [], [], ['+']] =
    ['P', 'C', 'O', 'M', 'P', ','] ++ a ++ [','] ++ z0 ++ [',', ',', ',', ',', ',', '+'] := by
  rw [show "PCOMP".toList = ['P', 'C', 'O', 'M', 'P'] by decide]
  simp [List.intercalate]

/-- **C63**: read line by line and comma by comma, the card is the header with `pid` and `z0`, then two plies per line in order, a
lone last ply on its own line.  A full line carries its continuation mark glued to the output request of its second ply. -/
theorem C63_card (ps : List PlyRec) (hne : ps ≠ []) (hclean : ∀ p ∈ ps, p.clean) (midi ti : PlyArg) (pid : PidArg) (n : ℤ)
    (z0 : Text) (hz : ',' ∉ z0 ∧ '\n' ∉ z0) (sout : SoutArg)
    (hp : pid.toInt = .ok n) (hm : Supplies midi PlyRec.mid ps) (ht : Supplies ti PlyRec.thick ps)
    (ho : Requested sout ps.length (ps.map PlyRec.out)) :
    ∃ card, buildPcomp (ps.map PlyRec.angle) midi ti pid z0 sout = .ok card ∧
      readCard card = ["PCOMP".toList, (toString n).toList, z0, [], [], [], [], ['+']] :: cardLines ps ++
        if ps.length % 2 = 0 then [[[]]] else [] := by
  refine ⟨_, buildPcomp_text ps hne midi ti pid n z0 sout hp hm ht ho, ?_⟩
  set hd : List Text := ["PCOMP".toList, (toString n).toList, z0, [], [], [], [], ['+']] with hhd
  have hdc : ∀ t ∈ hd, ',' ∉ t ∧ '\n' ∉ t := by
    intro t h
    rw [hhd] at h
    have he : ',' ∉ ([] : Text) ∧ '\n' ∉ ([] : Text) := by simp
    rcases List.mem_cons.mp h with rfl | h
    · simp
    rcases List.mem_cons.mp h with rfl | h
    · exact intText_clean n
    rcases List.mem_cons.mp h with rfl | h
    · exact hz
    simp only [List.mem_cons, List.not_mem_nil, or_false, or_self] at h
    rcases h with rfl | rfl | rfl | rfl | rfl
    · exact he
    · exact he
    · exact he
    · exact he
    · simp
  have hlines := cardLines_clean ps hclean
  have htext : headerText n z0 ++ bodyText ps = ['\n'].intercalate
      ([','].intercalate hd :: ((cardLines ps).map (fun l => [','].intercalate l) ++ if ps.length % 2 = 0 then [[]] else [])) := by
    rw [List.intercalate_cons_of_ne_nil, ← bodyText_lines]
    · rw [header_intercalate]
      simp [headerText, intText]
    · match ps, hne with
      | [p], _ => simp [cardLines]
      | p :: q :: ps, _ => simp [cardLines]
  unfold readCard
  rw [htext, List.splitOn_intercalate '\n' ?_ (by simp), List.map_cons, List.splitOn_intercalate ',' (fun t h => (hdc t h).1) (by simp [hhd]),
    List.map_append, List.map_map, List.cons_append]
  · congr 2
    · conv_rhs => rw [← List.map_id (cardLines ps)]
      apply List.map_congr_left
      intro l hl
      exact List.splitOn_intercalate ',' (fun t h => ((hlines l hl).2 t h).1) (hlines l hl).1
    · split <;> simp
  · intro l hl
    rcases List.mem_cons.mp hl with rfl | hl
    · exact intercalate_no_newline fun t h => (hdc t h).2
    rcases List.mem_append.mp hl with hl | hl
    · obtain ⟨l', hl', rfl⟩ := List.mem_map.mp hl
      exact intercalate_no_newline fun t h => ((hlines l' hl').2 t h).2
    · split at hl
      · obtain rfl := List.mem_singleton.mp hl
        simp
      · cases hl

theorem unglue_append (x : List Text) (y : List Text) (hy : y ≠ []) : unglue (x ++ y) = x ++ unglue y := by
  induction x with
  | nil => rfl
  | cons t ts ih =>
    have : ts ++ y ≠ [] := by simp [hy]
    rw [List.cons_append]
    rcases h : ts ++ y with _ | ⟨a, as⟩
    · exact absurd h this
    · rw [unglue]
      · rw [← h, ih]; rfl
      · simp

/-- **C63**: the continuation lines are `⌈n/2⌉` many, and a reader that drops glued continuation marks gets the four fields of ply 1,
ply 2, ... back in order. -/
theorem C63_plies_in_order (ps : List PlyRec) (ho : ∀ p ∈ ps, p.out.getLast? ≠ some '+') :
    (cardLines ps).length = (ps.length + 1) / 2 ∧ (cardLines ps).flatMap dataFields = ps.flatMap PlyRec.fields := by
  induction ps using List.twoStepInduction with
  | nil => exact ⟨rfl, rfl⟩
  | singleton p =>
    refine ⟨by simp [cardLines], ?_⟩
    have := ho p (by simp)
    simp [cardLines, dataFields, PlyRec.fields, unglue, this]
  | cons_cons p q ps ih =>
    obtain ⟨h1, h2⟩ := ih fun p hp => ho p (by simp [hp])
    refine ⟨?_, ?_⟩
    · simp only [cardLines, List.length_cons, h1]
      omega
    · rw [cardLines, List.flatMap_cons, h2]
      simp [dataFields, PlyRec.fields, PlyRec.fieldsPlus, unglue]

/-- **C63** refuted as announced: on every full line the output request of the second ply is not a field of the card, because the
comma before the continuation mark is missing.  For two or more plies the card never reads as the format asks. -/
theorem C63_glued_mark_false (p q : PlyRec) (ps : List PlyRec) (hq : '+' ∉ q.out) :
    cardLines (p :: q :: ps) ≠ properLines (p :: q :: ps) ∧
      ∀ line ∈ (cardLines (p :: q :: ps)).head?, line.length = 9 ∧ line[8]? = some (q.out ++ ['+']) ∧ line[8]? ≠ some q.out := by
  refine ⟨?_, ?_⟩
  · intro h
    have := congrArg (fun l => l.head?.map List.length) h
    simp [cardLines, properLines, PlyRec.fields, PlyRec.fieldsPlus] at this
  · intro line hl
    obtain rfl : ['+'] :: (p.fields ++ q.fieldsPlus) = line := by simpa [cardLines] using hl
    refine ⟨rfl, rfl, ?_⟩
    show some (q.out ++ ['+']) ≠ some q.out
    simp

theorem convert_length {a : PlyArg} {n : ℕ} {r : List Text} (h : convertToList a n = .ok r) : r.length = n := by
  rw [C64_convert] at h
  cases a with
  | seq ts =>
    simp only at h
    split at h
    · rename_i hl
      rw [← Except.ok.inj h, hl]
    · cases h
  | scalar t =>
    rw [← Except.ok.inj h, List.length_replicate]

theorem requested_length {a : SoutArg} {n : ℕ} {r : List Text} (h : Requested a n r) : r.length = n := by
  cases a with
  | text t =>
    simp only [Requested] at h
    split at h
    · exact h.1
    split at h
    · rw [h, List.length_replicate]
    split at h
    · rw [h, List.length_replicate]
    · rw [h.2, List.length_map, h.1]
  | seq ts => rw [h.2, h.1]
  | noLen => cases h

theorem convert_supplies {a : PlyArg} {f : PlyRec → Text} {ps : List PlyRec} (h : convertToList a ps.length = .ok (ps.map f)) :
    Supplies a f ps := by
  rw [C64_convert] at h
  cases a with
  | seq ts =>
    simp only at h
    split at h
    · exact Or.inl (congrArg _ (Except.ok.inj h))
    · cases h
  | scalar t =>
    refine Or.inr ⟨t, rfl, ?_⟩
    have := (Except.ok.inj h).symm
    rw [List.eq_replicate_iff] at this
    simpa using this.2

/-- **C63**: for a non-empty sequence `build_pcomp` succeeds exactly when `pid` is a number and every argument provides its datum for
every ply; there is no other way to get a card. -/
theorem C63_success_iff (sequence : List Text) (hne : sequence ≠ []) (midi ti : PlyArg) (pid : PidArg) (z0 : Text) (sout : SoutArg) :
    (∃ card, buildPcomp sequence midi ti pid z0 sout = .ok card) ↔
      (∃ n, pid.toInt = .ok n) ∧ ∃ ps, ps.map PlyRec.angle = sequence ∧ Supplies midi PlyRec.mid ps ∧
        Supplies ti PlyRec.thick ps ∧ Requested sout ps.length (ps.map PlyRec.out) := by
  constructor
  · rintro ⟨card, h⟩
    unfold buildPcomp at h
    rcases hp : pid.toInt with e | n
    · simp only [hp] at h; cases h
    rcases ht : convertToList ti sequence.length with e | T
    · simp only [hp, ht] at h; cases h
    rcases hm : convertToList midi sequence.length with e | M
    · simp only [hp, ht, hm] at h; cases h
    rcases ho : convertSout sout sequence.length with e | O
    · simp only [hp, ht, hm, ho] at h; cases h
    have hn : sequence.length ≠ 0 := by simpa using hne
    have hT := convert_length ht
    have hM := convert_length hm
    have hR := (C64_sout_iff _ _ _ hn).mp ho
    have hO := requested_length hR
    let ps : List PlyRec := List.ofFn fun i : Fin sequence.length =>
      ⟨M[i]'(by rw [hM]; exact i.2), T[i]'(by rw [hT]; exact i.2), sequence[i], O[i]'(by rw [hO]; exact i.2)⟩
    have hl : ps.length = sequence.length := by simp [ps]
    have h1 : ps.map PlyRec.mid = M := List.ext_getElem (by simp [ps, hM]) fun i _ _ => by simp [ps]
    have h2 : ps.map PlyRec.thick = T := List.ext_getElem (by simp [ps, hT]) fun i _ _ => by simp [ps]
    have h3 : ps.map PlyRec.angle = sequence := List.ext_getElem (by simp [ps]) fun i _ _ => by simp [ps]
    have h4 : ps.map PlyRec.out = O := List.ext_getElem (by simp [ps, hO]) fun i _ _ => by simp [ps]
    refine ⟨⟨n, rfl⟩, ps, h3, convert_supplies ?_, convert_supplies ?_, ?_⟩
    · rw [hl, h1, hm]
    · rw [hl, h2, ht]
    · rw [hl, h4]
      exact hR
  · rintro ⟨⟨n, hn⟩, ps, rfl, hm, ht, ho⟩
    exact ⟨_, buildPcomp_text ps (by rintro rfl; exact hne rfl) midi ti pid n z0 sout hn hm ht ho⟩

theorem floor_trunc (r : ℚ) (hr : 0 ≤ r) (m : ℤ) : r.floor = m ↔ |(m : ℚ)| ≤ r ∧ r < |(m : ℚ)| + 1 ∧ 0 ≤ m * r := by
  constructor
  · rintro rfl
    have h0 : (0 : ℤ) ≤ r.floor := Rat.le_floor_iff.mpr (by simpa using hr)
    have h1 : (0 : ℚ) ≤ r.floor := by exact_mod_cast h0
    have h2 := Rat.lt_floor_add_one r
    push_cast at h2
    rw [abs_of_nonneg h1]
    exact ⟨Rat.floor_le r, h2, mul_nonneg h1 hr⟩
  · rintro ⟨h1, h2, h3⟩
    have hm : (0 : ℚ) ≤ m := by
      by_contra hneg
      push Not at hneg
      rw [abs_of_neg hneg] at h1
      nlinarith
    rw [abs_of_nonneg hm] at h1 h2
    have h4 : m ≤ r.floor := Rat.le_floor_iff.mpr h1
    have h5 : r.floor < m + 1 := Rat.floor_lt_iff.mpr (by push_cast; exact h2)
    omega

/-- **C63** the property number written for `pid`: an integer is kept; a float loses its fraction, toward zero; a text
of digits with optional sign, between blanks, gives its number; a text with any other character than digits, blanks,
signs and underscores is a `ValueError`. -/
theorem C63_pid :
    (∀ n : ℤ, (PidArg.int n).toInt = .ok n) ∧
    (∀ (q : ℚ) (n : ℤ), (PidArg.float q).toInt = .ok n ↔ |(n : ℚ)| ≤ |q| ∧ |q| < |(n : ℚ)| + 1 ∧ 0 ≤ n * q) ∧
    (∀ (g : Option Bool) (d : Fin 10) (ds : List (Fin 10)) (i j : ℕ),
      (PidArg.text (blanks i ++ (signText g ++ (d :: ds).map digitChar) ++ blanks j)).toInt =
        .ok (if g = some true then -(number (d :: ds) : ℤ) else number (d :: ds))) ∧
    (∀ (t : Text) (c : Char), c ∈ t → isNumSpace c = false → c ≠ '_' → c ≠ '+' → c ≠ '-' → isDig c = false →
      (PidArg.text t).toInt = .error .valueError) := by
  refine ⟨fun n => rfl, fun q n => ?_, fun g d ds i j => ?_, fun t c hc h1 h2 h3 h4 h5 => ?_⟩
  · simp only [PidArg.toInt, Except.ok.injEq]
    split
    next hq =>
      have := floor_trunc (-q) (by linarith) (-n)
      push_cast at this
      rw [abs_neg, neg_mul_neg] at this
      rw [abs_of_neg hq, ← this]
      omega
    next hq =>
      push Not at hq
      rw [abs_of_nonneg hq]
      exact floor_trunc q hq n
  · have hb : ∀ k, ∀ c ∈ blanks k, isNumSpace c = true := fun k c hc => by
      rw [List.eq_of_mem_replicate hc]; decide
    rw [PidArg.toInt, pyInt, parseInt_right (hb j), parseInt_left (hb i), parseInt_signed]
  · rcases hp : parseInt t with _ | v
    · rw [PidArg.toInt, pyInt, hp]
    · rcases parseInt_chars hp c hc with h | h | h | h | h <;> simp_all

/-- Non-vacuity of `C63_pid`: `int(-2.5)` and `int(" -07 ")`. -/
example : (PidArg.float (-5 / 2)).toInt = .ok (-2) ∧ (PidArg.text " -07 ".toList).toInt = .ok (-7) ∧
    (PidArg.text "1.5".toList).toInt = .error .valueError := by
  refine ⟨(C63_pid.2.1 _ _).mpr (by norm_num [abs_of_neg, abs_of_pos]), C63_pid.2.2.1 (some true) 0 [7] 1 1,
    C63_pid.2.2.2 _ '.' (by decide) (by decide) (by decide) (by decide) (by decide) (by decide)⟩

/-- Three plies at 0, 45, 90 degrees, all of material 1 and thickness 0.2. -/
def demoCard : List PlyRec :=
  [⟨['1'], "0.2".toList, "0.0".toList, tYES⟩, ⟨['1'], "0.2".toList, "45.0".toList, tNO⟩, ⟨['1'], "0.2".toList, "90.0".toList, tYES⟩]

/-- Non-vacuity of C63: `build_pcomp([0.0, 45.0, 90.0], 1, 0.2)`. -/
example : buildPcomp ["0.0".toList, "45.0".toList, "90.0".toList] (.scalar ['1']) (.scalar "0.2".toList) (.int 1) [] (.text tFIBER) =
    .ok "PCOMP,1,,,,,,+\n+,1,0.2,0.0,YES,1,0.2,45.0,NO+\n+,1,0.2,90.0,YES".toList := by
  have h := buildPcomp_text demoCard (by simp [demoCard]) (.scalar ['1']) (.scalar "0.2".toList) (.int 1) 1 [] (.text tFIBER) rfl
    (Or.inr ⟨_, rfl, by simp [demoCard]⟩) (Or.inr ⟨_, rfl, by simp [demoCard]⟩)
    (by simp only [Requested, if_true]; refine ⟨rfl, ?_⟩; decide)
  rw [show ["0.0".toList, "45.0".toList, "90.0".toList] = demoCard.map PlyRec.angle from rfl, h]
  decide +kernel

end Composipy
