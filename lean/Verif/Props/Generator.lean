import Verif.Model.Generator
import Mathlib.Data.List.Nodup

/-!
# C114: the texts written by the table scripts read back
-/

namespace Composipy

namespace Spec

/-- The lines of a text. -/
def lines : Text → List Text
  | [] => [[]]
  | c :: t =>
    if c = '\n' then [] :: lines t
    else match lines t with
      | [] => [[c]]
      | l :: r => (c :: l) :: r

/-- `    KEY: 'VALUE',` without escapes -/
def readEntry (l : Text) : Option (Text × Text) :=
  if l.take 4 = [' ', ' ', ' ', ' '] then
    let key := (l.drop 4).takeWhile (· ≠ ':')
    let rest := (l.drop 4).dropWhile (· ≠ ':')
    if rest.take 3 = [':', ' ', '\''] then
      let value := (rest.drop 3).takeWhile fun c => c ≠ '\'' ∧ c ≠ '\\'
      if (rest.drop 3).dropWhile (fun c => c ≠ '\'' ∧ c ≠ '\\') = ['\'', ','] then some (key, value) else none
    else none
  else none

/-- `NAME = {` -/
def readHead (l : Text) : Option Text :=
  if l.drop (l.length - 4) = [' ', '=', ' ', '{'] then some (l.take (l.length - 4)) else none

/-- What Python sees in a module of comments, `__all__` and dictionaries with texts as values: the names with their entries in order. -/
def readModule : Option (Text × List (Text × Text)) → List Text → Option (List (Text × List (Text × Text)))
  | none, [] => some []
  | some _, [] => none
  | none, l :: r =>
    if l = [] ∨ l.head? = some '#' ∨ l.take 10 = "__all__ = ".toList then readModule none r
    else match readHead l with
      | none => none
      | some n => readModule (some (n, [])) r
  | some (n, es), l :: r =>
    if l = ['}'] then (readModule none r).map ((n, es) :: ·)
    else match readEntry l with
      | none => none
      | some e => readModule (some (n, es ++ [e])) r

/-- A text that can stand between quotes without escapes. -/
def PlainText (t : Text) : Prop := ∀ c ∈ t, c ≠ '\'' ∧ c ≠ '\\' ∧ c ≠ '\n'

/-- A name of a variable: not empty, on one line, not beginning with `#` or `_`. -/
def NameText (t : Text) : Prop := (∃ c r, t = c :: r ∧ c ≠ '#' ∧ c ≠ '_') ∧ '\n' ∉ t

/-- A decimal numeral. -/
def readIdx (t : Text) : Option ℕ :=
  if t ≠ [] ∧ t.all Char.isDigit then some (t.foldl (fun a c => 10 * a + (c.toNat - 48)) 0) else none

/-- A pair of decimal numerals `(i, k)`. -/
def readPair (t : Text) : Option (ℕ × ℕ) :=
  match t with
  | '(' :: r =>
    match r.dropWhile (· ≠ ',') with
    | ',' :: ' ' :: r' =>
      if r'.dropWhile (· ≠ ')') = [')'] then
        match readIdx (r.takeWhile (· ≠ ',')), readIdx (r'.takeWhile (· ≠ ')')) with
        | some i, some k => some (i, k)
        | _, _ => none
      else none
    | _ => none
  | _ => none

/-- The entries of a table with its keys read as well. -/
def readKeys {K : Type} (key : Text → Option K) : List (Text × Text) → Option (List (K × Text))
  | [] => some []
  | e :: r =>
    match key e.1, readKeys key r with
    | some k, some l => some ((k, e.2) :: l)
    | _, _ => none

/-- A text that can stand as a key. -/
def KeyText (t : Text) : Prop := ∀ c ∈ t, c ≠ ':' ∧ c ≠ '\n'

/-- The pairs of indices below `n`, row by row. -/
def idxPairs (n : ℕ) : List (ℕ × ℕ) := (List.range n).flatMap fun i => (List.range n).map fun k => (i, k)

/-- The functions `0, 1, 2, ...` of a script. -/
def term {E : Type} (v w : ℕ → E) (i : ℕ) : E := if i < 4 then v i else w (i + 1)

end Spec

open Spec

theorem lines_cons_line (a b : Text) (h : '\n' ∉ a) : lines (a ++ '\n' :: b) = a :: lines b := by
  induction a with
  | nil => simp [lines]
  | cons c a ih =>
    have hc : c ≠ '\n' := fun h' => h (by simp [h'])
    rw [List.cons_append, lines, if_neg hc, ih fun h' => h (by simp [h'])]

theorem takeWhile_append_stop {α : Type} (p : α → Bool) (a b : List α) (c : α) (ha : ∀ x ∈ a, p x = true) (hc : p c = false) :
    (a ++ c :: b).takeWhile p = a ∧ (a ++ c :: b).dropWhile p = c :: b := by
  induction a with
  | nil => simp [hc]
  | cons x a ih =>
    have := ih fun y hy => ha y (by simp [hy])
    simp [ha x (by simp), this]

theorem readEntry_eq (k v : Text) (hk : KeyText k) (hv : PlainText v) :
    readEntry ([' ', ' ', ' ', ' '] ++ k ++ [':', ' ', '\''] ++ v ++ ['\'', ',']) = some (k, v) := by
  have h1 := takeWhile_append_stop (fun c => decide (c ≠ ':')) k ([' ', '\''] ++ v ++ ['\'', ',']) ':' (by intro x hx; simpa using (hk x hx).1) (by simp)
  have h2 := takeWhile_append_stop (fun c => decide (c ≠ '\'' ∧ c ≠ '\\')) v [','] '\'' (by
    intro x hx; simpa using ⟨(hv x hx).1, (hv x hx).2.1⟩) (by simp)
  unfold readEntry
  have e : [' ', ' ', ' ', ' '] ++ k ++ [':', ' ', '\''] ++ v ++ ['\'', ','] = ' ' :: ' ' :: ' ' :: ' ' :: (k ++ ':' :: ([' ', '\''] ++ v ++ ['\'', ','])) := by simp
  rw [e]
  simp only [List.take_succ_cons, List.take_zero, List.drop_succ_cons, List.drop_zero, if_true]
  rw [h1.1, h1.2]
  simp only [List.cons_append, List.nil_append, List.take_succ_cons, List.take_zero, List.drop_succ_cons, List.drop_zero, if_true]
  rw [h2.1, h2.2]
  simp

theorem readEntries (d : List (Text × Text)) (hd : ∀ p ∈ d, KeyText p.1 ∧ PlainText p.2) (n : Text) (es : List (Text × Text)) (rest : Text) :
    readModule (some (n, es)) (lines (d.foldl (fun txt kv => txt ++ entryText kv.1 kv.2) [] ++ ['}', '\n', '\n', '\n'] ++ rest)) =
      (readModule none (lines rest)).map ((n, es ++ d) :: ·) := by
  have hfold : ∀ (d : List (Text × Text)) (a : Text), d.foldl (fun txt kv => txt ++ entryText kv.1 kv.2) a =
      a ++ d.foldl (fun txt kv => txt ++ entryText kv.1 kv.2) [] := by
    intro d
    induction d with
    | nil => simp
    | cons p d ih => intro a; rw [List.foldl_cons, ih, List.foldl_cons, ih (_ ++ _)]; simp
  induction d generalizing es with
  | nil =>
    have e : List.foldl (fun txt kv => txt ++ entryText kv.1 kv.2) [] ([] : List (Text × Text)) ++ ['}', '\n', '\n', '\n'] ++ rest =
      ['}'] ++ '\n' :: ([] ++ '\n' :: ([] ++ '\n' :: rest)) := by simp
    rw [e, lines_cons_line _ _ (by simp), lines_cons_line _ _ (by simp), lines_cons_line _ _ (by simp)]
    simp [readModule]
  | cons p d ih =>
    rw [List.foldl_cons, hfold]
    have hp := hd p (by simp)
    have e : [] ++ entryText p.1 p.2 ++ d.foldl (fun txt kv => txt ++ entryText kv.1 kv.2) [] ++ ['}', '\n', '\n', '\n'] ++ rest =
        ([' ', ' ', ' ', ' '] ++ p.1 ++ [':', ' ', '\''] ++ p.2 ++ ['\'', ',']) ++ '\n' ::
          (d.foldl (fun txt kv => txt ++ entryText kv.1 kv.2) [] ++ ['}', '\n', '\n', '\n'] ++ rest) := by simp [entryText]
    rw [e, lines_cons_line _ _ (by
      intro h
      simp only [List.mem_append, List.mem_cons, List.not_mem_nil, or_false] at h
      have h1 : ¬ '\n' ∈ p.1 := fun h => (hp.1 '\n' h).2 rfl
      have h2 : ¬ '\n' ∈ p.2 := fun h => (hp.2 '\n' h).2.2 rfl
      simp [h1, h2] at h)]
    rw [readModule, if_neg (by simp), readEntry_eq _ _ hp.1 hp.2]
    simp only
    rw [ih (fun q hq => hd q (by simp [hq]))]
    simp

theorem convert_eq (d : List (Text × Text)) (name : Text) :
    convertToStr d name = name ++ [' ', '=', ' ', '{', '\n'] ++ d.foldl (fun txt kv => txt ++ entryText kv.1 kv.2) [] ++ ['}', '\n', '\n', '\n'] := by
  have hfold : ∀ (d : List (Text × Text)) (a : Text), d.foldl (fun txt kv => txt ++ entryText kv.1 kv.2) a =
      a ++ d.foldl (fun txt kv => txt ++ entryText kv.1 kv.2) [] := by
    intro d
    induction d with
    | nil => simp
    | cons p d ih => intro a; rw [List.foldl_cons, ih, List.foldl_cons, ih (_ ++ _)]; simp
  rw [convertToStr, hfold]

/-- **C114** `convert_to_str`: the text of a dictionary reads back as the dictionary, with its name and its entries in order, whatever follows. -/
theorem C114_convert (d : List (Text × Text)) (hd : ∀ p ∈ d, KeyText p.1 ∧ PlainText p.2) (name : Text) (hn : NameText name) (rest : Text) :
    readModule none (lines (convertToStr d name ++ rest)) = (readModule none (lines rest)).map ((name, d) :: ·) := by
  obtain ⟨⟨c, r, hcr, hc1, hc2⟩, hnl⟩ := hn
  have e : convertToStr d name ++ rest = (name ++ [' ', '=', ' ', '{']) ++ '\n' ::
      (d.foldl (fun txt kv => txt ++ entryText kv.1 kv.2) [] ++ ['}', '\n', '\n', '\n'] ++ rest) := by
    rw [convert_eq]; simp
  rw [e, lines_cons_line _ _ (by simp [hnl]), readModule, if_neg (by
    subst hcr
    simp [hc1, hc2])]
  have hh : readHead (name ++ [' ', '=', ' ', '{']) = some name := by simp [readHead]
  rw [hh]
  simp only
  rw [readEntries d hd]
  simp

theorem isDigit_strIdx (i : ℕ) : ∀ c ∈ strIdx i, c.isDigit = true := by
  intro c hc
  simp only [strIdx, Nat.toList_repr] at hc
  exact Nat.isDigit_of_mem_toDigits (b := 10) (by norm_num) (by norm_num) hc

theorem readIdx_strIdx (i : ℕ) : readIdx (strIdx i) = some i := by
  have h1 : strIdx i ≠ [] := by simp [strIdx, Nat.toList_repr, Nat.toDigits_ne_nil]
  have h2 : (strIdx i).all Char.isDigit = true := List.all_eq_true.mpr (isDigit_strIdx i)
  rw [readIdx, if_pos ⟨h1, h2⟩]
  have h := Nat.ofDigitChars_ten_toDigits (n := i)
  rw [Nat.ofDigitChars_eq_foldl] at h
  simp only [strIdx, Nat.toList_repr]
  exact congrArg some h

theorem digit_ne (i : ℕ) (c d : Char) (hc : c ∈ strIdx i) (hd : d.isDigit = false) : c ≠ d := by
  rintro rfl
  simp [isDigit_strIdx i c hc] at hd

theorem readPair_strPair (p : ℕ × ℕ) : readPair (strPair p) = some p := by
  have h1 := takeWhile_append_stop (fun c => decide (c ≠ ',')) (strIdx p.1) (' ' :: strIdx p.2 ++ [')']) ','
    (fun x hx => by simpa using digit_ne p.1 x ',' hx (by decide)) (by simp)
  have h2 := takeWhile_append_stop (fun c => decide (c ≠ ')')) (strIdx p.2) [] ')'
    (fun x hx => by simpa using digit_ne p.2 x ')' hx (by decide)) (by simp)
  have e : strPair p = '(' :: (strIdx p.1 ++ ',' :: (' ' :: strIdx p.2 ++ [')'])) := by simp [strPair]
  rw [e, readPair]
  rw [h1.1, h1.2]
  simp only [List.cons_append]
  rw [h2.1, h2.2]
  simp [readIdx_strIdx]

theorem keyText_strIdx (i : ℕ) : KeyText (strIdx i) := fun c hc => ⟨digit_ne i c _ hc (by decide), digit_ne i c _ hc (by decide)⟩

theorem keyText_strPair (p : ℕ × ℕ) : KeyText (strPair p) := by
  intro c hc
  simp only [strPair, List.mem_append, List.mem_cons, List.not_mem_nil, or_false] at hc
  rcases hc with (((rfl | hc) | (rfl | rfl)) | hc) | rfl
  · decide
  · exact keyText_strIdx _ c hc
  · decide
  · decide
  · exact keyText_strIdx _ c hc
  · decide

theorem readKeys_map {K : Type} (key : Text → Option K) (str : K → Text) (h : ∀ k, key (str k) = some k) (v : K → Text) (l : List K) :
    readKeys key (l.map fun k => (str k, v k)) = some (l.map fun k => (k, v k)) := by
  induction l with
  | nil => rfl
  | cons k l ih => simp [readKeys, h, ih]

theorem foldl_set {K V : Type} [DecidableEq K] (v : K → V) (l : List K) (hl : l.Nodup) (d : Dict K V) (hd : ∀ p ∈ d, p.1 ∉ l) :
    l.foldl (fun d k => d.set k (v k)) d = d ++ l.map fun k => (k, v k) := by
  induction l generalizing d with
  | nil => simp
  | cons k l ih =>
    rw [List.nodup_cons] at hl
    have hk : d.any (fun p => decide (p.1 = k)) = false := by
      rw [List.any_eq_false]
      intro p hp
      have := hd p hp
      simp only [List.mem_cons, not_or] at this
      simpa using this.1
    have e : d.set k (v k) = d ++ [(k, v k)] := by simp [Dict.set, hk]
    rw [List.foldl_cons, e, ih hl.2]
    · simp
    · intro p hp
      rw [List.mem_append, List.mem_singleton] at hp
      rcases hp with hp | rfl
      · exact fun h => hd p hp (by simp [h])
      · exact hl.1

theorem fillTerms_eq {E : Type} (v w : ℕ → E) (n : ℕ) :
    fillTerms (firstFour v) n w = (List.range (max 4 n)).map fun i => (i, term v w i) := by
  have hr : List.range (max 4 n) = List.range 4 ++ List.range' 4 (n - 4) := by
    have e : max 4 n = 4 + (n - 4) := by omega
    rw [e, List.range_add, List.range'_eq_map_range]
  rw [fillTerms, foldl_set _ _ List.nodup_range' _ (by
    intro p hp
    simp only [firstFour, List.mem_cons, List.not_mem_nil, or_false] at hp
    rcases hp with rfl | rfl | rfl | rfl <;> simp), hr, List.map_append]
  congr 1
  apply List.map_congr_left
  intro i hi
  rw [List.mem_range'_1] at hi
  simp [term, not_lt.mpr hi.1]

theorem nodup_pairs (n : ℕ) : (idxPairs n).Nodup := by
  rw [idxPairs, List.nodup_flatMap]
  refine ⟨fun i _ => List.nodup_range.map fun a b h => by simpa using h, ?_⟩
  refine List.nodup_range.imp ?_
  intro a b hab p hp hq
  simp only [List.mem_map] at hp hq
  obtain ⟨_, _, rfl⟩ := hp
  obtain ⟨_, _, h⟩ := hq
  exact hab (congrArg Prod.fst h).symm

theorem mem_pairs (n : ℕ) (p : ℕ × ℕ) : p ∈ idxPairs n ↔ p.1 < n ∧ p.2 < n := by
  obtain ⟨i, k⟩ := p
  simp [idxPairs]

theorem get_terms {E : Type} (v w : ℕ → E) (n i : ℕ) (hi : i < n) :
    Dict.get (fillTerms (firstFour v) n w) i = .ok (term v w i) := by
  have h : ((List.range (max 4 n)).map fun i => (i, term v w i)).find? (fun p => decide (p.1 = i)) = some (i, term v w i) := by
    rw [List.find?_map]
    have h' : (List.range (max 4 n)).find? ((fun p : ℕ × E => decide (p.1 = i)) ∘ fun i => (i, term v w i)) = some i := by
      rw [List.find?_range_eq_some]
      refine ⟨by simp, by simp; omega, fun j hj => by simp; omega⟩
    rw [h']
    rfl
  rw [fillTerms_eq, Dict.get, h]

theorem foldlM_ok {α β : Type} (f : β → α → Except PyErr β) (g : β → α → β) (l : List α) (b : β) (h : ∀ b, ∀ x ∈ l, f b x = .ok (g b x)) :
    l.foldlM f b = .ok (l.foldl g b) := by
  induction l generalizing b with
  | nil => rfl
  | cons x l ih =>
    rw [List.foldlM_cons, h b x (by simp)]
    exact ih _ fun b y hy => h b y (by simp [hy])

theorem integrals_eq {E : Type} (Y : Sympy E) (n : ℕ) (v w v' w' : ℕ → E) :
    integrals Y n (fillTerms (firstFour v) n w) (fillTerms (firstFour v') n w') =
      .ok ((idxPairs n).map fun p => (p, Y.integrate (Y.mul (term v w p.1) (term v' w' p.2)))) := by
  rw [integrals, foldlM_ok _ (fun d i => (List.range n).foldl (fun d k => Dict.set d (i, k) (Y.integrate (Y.mul (term v w i) (term v' w' k)))) d)]
  · congr 1
    have := foldl_set (fun p : ℕ × ℕ => Y.integrate (Y.mul (term v w p.1) (term v' w' p.2))) (idxPairs n) (nodup_pairs n) [] (by simp)
    rw [List.nil_append] at this
    rw [← this, idxPairs, List.foldl_flatMap]
    simp only [List.foldl_map]
  · intro d i hi
    apply foldlM_ok
    intro d k hk
    rw [List.mem_range] at hi hk
    rw [get_terms v w n i hi, get_terms v' w' n k hk]
    rfl

theorem shape_table {E : Type} (Y : Sympy E) (n : ℕ) :
    (fillTerms (firstFour Y.f) n Y.orth).foldl (fun S p => (fillTerms (firstFour Y.g) n Y.orthEta).foldl
      (fun S q => Dict.set S (p.1, q.1) (Y.mul p.2 q.2)) S) [] =
      (idxPairs (max 4 n)).map fun p => (p, Y.mul (term Y.f Y.orth p.1) (term Y.g Y.orthEta p.2)) := by
  have := foldl_set (fun p : ℕ × ℕ => Y.mul (term Y.f Y.orth p.1) (term Y.g Y.orthEta p.2)) (idxPairs (max 4 n)) (nodup_pairs _) [] (by simp)
  rw [List.nil_append] at this
  rw [← this, idxPairs, List.foldl_flatMap, fillTerms_eq, fillTerms_eq]
  simp only [List.foldl_map]

theorem texts_eq {K E : Type} (key : K → Text) (str : E → Text) (v : K → E) (l : List K) :
    Dict.texts key str (l.map fun k => (k, v k)) = l.map fun k => (key k, str (v k)) := by
  simp [Dict.texts, Function.comp_def]

theorem read_header (a b : Text) (all : Text) (file : Text) (ha : (a.head? == some '#' && !a.contains '\n') = true)
    (hb : b.contains '\n' = false) (hf : '\n' ∉ file) (hall : (all.take 10 == "__all__ = ".toList && !all.contains '\n') = true) (rest : Text) :
    readModule none (lines (a ++ file ++ (b ++ ['\n', '\n']) ++ (all ++ ['\n', '\n', '\n']) ++ rest)) = readModule none (lines rest) := by
  simp only [Bool.and_eq_true, beq_iff_eq, Bool.not_eq_true', List.contains_eq_mem, decide_eq_false_iff_not] at ha hb hall
  have e : a ++ file ++ (b ++ ['\n', '\n']) ++ (all ++ ['\n', '\n', '\n']) ++ rest =
      (a ++ file ++ b) ++ '\n' :: ([] ++ '\n' :: (all ++ '\n' :: ([] ++ '\n' :: ([] ++ '\n' :: rest)))) := by simp
  rw [e, lines_cons_line _ _ (by simp [ha.2, hf, hb]), lines_cons_line _ _ (by simp), lines_cons_line _ _ hall.2,
    lines_cons_line _ _ (by simp), lines_cons_line _ _ (by simp)]
  have hh : (a ++ file ++ b).head? = some '#' := by simp [ha.1]
  rw [readModule, if_pos (.inr (.inl hh)), readModule, if_pos (by simp), readModule, if_pos (.inr (.inr hall.1)), readModule,
    if_pos (by simp), readModule, if_pos (by simp)]

theorem read_table {K : Type} (key : K → Text) (hkey : ∀ k, KeyText (key k)) (v : K → Text) (hv : ∀ k, PlainText (v k)) (l : List K) (name : Text)
    (hn : NameText name) (rest : Text) :
    readModule none (lines (convertToStr (l.map fun k => (key k, v k)) name ++ rest)) =
      (readModule none (lines rest)).map ((name, l.map fun k => (key k, v k)) :: ·) := by
  apply C114_convert _ _ _ hn
  intro p hp
  rw [List.mem_map] at hp
  obtain ⟨k, _, rfl⟩ := hp
  exact ⟨hkey k, hv k⟩

theorem nameText_of (t : Text) (h : (t.head? != none && t.head? != some '#' && t.head? != some '_' && !t.contains '\n') = true) : NameText t := by
  cases t with
  | nil => simp at h
  | cons c r =>
    simp only [List.head?_cons, Bool.and_eq_true, bne_iff_ne, ne_eq, Option.some.injEq, Bool.not_eq_true', List.contains_eq_mem,
      decide_eq_false_iff_not] at h
    exact ⟨⟨c, r, rfl, h.1.1.2, h.1.2⟩, h.2⟩

namespace Spec

/-- A module holds the tables `T`, each under its name, with the keys read by `key`. -/
def Holds {K : Type} (key : Text → Option K) (m : Text × List (Text × Text)) (name : Text) (T : List (K × Text)) : Prop :=
  m.1 = name ∧ readKeys key m.2 = some T

end Spec

/-- **C114** The file `_S.py`: it reads as two tables.  `FXI` has the texts of the functions `0, 1, ...` in order; `S` has, for every pair `(i, k)`,
the text of the product of the `i`-th function of `xi` with the `k`-th function of `eta`. -/
theorem C114_shape {E : Type} (Y : Sympy E) (file : Text) (n : ℕ) (hf : '\n' ∉ file) (hp : ∀ e, PlainText (Y.str e)) :
    ∃ m₁ m₂, readModule none (lines (writeShape Y file n)) = some [m₁, m₂] ∧
      Holds readIdx m₁ "FXI".toList ((List.range (max 4 n)).map fun i => (i, Y.str (term Y.f Y.orth i))) ∧
      Holds readPair m₂ "S".toList ((idxPairs (max 4 n)).map fun p => (p, Y.str (Y.mul (term Y.f Y.orth p.1) (term Y.g Y.orthEta p.2)))) := by
  refine ⟨("FXI".toList, (List.range (max 4 n)).map fun i => (strIdx i, Y.str (term Y.f Y.orth i))),
    ("S".toList, (idxPairs (max 4 n)).map fun p => (strPair p, Y.str (Y.mul (term Y.f Y.orth p.1) (term Y.g Y.orthEta p.2)))), ?_,
    ⟨rfl, readKeys_map readIdx strIdx readIdx_strIdx (fun i => Y.str (term Y.f Y.orth i)) (List.range (max 4 n))⟩,
    ⟨rfl, readKeys_map readPair strPair readPair_strPair (fun p => Y.str (Y.mul (term Y.f Y.orth p.1) (term Y.g Y.orthEta p.2)))
      (idxPairs (max 4 n))⟩⟩
  have e : writeShape Y file n = "# This file is generated by ".toList ++ file ++ (", it contains shape function ".toList ++ ['\n', '\n']) ++
      ("__all__ = ['FXI', 'S']".toList ++ ['\n', '\n', '\n']) ++
      (convertToStr ((List.range (max 4 n)).map fun i => (strIdx i, Y.str (term Y.f Y.orth i))) "FXI".toList ++
      (convertToStr ((idxPairs (max 4 n)).map fun p => (strPair p, Y.str (Y.mul (term Y.f Y.orth p.1) (term Y.g Y.orthEta p.2)))) "S".toList ++ [])) := by
    have h1 : Dict.texts strIdx Y.str (fillTerms (firstFour Y.f) n Y.orth) =
        (List.range (max 4 n)).map fun i => (strIdx i, Y.str (term Y.f Y.orth i)) := by rw [fillTerms_eq, texts_eq]
    unfold writeShape
    dsimp only
    rw [shape_table]
    rw [h1]
    rw [texts_eq]
    generalize "# This file is generated by ".toList = a, ", it contains shape function ".toList = b, "__all__ = ['FXI', 'S']".toList = c
    simp only [List.append_assoc, List.append_nil]
  rw [e, read_header _ _ _ _ (by decide) (by decide) hf (by decide), read_table _ keyText_strIdx _ (fun _ => hp _) _ _
    (nameText_of _ (by decide)), read_table _ keyText_strPair _ (fun _ => hp _) _ _ (nameText_of _ (by decide))]
  simp [lines, readModule]

/-- **C114** The file `_ii_F.py`: the script raises no error and the file reads as the six tables.  Each has, for every pair `(i, k)` of indices below
`n_terms`, the text of the integral of the product of the derivatives its name says: of the `i`-th function the first, of the `k`-th the second. -/
theorem C114_pre {E : Type} (Y : Sympy E) (file : Text) (n : ℕ) (hf : '\n' ∉ file) (hp : ∀ e, PlainText (Y.str e)) :
    ∃ txt m₁ m₂ m₃ m₄ m₅ m₆, writePre Y file n = .ok txt ∧ readModule none (lines txt) = some [m₁, m₂, m₃, m₄, m₅, m₆] ∧
      (let F := term Y.f Y.orth
       let T : (ℕ → E) → (ℕ → E) → List ((ℕ × ℕ) × Text) := fun P Q => (idxPairs n).map fun p => (p, Y.str (Y.integrate (Y.mul (P p.1) (Q p.2))))
       let F' := fun i => Y.diff (F i)
       let F'' := fun i => Y.diff2 (F i)
       Holds readPair m₁ "ii_FF".toList (T F F) ∧ Holds readPair m₂ "ii_FXI_F".toList (T F' F) ∧
       Holds readPair m₃ "ii_FXI_FXI".toList (T F' F') ∧ Holds readPair m₄ "ii_FXIXI_F".toList (T F'' F) ∧
       Holds readPair m₅ "ii_FXIXI_FXI".toList (T F'' F') ∧ Holds readPair m₆ "ii_FXIXI_FXIXI".toList (T F'' F'')) := by
  have hterm : ∀ D : E → E, (term (fun i => D (Y.f i)) fun r => D (Y.orth r)) = fun i => D (term Y.f Y.orth i) := by
    intro D
    funext i
    by_cases h : i < 4 <;> simp [term, h]
  set F := term Y.f Y.orth with hF
  set T : (ℕ → E) → (ℕ → E) → List (Text × Text) := fun P Q => (idxPairs n).map fun p => (strPair p, Y.str (Y.integrate (Y.mul (P p.1) (Q p.2)))) with hT
  have hT' : ∀ P Q, readKeys readPair (T P Q) = some ((idxPairs n).map fun p => (p, Y.str (Y.integrate (Y.mul (P p.1) (Q p.2))))) := fun P Q =>
    readKeys_map readPair strPair readPair_strPair (fun p => Y.str (Y.integrate (Y.mul (P p.1) (Q p.2)))) (idxPairs n)
  refine ⟨"# This file is generated by ".toList ++ file ++ (", it contains the preintegrated terms".toList ++ ['\n', '\n']) ++
      ("__all__ = ['ii_FF', 'ii_FXI_F', 'ii_FXI_FXI', 'ii_FXIXI_F', 'ii_FXIXI_FXI', 'ii_FXIXI_FXIXI']".toList ++ ['\n', '\n', '\n']) ++
      (convertToStr (T F F) "ii_FF".toList ++ (convertToStr (T (fun i => Y.diff (F i)) F) "ii_FXI_F".toList ++
      (convertToStr (T (fun i => Y.diff (F i)) fun i => Y.diff (F i)) "ii_FXI_FXI".toList ++
      (convertToStr (T (fun i => Y.diff2 (F i)) F) "ii_FXIXI_F".toList ++
      (convertToStr (T (fun i => Y.diff2 (F i)) fun i => Y.diff (F i)) "ii_FXIXI_FXI".toList ++
      (convertToStr (T (fun i => Y.diff2 (F i)) fun i => Y.diff2 (F i)) "ii_FXIXI_FXIXI".toList ++ [])))))),
    ("ii_FF".toList, T F F), ("ii_FXI_F".toList, T (fun i => Y.diff (F i)) F),
    ("ii_FXI_FXI".toList, T (fun i => Y.diff (F i)) fun i => Y.diff (F i)), ("ii_FXIXI_F".toList, T (fun i => Y.diff2 (F i)) F),
    ("ii_FXIXI_FXI".toList, T (fun i => Y.diff2 (F i)) fun i => Y.diff (F i)),
    ("ii_FXIXI_FXIXI".toList, T (fun i => Y.diff2 (F i)) fun i => Y.diff2 (F i)), ?_, ?_,
    ⟨rfl, hT' F F⟩, ⟨rfl, hT' (fun i => Y.diff (F i)) F⟩,
    ⟨rfl, hT' (fun i => Y.diff (F i)) fun i => Y.diff (F i)⟩, ⟨rfl, hT' (fun i => Y.diff2 (F i)) F⟩,
    ⟨rfl, hT' (fun i => Y.diff2 (F i)) fun i => Y.diff (F i)⟩, ⟨rfl, hT' (fun i => Y.diff2 (F i)) fun i => Y.diff2 (F i)⟩⟩
  · simp only [writePre, integrals_eq, hterm, ← hF, ok_bind, texts_eq, pure_eq_ok]
    simp only [hT, List.append_assoc, List.append_nil]
  · rw [read_header _ _ _ _ (by decide) (by decide) hf (by decide)]
    simp only [hT]
    iterate 6 rw [read_table _ keyText_strPair _ (fun _ => hp _) _ _ (nameText_of _ (by decide))]
    simp [lines, readModule]

/-- **C114** Every pair of indices below `n` occurs exactly once among the keys, and no other key occurs: no entry is lost when the file is imported. -/
theorem C114_keys (n : ℕ) (p : ℕ × ℕ) : (idxPairs n).count p = if p.1 < n ∧ p.2 < n then 1 else 0 := by
  rw [(nodup_pairs n).count]
  simp only [mem_pairs]

/-- **C114** Distinct keys have distinct texts. -/
theorem C114_key_texts : Function.Injective strIdx ∧ Function.Injective strPair :=
  ⟨fun a b h => by simpa [readIdx_strIdx] using congrArg readIdx h, fun a b h => by simpa [readPair_strPair] using congrArg readPair h⟩

/-! ### A concrete case: expressions as texts -/

/-- Texts that need no escapes, combined symbolically. -/
abbrev SymText := {t : Text // PlainText t}

theorem plainText_append (a b : Text) (ha : PlainText a) (hb : PlainText b) : PlainText (a ++ b) := fun c hc => (List.mem_append.mp hc).elim (ha c) (hb c)

theorem plainText_strIdx (i : ℕ) : PlainText (strIdx i) := fun c hc =>
  ⟨digit_ne i c _ hc (by decide), digit_ne i c _ hc (by decide), digit_ne i c _ hc (by decide)⟩

instance (t : Text) : Decidable (PlainText t) := inferInstanceAs (Decidable (∀ c ∈ t, _))

/-- `name(i)` -/
def symVar (c : Char) (hc : PlainText [c]) (i : ℕ) : SymText := ⟨c :: strIdx i, plainText_append [c] _ hc (plainText_strIdx i)⟩

/-- `c[a]` -/
def symApp (c : Char) (hc : PlainText [c]) (a : SymText) : SymText :=
  ⟨[c] ++ (['['] ++ (a.1 ++ [']'])), plainText_append _ _ hc (plainText_append _ _ (by decide) (plainText_append _ _ a.2 (by decide)))⟩

/-- Symbols `f0..f3`, `p5, p6, ...`, derivatives `d[..]`, `e[..]`, integrals `I[..]`. -/
def symText : Sympy SymText where
  f := symVar 'f' (by decide)
  g := symVar 'g' (by decide)
  orth := symVar 'p' (by decide)
  orthEta := symVar 'q' (by decide)
  mul a b := ⟨a.1 ++ (['*'] ++ b.1), plainText_append _ _ a.2 (plainText_append _ _ (by decide) b.2)⟩
  diff := symApp 'd' (by decide)
  diff2 := symApp 'e' (by decide)
  integrate := symApp 'I' (by decide)
  str := Subtype.val

example : ∃ m₁ m₂, readModule none (lines (writeShape symText "w.py".toList 6)) = some [m₁, m₂] ∧
    Holds readPair m₂ "S".toList ((idxPairs 6).map fun p => (p, symText.str (symText.mul (term symText.f symText.orth p.1) (term symText.g symText.orthEta p.2)))) := by
  obtain ⟨m₁, m₂, h, _, h2⟩ := C114_shape symText "w.py".toList 6 (by decide) fun e => e.2
  exact ⟨m₁, m₂, h, h2⟩

example : symText.str (symText.mul (term symText.f symText.orth 1) (term symText.g symText.orthEta 5)) = "f1*q6".toList := by decide

example : symText.str (symText.integrate (symText.mul (symText.diff2 (term symText.f symText.orth 4)) (term symText.f symText.orth 0))) =
    "I[e[p5]*f0]".toList := by decide

example : ∃ txt, writePre symText "w.py".toList 2 = .ok txt := by
  obtain ⟨txt, _, _, _, _, _, _, h, _⟩ := C114_pre symText "w.py".toList 2 (by decide) fun e => e.2
  exact ⟨txt, h⟩

end Composipy
