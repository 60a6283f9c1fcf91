import Verif.Model.Pcomp
import Verif.Spec.StackText
import Mathlib.Tactic.Ring
import Mathlib.Tactic.FieldSimp
import Mathlib.Tactic.Linarith
import Mathlib.Data.List.Basic
import Mathlib.Tactic.FinCases
import Mathlib.Data.List.TakeWhile
import Mathlib.Data.List.Induction
import Mathlib.Data.Fintype.Basic

/-!
# Lemmas about text, `int(...)` and `float(...)`
-/

namespace Composipy
open Spec

/-! ## Stripping -/

theorem dropWhile_append_all {p : Char → Bool} {l s : Text} (h : ∀ c ∈ l, p c = true) : (l ++ s).dropWhile p = s.dropWhile p := by
  induction l with
  | nil => rfl
  | cons c cs ih =>
    simp only [List.cons_append, List.dropWhile_cons, h c List.mem_cons_self, if_true]
    exact ih fun d hd => h d (List.mem_cons_of_mem _ hd)

theorem stripBy_left {p : Char → Bool} {l : Text} (s : Text) (h : ∀ c ∈ l, p c = true) : stripBy p (l ++ s) = stripBy p s := by
  unfold stripBy
  rw [dropWhile_append_all h]

theorem dropWhile_reverse_comm (p : Char → Bool) (s : Text) :
    ((s.dropWhile p).reverse.dropWhile p).reverse = (((s.reverse.dropWhile p).reverse).dropWhile p) := by
  induction s with
  | nil => rfl
  | cons c cs ih =>
    rw [List.dropWhile_cons]
    by_cases hc : p c
    · rw [if_pos hc, ih, List.reverse_cons, List.dropWhile_append]
      split
      · rename_i h
        rw [List.isEmpty_iff] at h
        rw [h]
        simp [List.dropWhile_cons, hc]
      · simp [List.dropWhile_cons, hc]
    · rw [if_neg hc, List.reverse_cons, List.dropWhile_append]
      split
      · rename_i h
        simp [List.dropWhile_cons, hc]
      · simp [List.dropWhile_cons, hc]

theorem stripBy_right {p : Char → Bool} {l : Text} (s : Text) (h : ∀ c ∈ l, p c = true) : stripBy p (s ++ l) = stripBy p s := by
  unfold stripBy
  rw [dropWhile_reverse_comm, dropWhile_reverse_comm, List.reverse_append, dropWhile_append_all fun c hc => h c (List.mem_reverse.mp hc)]

/-- A stripped text lies between two runs of stripped characters. -/
theorem stripBy_split (p : Char → Bool) (s : Text) :
    ∃ l r, s = l ++ stripBy p s ++ r ∧ (∀ c ∈ l, p c = true) ∧ ∀ c ∈ r, p c = true := by
  refine ⟨s.takeWhile p, ((s.dropWhile p).reverse.takeWhile p).reverse, ?_, ?_, ?_⟩
  · unfold stripBy
    rw [List.append_assoc, ← List.reverse_append, List.takeWhile_append_dropWhile, List.reverse_reverse,
      List.takeWhile_append_dropWhile]
  · intro c hc
    exact List.mem_takeWhile_imp hc
  · intro c hc
    exact List.mem_takeWhile_imp (List.mem_reverse.mp hc)

theorem stripBy_id {p : Char → Bool} {s : Text} (h1 : ∀ c ∈ s.head?, p c = false) (h2 : ∀ c ∈ s.getLast?, p c = false) :
    stripBy p s = s := by
  unfold stripBy
  have h3 : s.dropWhile p = s := by
    cases s with
    | nil => rfl
    | cons c cs => rw [List.dropWhile_cons, h1 c rfl]; rfl
  rw [h3]
  have h4 : s.reverse.dropWhile p = s.reverse := by
    cases hs : s.reverse with
    | nil => rfl
    | cons c cs =>
      rw [List.dropWhile_cons, h2 c (by rw [← List.head?_reverse, hs]; rfl)]; rfl
  rw [h4, List.reverse_reverse]

theorem numSpace_pySpace {c : Char} (h : isNumSpace c = true) : isPySpace c = true := by
  simp only [isNumSpace, isPySpace, Bool.or_eq_true] at h ⊢
  tauto

/-! ## Digits -/

theorem isDig_digitChar (d : Fin 10) : isDig (digitChar d) = true := by
  fin_cases d <;> decide

theorem digVal_digitChar (d : Fin 10) : digVal (digitChar d) = d := by
  fin_cases d <;> decide

theorem digitsVal_foldl (ds : Text) (a : ℕ) : ds.foldl (fun a c => 10 * a + digVal c) a = a * 10 ^ ds.length + digitsVal ds := by
  induction ds generalizing a with
  | nil => simp [digitsVal]
  | cons c cs ih =>
    unfold digitsVal
    simp only [List.foldl_cons, List.length_cons]
    rw [ih, ih (10 * 0 + digVal c)]
    ring

theorem digitsVal_append (x y : Text) : digitsVal (x ++ y) = digitsVal x * 10 ^ y.length + digitsVal y := by
  conv_lhs => unfold digitsVal
  rw [List.foldl_append, digitsVal_foldl]
  rfl

theorem digitsVal_digits (ds : List (Fin 10)) : digitsVal (ds.map digitChar) = number ds := by
  induction ds using List.reverseRecOn with
  | nil => rfl
  | append_singleton ds d ih =>
    rw [List.map_append, digitsVal_append, ih]
    simp [number, digitsVal, digVal_digitChar, Nat.ofDigits_cons, -List.map_reverse]
    ring

theorem all_digits (ds : List (Fin 10)) : (ds.map digitChar).all isDig = true := by
  simp [List.all_eq_true, isDig_digitChar]

/-! ## Underscores -/

theorem deUnderscoreAux_eq {s : Text} (h : '_' ∉ s) (prev : Char) (hp : prev ≠ '_') : deUnderscoreAux prev s = some s := by
  induction s generalizing prev with
  | nil => simp [deUnderscoreAux, hp]
  | cons c cs ih =>
    have hc : c ≠ '_' := fun e => h (e ▸ List.mem_cons_self)
    simp [deUnderscoreAux, hc, hp, ih (fun hm => h (List.mem_cons_of_mem _ hm)) c hc]

theorem deUnderscore_eq {s : Text} (h : '_' ∉ s) : deUnderscore s = some s := deUnderscoreAux_eq h _ (by decide)

theorem deUnderscoreAux_mem {s t : Text} {prev : Char} (h : deUnderscoreAux prev s = some t) (c : Char) (hc : c ∈ s) :
    c = '_' ∨ c ∈ t := by
  induction s generalizing prev t with
  | nil => cases hc
  | cons d ds ih =>
    unfold deUnderscoreAux at h
    by_cases hd : d = '_'
    · subst hd
      rcases List.mem_cons.mp hc with rfl | hc
      · exact Or.inl rfl
      · rw [if_pos (by rfl)] at h
        split at h
        · exact ih h hc
        · cases h
    · rw [if_neg (by simpa using hd)] at h
      split at h
      · cases h
      · rcases hr : deUnderscoreAux d ds with _ | r
        · rw [hr] at h; cases h
        · rw [hr] at h
          obtain rfl := Option.some.inj h
          rcases List.mem_cons.mp hc with rfl | hc
          · exact Or.inr List.mem_cons_self
          · exact (ih hr hc).imp id (List.mem_cons_of_mem _)

theorem takeSign_mem {s u : Text} {b : Bool} (h : takeSign s = (b, u)) (c : Char) (hc : c ∈ s) : c = '+' ∨ c = '-' ∨ c ∈ u := by
  unfold takeSign at h
  split at h <;> obtain ⟨-, rfl⟩ := Prod.mk.inj h
  · rcases List.mem_cons.mp hc with rfl | hc
    · exact Or.inr (Or.inl rfl)
    · exact Or.inr (Or.inr hc)
  · rcases List.mem_cons.mp hc with rfl | hc
    · exact Or.inl rfl
    · exact Or.inr (Or.inr hc)
  · exact Or.inr (Or.inr hc)

/-! ## `int(...)` -/

/-- Characters of a text accepted by `int(...)`. -/
theorem parseInt_chars {s : Text} {v : ℤ} (h : parseInt s = some v) (c : Char) (hc : c ∈ s) :
    isNumSpace c = true ∨ c = '_' ∨ c = '+' ∨ c = '-' ∨ isDig c = true := by
  obtain ⟨l, r, hs, hl, hr⟩ := stripBy_split isNumSpace s
  rw [hs] at hc
  simp only [List.mem_append] at hc
  rcases hc with (hc | hc) | hc
  · exact Or.inl (hl c hc)
  · unfold parseInt at h
    rcases hd : deUnderscore (stripBy isNumSpace s) with _ | t
    · rw [hd] at h; cases h
    rw [hd] at h
    rcases ht : takeSign t with ⟨b, u⟩
    simp only [ht] at h
    split at h
    · cases h
    · rename_i hu
      simp only [Bool.or_eq_true, Bool.not_eq_true', not_or, Bool.not_eq_false] at hu
      rcases deUnderscoreAux_mem hd c hc with rfl | hc
      · exact Or.inr (Or.inl rfl)
      · rcases takeSign_mem ht c hc with rfl | rfl | hc
        · exact Or.inr (Or.inr (Or.inl rfl))
        · exact Or.inr (Or.inr (Or.inr (Or.inl rfl)))
        · exact Or.inr (Or.inr (Or.inr (Or.inr (List.all_eq_true.mp hu.2 c hc))))
  · exact Or.inl (hr c hc)

theorem parseInt_right {s l : Text} (h : ∀ c ∈ l, isNumSpace c = true) : parseInt (s ++ l) = parseInt s := by
  unfold parseInt
  rw [stripBy_right s h]

theorem parseInt_left {s l : Text} (h : ∀ c ∈ l, isNumSpace c = true) : parseInt (l ++ s) = parseInt s := by
  unfold parseInt
  rw [stripBy_left s h]

theorem space_not_digit {c : Char} (h : isPySpace c = true) (h2 : isNumSpace c = true ∨ c = '_' ∨ c = '+' ∨ c = '-' ∨ isDig c = true) :
    isNumSpace c = true := by
  rcases h2 with h2 | rfl | rfl | rfl | h2
  · exact h2
  · exact absurd h (by decide)
  · exact absurd h (by decide)
  · exact absurd h (by decide)
  · exfalso
    simp only [isDig, Bool.and_eq_true, decide_eq_true_eq] at h2
    have h3 : 48 ≤ c.toNat := by
      have := h2.1
      rw [Char.le_def] at this
      exact this
    simp only [isPySpace, Bool.or_eq_true, beq_iff_eq] at h
    rcases h with (((((((((rfl | rfl) | rfl) | rfl) | h) | h) | h) | h) | h) | h)
    all_goals first | omega | exact absurd h3 (by decide)

/-- Trailing white space of either kind does not change a successful `int(...)`. -/
theorem parseInt_trailing {s l : Text} {v : ℤ} (hl : ∀ c ∈ l, isPySpace c = true) (h : parseInt (s ++ l) = some v) :
    parseInt s = some v := by
  rw [← h, parseInt_right]
  intro c hc
  exact space_not_digit (hl c hc) (parseInt_chars h c (List.mem_append_right _ hc))

theorem takeSign_digits (d : Fin 10) (x : Text) : takeSign (digitChar d :: x) = (false, digitChar d :: x) := by
  fin_cases d <;> rfl

theorem digitChar_ne {c : Char} (hc : isDig c = false) (d : Fin 10) : digitChar d ≠ c := by
  intro h
  rw [← h, isDig_digitChar] at hc
  cases hc

theorem not_mem_digits {c : Char} (hc : isDig c = false) (ds : List (Fin 10)) : c ∉ ds.map digitChar := by
  intro h
  obtain ⟨d, -, h⟩ := List.mem_map.mp h
  exact digitChar_ne hc d h

theorem numSpace_digitChar (d : Fin 10) : isNumSpace (digitChar d) = false := by
  fin_cases d <;> decide

theorem pySpace_digitChar (d : Fin 10) : isPySpace (digitChar d) = false := by
  fin_cases d <;> decide

theorem parseInt_digits (d : Fin 10) (ds : List (Fin 10)) : parseInt ((d :: ds).map digitChar) = some (number (d :: ds) : ℤ) := by
  have hs : stripBy isNumSpace ((d :: ds).map digitChar) = (d :: ds).map digitChar := by
    apply stripBy_id
    · intro c hc
      obtain rfl : digitChar d = c := by simpa using hc
      exact numSpace_digitChar d
    · intro c hc
      obtain ⟨d', -, rfl⟩ := List.mem_map.mp (List.mem_of_getLast? hc)
      exact numSpace_digitChar d'
  unfold parseInt
  rw [hs, deUnderscore_eq (not_mem_digits (by decide) _)]
  simp only [List.map_cons, takeSign_digits]
  rw [← List.map_cons, all_digits, digitsVal_digits]
  simp

theorem parseInt_signed (g : Option Bool) (d : Fin 10) (ds : List (Fin 10)) :
    parseInt (signText g ++ (d :: ds).map digitChar) =
      some (if g = some true then -(number (d :: ds) : ℤ) else number (d :: ds)) := by
  have hs : stripBy isNumSpace (signText g ++ (d :: ds).map digitChar) = signText g ++ (d :: ds).map digitChar := by
    apply stripBy_id
    · intro c hc
      rcases g with _ | _ | _
      · obtain rfl : digitChar d = c := by simpa [signText] using hc
        exact numSpace_digitChar d
      all_goals
        simp [signText] at hc
        subst hc
        decide
    · intro c hc
      rw [List.getLast?_append_of_ne_nil _ (by simp)] at hc
      obtain ⟨d', -, rfl⟩ := List.mem_map.mp (List.mem_of_getLast? hc)
      exact numSpace_digitChar d'
  have hu : '_' ∉ signText g ++ (d :: ds).map digitChar := by
    intro h
    rcases List.mem_append.mp h with h | h
    · rcases g with _ | _ | _ <;> revert h <;> decide
    · exact not_mem_digits (by decide) _ h
  have ht : takeSign (signText g ++ (d :: ds).map digitChar) = (g == some true, (d :: ds).map digitChar) := by
    rcases g with _ | _ | _
    · exact takeSign_digits d _
    · rfl
    · rfl
  unfold parseInt
  rw [hs, deUnderscore_eq hu]
  simp only [ht]
  rw [all_digits, digitsVal_digits]
  rcases g with _ | _ | _ <;> simp

/-! ## `float(...)` -/

/-- Characters that `float(...)` never accepts. -/
def badFloatChar (c : Char) : Prop :=
  isNumSpace c = false ∧ c ≠ '_' ∧ c ≠ '+' ∧ c ≠ '-' ∧ isDig c = false ∧ c ≠ '.' ∧ c ≠ 'e' ∧ c ≠ 'E' ∧
    c.toLower ∉ "nan".toList ∧ c.toLower ∉ "inf".toList ∧ c.toLower ∉ "infinity".toList

theorem parseExp_chars {s : Text} {v : ℤ} (h : parseExp s = some v) (c : Char) (hc : c ∈ s) :
    c = 'e' ∨ c = 'E' ∨ c = '+' ∨ c = '-' ∨ isDig c = true := by
  cases s with
  | nil => cases hc
  | cons d ds =>
    simp only [parseExp] at h
    by_cases hd : d = 'e' ∨ d = 'E'
    · rw [if_pos (by simpa using hd)] at h
      rcases List.mem_cons.mp hc with rfl | hc
      · exact hd.elim Or.inl fun h => Or.inr (Or.inl h)
      rcases ht : takeSign ds with ⟨b, u⟩
      simp only [ht] at h
      split at h
      · cases h
      · rename_i hu
        simp only [Bool.or_eq_true, Bool.not_eq_true', not_or, Bool.not_eq_false] at hu
        rcases takeSign_mem ht c hc with rfl | rfl | hc
        · exact Or.inr (Or.inr (Or.inl rfl))
        · exact Or.inr (Or.inr (Or.inr (Or.inl rfl)))
        · exact Or.inr (Or.inr (Or.inr (Or.inr (List.all_eq_true.mp hu.2 c hc))))
    · rw [if_neg (by simpa using hd)] at h
      cases h

theorem parseUFloat_chars {s : Text} {v : ℚ} (h : parseUFloat s = some v) (c : Char) (hc : c ∈ s) :
    isDig c = true ∨ c = '.' ∨ c = 'e' ∨ c = 'E' ∨ c = '+' ∨ c = '-' := by
  have hs := List.takeWhile_append_dropWhile (p := isDig) (l := s)
  rw [← hs] at hc
  rcases List.mem_append.mp hc with hc | hc
  · exact Or.inl (List.mem_takeWhile_imp hc)
  unfold parseUFloat at h
  rcases hr : s.dropWhile isDig with _ | ⟨d, r'⟩
  · rw [hr] at hc; cases hc
  rw [hr] at hc
  have he : ∃ e, parseExp (fracSplit (d :: r')).2 = some e := by
    simp only [hr] at h
    split_ifs at h
    rcases hp : parseExp (fracSplit (d :: r')).2 with _ | e
    · rw [hp] at h; cases h
    · exact ⟨e, rfl⟩
  obtain ⟨e, he⟩ := he
  by_cases hd : d = '.'
  · subst hd
    simp only [fracSplit, beq_self_eq_true, if_true] at he
    rcases List.mem_cons.mp hc with rfl | hc
    · exact Or.inr (Or.inl rfl)
    rw [← List.takeWhile_append_dropWhile (p := isDig) (l := r')] at hc
    rcases List.mem_append.mp hc with hc | hc
    · exact Or.inl (List.mem_takeWhile_imp hc)
    · have := parseExp_chars he c hc
      tauto
  · simp only [fracSplit, beq_eq_false_iff_ne.mpr hd, Bool.false_eq_true, if_false] at he
    have := parseExp_chars he c hc
    tauto

theorem parseFloat_chars {s : Text} {v : XF ℚ} (h : parseFloat s = some v) (c : Char) (hc : c ∈ s) : ¬ badFloatChar c := by
  rintro ⟨h1, h2, h3, h4, h5, h6, h7, h8, h9, h10, h11⟩
  obtain ⟨l, r, hs, hl, hr⟩ := stripBy_split isNumSpace s
  rw [hs] at hc
  simp only [List.mem_append] at hc
  rcases hc with (hc | hc) | hc
  · rw [hl c hc] at h1; cases h1
  · unfold parseFloat at h
    rcases hd : deUnderscore (stripBy isNumSpace s) with _ | t
    · rw [hd] at h; cases h
    rw [hd] at h
    rcases ht : takeSign t with ⟨b, u⟩
    simp only [ht] at h
    have hcu : c ∈ u := by
      rcases deUnderscoreAux_mem hd c hc with rfl | hc
      · exact absurd rfl h2
      · rcases takeSign_mem ht c hc with rfl | rfl | hc
        · exact absurd rfl h3
        · exact absurd rfl h4
        · exact hc
    have hlow : c.toLower ∈ lowerStr u := List.mem_map_of_mem hcu
    split at h
    · rename_i he
      rw [beq_iff_eq.mp he] at hlow
      exact h9 hlow
    split at h
    · rename_i he
      simp only [Bool.or_eq_true, beq_iff_eq] at he
      rcases he with he | he <;> rw [he] at hlow
      · exact h10 hlow
      · exact h11 hlow
    · rcases hp : parseUFloat u with _ | q
      · rw [hp] at h; cases h
      · have := parseUFloat_chars hp c hcu
        rcases this with h | h | h | h | h | h
        · rw [h] at h5; cases h5
        all_goals contradiction
  · rw [hr c hc] at h1; cases h1

theorem parseFloat_angle (a : Angle) : parseFloat a.text = some (.fin a.value) := by
  have hdot : isDig '.' = false := by decide
  have hmem : ∀ c ∈ a.text, (∃ d, c = digitChar d) ∨ c = '-' ∨ c = '+' ∨ c = '.' := by
    intro c hc
    unfold Angle.text at hc
    simp only [List.mem_append] at hc
    rcases hc with (hc | hc) | hc
    · rcases hs : a.sign with _ | _ | _ <;> rw [hs] at hc <;> simp [signText] at hc <;> tauto
    · obtain ⟨d, -, rfl⟩ := List.mem_map.mp hc
      exact Or.inl ⟨d, rfl⟩
    · rcases hf : a.frac with _ | ds <;> rw [hf] at hc
      · simp [fracText] at hc
      · rcases List.mem_cons.mp hc with rfl | hc
        · tauto
        · obtain ⟨d, -, rfl⟩ := List.mem_map.mp hc
          exact Or.inl ⟨d, rfl⟩
  have hsp : ∀ c ∈ a.text, isNumSpace c = false := by
    intro c hc
    rcases hmem c hc with ⟨d, rfl⟩ | rfl | rfl | rfl
    · exact numSpace_digitChar d
    all_goals decide
  have hus : '_' ∉ a.text := by
    intro h
    rcases hmem _ h with ⟨d, h⟩ | h | h | h
    · exact digitChar_ne (by decide) d h.symm
    all_goals exact absurd h (by decide)
  have hstrip : stripBy isNumSpace a.text = a.text :=
    stripBy_id (fun c hc => hsp c (List.mem_of_mem_head? hc)) fun c hc => hsp c (List.mem_of_getLast? hc)
  obtain ⟨sign, first, digits, frac⟩ := a
  set u : Text := (first :: digits).map digitChar ++ fracText frac with hu
  have hts : takeSign (Angle.text ⟨sign, first, digits, frac⟩) = (sign == some true, u) := by
    unfold Angle.text
    rcases sign with _ | _ | _
    · exact takeSign_digits first _
    · rfl
    · rfl
  have hfirst : ∀ w : Text, (∀ c ∈ w.head?, isDig c = false) → (lowerStr u == w) = false := by
    intro w hw
    rw [beq_eq_false_iff_ne]
    intro he
    have h1 : (lowerStr u).head? = some (digitChar first) := by
      simp only [hu, lowerStr, List.map_cons, List.cons_append, List.head?_cons, Option.some.injEq]
      fin_cases first <;> rfl
    rw [he] at h1
    have := hw _ h1
    rw [isDig_digitChar] at this
    cases this
  have htw : ∀ (ds : List (Fin 10)) (r : Text), (∀ c ∈ r.head?, isDig c = false) →
      (ds.map digitChar ++ r).takeWhile isDig = ds.map digitChar ∧ (ds.map digitChar ++ r).dropWhile isDig = r := by
    intro ds r hr
    induction ds with
    | nil =>
      cases r with
      | nil => exact ⟨rfl, rfl⟩
      | cons c cs =>
        have := hr c rfl
        simp [List.takeWhile_cons, List.dropWhile_cons, this]
    | cons d ds ih =>
      simp only [List.map_cons, List.cons_append, List.takeWhile_cons, List.dropWhile_cons, isDig_digitChar, if_true, ih.1, ih.2,
        and_self]
  have huf : parseUFloat u = some ((number (first :: digits) : ℚ) + (number (frac.getD []) : ℚ) / 10 ^ (frac.getD []).length) := by
    unfold parseUFloat
    rcases frac with _ | fs
    · obtain ⟨h1, h2⟩ := htw (first :: digits) [] (by simp)
      rw [hu, show fracText none = [] from rfl, h1, h2]
      simp only [fracSplit, parseExp, List.append_nil, digitsVal_digits]
      simp [number]
    · obtain ⟨h1, h2⟩ := htw (first :: digits) ('.' :: fs.map digitChar) (by simpa using hdot)
      obtain ⟨h3, h4⟩ := htw fs [] (by simp)
      rw [List.append_nil] at h3 h4
      rw [hu, show fracText (some fs) = '.' :: fs.map digitChar from rfl, h1, h2]
      simp only [fracSplit, beq_self_eq_true, if_true, h3, h4, parseExp, digitsVal_append, digitsVal_digits]
      simp
      rw [add_div, mul_div_assoc, div_self (pow_ne_zero _ (by norm_num)), mul_one]
  unfold parseFloat
  rw [hstrip, deUnderscore_eq hus]
  simp only [hts, hfirst "nan".toList (by decide), hfirst "inf".toList (by decide), hfirst "infinity".toList (by decide), huf,
    Option.map_some, Bool.or_self, Bool.false_eq_true, if_false]
  unfold Angle.value
  by_cases h : sign = some true
  · simp [h]
  · simp [h]

end Composipy
