import Verif.Model.Display
import Verif.Props.LP
import Verif.Props.Material
import Verif.Props.Naming

/-!
# C105: texts and comparisons of materials and laminates
-/

namespace Composipy
open Spec

/-- What is used of the text of numbers: different numbers of `S` (the floats) have different texts, none is empty or contains a comma. -/
structure Spec.PlainFmt {α : Type} (fmt : α → String) (S : Set α) : Prop where
  inj : Set.InjOn fmt S
  plain : ∀ x, ',' ∉ (fmt x).toList
  ne : ∀ x, (fmt x).toList ≠ []

/-- A text without commas is determined by any text that continues it with a comma. -/
theorem peel {a b r r' : List Char} (ha : ',' ∉ a) (hb : ',' ∉ b) (h : a ++ ',' :: r = b ++ ',' :: r') : a = b ∧ r = r' := by
  induction a generalizing b with
  | nil =>
    cases b with
    | nil => simpa using h
    | cons c b =>
      simp only [List.nil_append, List.cons_append, List.cons.injEq] at h
      exact absurd (h.1 ▸ List.mem_cons_self) hb
  | cons c a ih =>
    cases b with
    | nil =>
      simp only [List.nil_append, List.cons_append, List.cons.injEq] at h
      exact absurd (h.1 ▸ List.mem_cons_self) ha
    | cons c' b =>
      simp only [List.cons_append, List.cons.injEq] at h
      obtain ⟨rfl, h⟩ := h
      obtain ⟨rfl, rfl⟩ := ih (fun hc => ha (List.mem_cons_of_mem _ hc)) (fun hc => hb (List.mem_cons_of_mem _ hc)) h
      exact ⟨rfl, rfl⟩

theorem toList_inj {s t : String} (h : s.toList = t.toList) : s = t := String.toList_inj.mp h

/-- Two texts that start with a comma and have the same number of commas can be told apart from whatever precedes them. -/
theorem split_name {n n' r r' : List Char} (hc : (',' :: r).count ',' = (',' :: r').count ',') (h : n ++ ',' :: r = n' ++ ',' :: r') : n = n' ∧ r = r' := by
  have key : ∀ {n n' r r' : List Char}, (',' :: r).count ',' = (',' :: r').count ',' → n ++ ',' :: r = n' ++ ',' :: r' → n.length ≤ n'.length →
      n = n' := by
    intro n n' r r' hc h hl
    obtain ⟨x, rfl⟩ : ∃ x, n' = n ++ x := by
      have := List.prefix_of_prefix_length_le (List.prefix_append n (',' :: r)) (h ▸ List.prefix_append n' (',' :: r')) hl
      obtain ⟨x, hx⟩ := this
      exact ⟨x, hx.symm⟩
    rw [List.append_assoc] at h
    have h := List.append_cancel_left h
    cases x with
    | nil => simp
    | cons c x =>
      simp only [List.cons_append, List.cons.injEq] at h
      obtain ⟨rfl, rfl⟩ := h
      simp only [List.count_cons_self, List.count_append] at hc
      omega
  have hn : n = n' := by
    rcases le_total n.length n'.length with hl | hl
    · exact key hc h hl
    · exact (key hc.symm h.symm hl).symm
  subst hn
  have := List.append_cancel_left h
  exact ⟨rfl, (List.cons.inj this).2⟩

theorem comma_toList : commaText.toList = [',', ' '] := by
  unfold commaText
  decide

theorem equals_plain : ',' ∉ equalsText.toList := by
  unfold equalsText
  decide

theorem fieldsText_cons (l v : String) (r : List (String × String)) :
    (fieldsText ((l, v) :: r)).toList = ',' :: (' ' :: (l.toList ++ (equalsText.toList ++ (v.toList ++ (fieldsText r).toList)))) := by
  rw [fieldsText, String.toList_append, String.toList_append, String.toList_append, String.toList_append, comma_toList]
  rfl

/-- Fields without commas. -/
def Spec.PlainFields (l : List (String × String)) : Prop := ∀ q ∈ l, ',' ∉ q.1.toList ∧ ',' ∉ q.2.toList

theorem fields_count {l : List (String × String)} (h : PlainFields l) : (fieldsText l).toList.count ',' = l.length := by
  induction l with
  | nil =>
    unfold fieldsText closeText
    decide
  | cons q r ih =>
    obtain ⟨a, v⟩ := q
    obtain ⟨h1, h2⟩ := h _ List.mem_cons_self
    rw [fieldsText_cons, List.count_cons_self, List.count_cons_of_ne (by decide), List.count_append, List.count_append, List.count_append,
      ih fun q hq => h q (List.mem_cons_of_mem _ hq), List.count_eq_zero.mpr h1, List.count_eq_zero.mpr h2,
      List.count_eq_zero.mpr equals_plain, List.length_cons]
    omega

/-- Fields with the same labels are determined by their text. -/
theorem fields_inj {l l' : List (String × String)} (h : PlainFields l) (h' : PlainFields l') (hl : l.map Prod.fst = l'.map Prod.fst)
    (he : (fieldsText l).toList = (fieldsText l').toList) : l = l' := by
  induction l generalizing l' with
  | nil =>
    cases l' with
    | nil => rfl
    | cons q r => cases hl
  | cons q r ih =>
    cases l' with
    | nil => cases hl
    | cons q' r' =>
      obtain ⟨a, v⟩ := q
      obtain ⟨a', v'⟩ := q'
      simp only [List.map_cons, List.cons.injEq] at hl
      obtain ⟨rfl, hl⟩ := hl
      rw [fieldsText_cons, fieldsText_cons] at he
      have he := List.append_cancel_left (List.append_cancel_left (List.cons.inj (List.cons.inj he).2).2)
      have p1 : ',' ∉ v.toList := (h _ List.mem_cons_self).2
      have p2 : ',' ∉ v'.toList := (h' _ List.mem_cons_self).2
      have hr : PlainFields r := fun q hq => h q (List.mem_cons_of_mem _ hq)
      have hr' : PlainFields r' := fun q hq => h' q (List.mem_cons_of_mem _ hq)
      cases r with
      | nil =>
        cases r' with
        | nil => rw [toList_inj (List.append_cancel_right he)]
        | cons q r' => cases hl
      | cons q r =>
        cases r' with
        | nil => cases hl
        | cons q' r' =>
          obtain ⟨b, w⟩ := q
          obtain ⟨b', w'⟩ := q'
          rw [fieldsText_cons, fieldsText_cons] at he
          obtain ⟨h1, h2⟩ := peel p1 p2 he
          rw [toList_inj h1, ih hr hr' hl (by rw [fieldsText_cons, fieldsText_cons, h2])]

/-- A name followed by fields. -/
theorem named_inj {pre n n' : String} {l l' : List (String × String)} (h : PlainFields l) (h' : PlainFields l') (hl : l.map Prod.fst = l'.map Prod.fst)
    (hne : l ≠ []) (he : pre ++ n ++ fieldsText l = pre ++ n' ++ fieldsText l') : n = n' ∧ l = l' := by
  have he := congrArg String.toList he
  rw [String.toList_append, String.toList_append, String.toList_append, String.toList_append, List.append_assoc, List.append_assoc] at he
  have he := List.append_cancel_left he
  have hlen : l.length = l'.length := by simpa using congrArg List.length hl
  have hc : (fieldsText l).toList.count ',' = (fieldsText l').toList.count ',' := by rw [fields_count h, fields_count h', hlen]
  cases l with
  | nil => exact absurd rfl hne
  | cons q r =>
    cases l' with
    | nil => cases hl
    | cons q' r' =>
      obtain ⟨a, v⟩ := q
      obtain ⟨a', v'⟩ := q'
      rw [fieldsText_cons, fieldsText_cons] at hc he
      obtain ⟨h1, h2⟩ := split_name hc he
      exact ⟨toList_inj h1, fields_inj h h' hl (by rw [fieldsText_cons, fieldsText_cons, h2])⟩

theorem readName_idem (o : NamedObj) : o.readName.2.readName = o.readName ∧ o.readName.2.name = some o.readName.1 := by
  obtain ⟨c, i, n⟩ := o
  cases n <;> exact ⟨rfl, rfl⟩

/-- The ten numbers of the material belong to `S`. -/
def Spec.OrthoIn (S : Set PyFloat) (m : OrthoMat PyFloat) : Prop :=
  m.e1 ∈ S ∧ m.e2 ∈ S ∧ m.v12 ∈ S ∧ m.g12 ∈ S ∧ m.thickness ∈ S ∧ m.t1 ∈ S ∧ m.c1 ∈ S ∧ m.t2 ∈ S ∧ m.c2 ∈ S ∧ m.s ∈ S

/-- The seven numbers of the material belong to `S`. -/
def Spec.IsoIn (S : Set PyFloat) (m : IsoMat PyFloat) : Prop :=
  m.e ∈ S ∧ m.v ∈ S ∧ m.g ∈ S ∧ m.thickness ∈ S ∧ m.t ∈ S ∧ m.c ∈ S ∧ m.s ∈ S

/-- **C105** `repr` of an orthotropic material: the numbers stay as they are, the name becomes the printed one, and a further `repr` gives the same text. -/
theorem C105_repr_state (fmt : PyFloat → String) (o : PlyObj (OrthoMat PyFloat)) :
    (o.reprOrtho fmt).2.mat = o.mat ∧ (o.reprOrtho fmt).2.named.name = some o.named.readName.1 ∧
    (o.reprOrtho fmt).2.reprOrtho fmt = o.reprOrtho fmt := by
  refine ⟨rfl, (readName_idem _).2, ?_⟩
  simp only [PlyObj.reprOrtho, (readName_idem _).1]

/-- **C105** the same for isotropic materials. -/
theorem C105_repr_state_iso (fmt : PyFloat → String) (o : PlyObj (IsoMat PyFloat)) :
    (o.reprIso fmt).2.mat = o.mat ∧ (o.reprIso fmt).2.named.name = some o.named.readName.1 ∧
    (o.reprIso fmt).2.reprIso fmt = o.reprIso fmt := by
  refine ⟨rfl, (readName_idem _).2, ?_⟩
  simp only [PlyObj.reprIso, (readName_idem _).1]

theorem ortho_plain {fmt : PyFloat → String} {S : Set PyFloat} (hf : PlainFmt fmt S) (m : OrthoMat PyFloat) :
    PlainFields [("E1", fmt m.e1), ("E2", fmt m.e2), ("\n            v12", fmt m.v12), ("G12", fmt m.g12), ("thickness", fmt m.thickness),
    ("\n            T1", fmt m.t1), ("C1", fmt m.c1), ("T2", fmt m.t2), ("C2", fmt m.c2), ("S", fmt m.s)] := by
  intro q hq
  simp only [List.mem_cons, List.not_mem_nil, or_false] at hq
  rcases hq with rfl | rfl | rfl | rfl | rfl | rfl | rfl | rfl | rfl | rfl
  · exact ⟨show ',' ∉ ("E1" : String).toList by decide, hf.plain _⟩
  · exact ⟨show ',' ∉ ("E2" : String).toList by decide, hf.plain _⟩
  · exact ⟨show ',' ∉ ("\n            v12" : String).toList by decide, hf.plain _⟩
  · exact ⟨show ',' ∉ ("G12" : String).toList by decide, hf.plain _⟩
  · exact ⟨show ',' ∉ ("thickness" : String).toList by decide, hf.plain _⟩
  · exact ⟨show ',' ∉ ("\n            T1" : String).toList by decide, hf.plain _⟩
  · exact ⟨show ',' ∉ ("C1" : String).toList by decide, hf.plain _⟩
  · exact ⟨show ',' ∉ ("T2" : String).toList by decide, hf.plain _⟩
  · exact ⟨show ',' ∉ ("C2" : String).toList by decide, hf.plain _⟩
  · exact ⟨show ',' ∉ ("S" : String).toList by decide, hf.plain _⟩

theorem iso_plain {fmt : PyFloat → String} {S : Set PyFloat} (hf : PlainFmt fmt S) (m : IsoMat PyFloat) :
    PlainFields [("E", fmt m.e), ("\n            v", fmt m.v), ("G", fmt m.g), ("thickness", fmt m.thickness), ("\n            T", fmt m.t),
    ("C", fmt m.c), ("S", fmt m.s)] := by
  intro q hq
  simp only [List.mem_cons, List.not_mem_nil, or_false] at hq
  rcases hq with rfl | rfl | rfl | rfl | rfl | rfl | rfl
  · exact ⟨show ',' ∉ ("E" : String).toList by decide, hf.plain _⟩
  · exact ⟨show ',' ∉ ("\n            v" : String).toList by decide, hf.plain _⟩
  · exact ⟨show ',' ∉ ("G" : String).toList by decide, hf.plain _⟩
  · exact ⟨show ',' ∉ ("thickness" : String).toList by decide, hf.plain _⟩
  · exact ⟨show ',' ∉ ("\n            T" : String).toList by decide, hf.plain _⟩
  · exact ⟨show ',' ∉ ("C" : String).toList by decide, hf.plain _⟩
  · exact ⟨show ',' ∉ ("S" : String).toList by decide, hf.plain _⟩

/-- **C105** the text of an orthotropic material determines its name and its ten numbers. -/
theorem C105_repr_ortho (fmt : PyFloat → String) (S : Set PyFloat) (hf : PlainFmt fmt S) (o o' : PlyObj (OrthoMat PyFloat))
    (ho : OrthoIn S o.mat) (ho' : OrthoIn S o'.mat) :
    (o.reprOrtho fmt).1 = (o'.reprOrtho fmt).1 ↔ o.named.readName.1 = o'.named.readName.1 ∧ o.mat = o'.mat := by
  constructor
  swap
  · rintro ⟨h1, h2⟩
    simp only [PlyObj.reprOrtho, h1, h2]
  intro h
  obtain ⟨hn, hl⟩ := named_inj (ortho_plain hf o.mat) (ortho_plain hf o'.mat) rfl (by simp) h
  simp only [List.cons.injEq, Prod.mk.injEq, true_and, and_true] at hl
  obtain ⟨e1, e2, e3, e4, e5, e6, e7, e8, e9, e10⟩ := hl
  refine ⟨hn, ?_⟩
  obtain ⟨m, N⟩ := o
  obtain ⟨m', N'⟩ := o'
  obtain ⟨a1, a2, a3, a4, a5, a6, a7, a8, a9, a10⟩ := ho
  obtain ⟨b1, b2, b3, b4, b5, b6, b7, b8, b9, b10⟩ := ho'
  cases m; cases m'
  simp only [OrthoMat.mk.injEq]
  exact ⟨hf.inj a1 b1 e1, hf.inj a2 b2 e2, hf.inj a3 b3 e3, hf.inj a4 b4 e4, hf.inj a5 b5 e5, hf.inj a6 b6 e6, hf.inj a7 b7 e7, hf.inj a8 b8 e8,
    hf.inj a9 b9 e9, hf.inj a10 b10 e10⟩

/-- **C105** the text of an isotropic material determines its name and its seven numbers. -/
theorem C105_repr_iso (fmt : PyFloat → String) (S : Set PyFloat) (hf : PlainFmt fmt S) (o o' : PlyObj (IsoMat PyFloat))
    (ho : IsoIn S o.mat) (ho' : IsoIn S o'.mat) :
    (o.reprIso fmt).1 = (o'.reprIso fmt).1 ↔ o.named.readName.1 = o'.named.readName.1 ∧ o.mat = o'.mat := by
  constructor
  swap
  · rintro ⟨h1, h2⟩
    simp only [PlyObj.reprIso, h1, h2]
  intro h
  obtain ⟨hn, hl⟩ := named_inj (iso_plain hf o.mat) (iso_plain hf o'.mat) rfl (by simp) h
  simp only [List.cons.injEq, Prod.mk.injEq, true_and, and_true] at hl
  obtain ⟨e1, e2, e3, e4, e5, e6, e7⟩ := hl
  refine ⟨hn, ?_⟩
  obtain ⟨m, N⟩ := o
  obtain ⟨m', N'⟩ := o'
  obtain ⟨a1, a2, a3, a4, a5, a6, a7⟩ := ho
  obtain ⟨b1, b2, b3, b4, b5, b6, b7⟩ := ho'
  cases m; cases m'
  simp only [IsoMat.mk.injEq]
  exact ⟨hf.inj a1 b1 e1, hf.inj a2 b2 e2, hf.inj a3 b3 e3, hf.inj a4 b4 e4, hf.inj a5 b5 e5, hf.inj a6 b6 e6, hf.inj a7 b7 e7⟩

theorem field_text (label v : String) (r : List (String × String)) (w : String) (h : ", " ++ label ++ " = " = w) :
    fieldsText ((label, v) :: r) = w ++ (v ++ fieldsText r) := by
  rw [fieldsText, ← h, commaText, equalsText]
  simp only [String.append_assoc]

/-- **C105** the texts in full. -/
theorem C105_texts (fmt : PyFloat → String) (o : PlyObj (OrthoMat PyFloat)) (i : PlyObj (IsoMat PyFloat)) :
    (o.reprOrtho fmt).1 = "Ply(" ++ o.named.readName.1 ++ (", E1 = " ++ (fmt o.mat.e1 ++ (", E2 = " ++ (fmt o.mat.e2 ++
      (", \n            v12 = " ++ (fmt o.mat.v12 ++ (", G12 = " ++ (fmt o.mat.g12 ++ (", thickness = " ++ (fmt o.mat.thickness ++
      (", \n            T1 = " ++ (fmt o.mat.t1 ++ (", C1 = " ++ (fmt o.mat.c1 ++ (", T2 = " ++ (fmt o.mat.t2 ++ (", C2 = " ++ (fmt o.mat.c2 ++
      (", S = " ++ (fmt o.mat.s ++ ")")))))))))))))))))))) ∧
    (i.reprIso fmt).1 = "IsotropicMaterial(" ++ i.named.readName.1 ++ (", E = " ++ (fmt i.mat.e ++ (", \n            v = " ++ (fmt i.mat.v ++
      (", G = " ++ (fmt i.mat.g ++ (", thickness = " ++ (fmt i.mat.thickness ++ (", \n            T = " ++ (fmt i.mat.t ++ (", C = " ++
      (fmt i.mat.c ++ (", S = " ++ (fmt i.mat.s ++ ")")))))))))))))) := by
  constructor
  · rw [PlyObj.reprOrtho, OrthoMat.reprTail, plyHead, field_text _ _ _ ", E1 = " (by decide), field_text _ _ _ ", E2 = " (by decide),
      field_text _ _ _ ", \n            v12 = " (by decide), field_text _ _ _ ", G12 = " (by decide), field_text _ _ _ ", thickness = " (by decide),
      field_text _ _ _ ", \n            T1 = " (by decide), field_text _ _ _ ", C1 = " (by decide), field_text _ _ _ ", T2 = " (by decide),
      field_text _ _ _ ", C2 = " (by decide), field_text _ _ _ ", S = " (by decide), fieldsText, closeText]
  · rw [PlyObj.reprIso, IsoMat.reprTail, isoHead, field_text _ _ _ ", E = " (by decide), field_text _ _ _ ", \n            v = " (by decide),
      field_text _ _ _ ", G = " (by decide), field_text _ _ _ ", thickness = " (by decide), field_text _ _ _ ", \n            T = " (by decide),
      field_text _ _ _ ", C = " (by decide), field_text _ _ _ ", S = " (by decide), fieldsText, closeText]

/-- **C105** the text tells the two classes apart, for all names and numbers. -/
theorem C105_repr_class (fmt fmt' : PyFloat → String) (o : PlyObj (OrthoMat PyFloat)) (o' : PlyObj (IsoMat PyFloat)) :
    (o.reprOrtho fmt).1 ≠ (o'.reprIso fmt').1 := by
  intro h
  have h' := congrArg (fun s => s.toList.head?) h
  simp only [PlyObj.reprOrtho, PlyObj.reprIso] at h'
  rw [String.toList_append, String.toList_append, String.toList_append, String.toList_append, List.append_assoc, List.append_assoc,
    List.head?_append_of_ne_nil _ (by unfold plyHead; decide), List.head?_append_of_ne_nil _ (by unfold isoHead; decide)] at h'
  unfold plyHead isoHead at h'
  exact absurd h' (by decide)

/-- **C105** materials without NaN whose texts agree are equal; the converse needs the same name. -/
theorem C105_repr_eq (fmt : PyFloat → String) (S : Set PyFloat) (hf : PlainFmt fmt S) (o o' : PlyObj (OrthoMat PyFloat))
    (ho : OrthoIn S o.mat) (ho' : OrthoIn S o'.mat) (hn : NoNaN o.mat) :
    (o.reprOrtho fmt).1 = (o'.reprOrtho fmt).1 ↔ o.named.readName.1 = o'.named.readName.1 ∧ o.mat.pyEq (.ortho o'.mat) = .ok true := by
  rw [C105_repr_ortho fmt S hf o o' ho ho']
  obtain ⟨b, hb, hi⟩ := C07_ortho_eq o.mat o'.mat hn
  rw [hb, ← hi]
  simp

theorem joinComma_inj {fmt : ℝ → String} {S : Set ℝ} (hf : PlainFmt fmt S) {l l' : List ℝ} (hl : ∀ x ∈ l, x ∈ S)
    (hl' : ∀ x ∈ l', x ∈ S) (h : (joinComma fmt l).toList = (joinComma fmt l').toList) : l = l' := by
  have step : ∀ x y (ys : List ℝ), (joinComma fmt (x :: y :: ys)).toList = (fmt x).toList ++ ',' :: (' ' :: (joinComma fmt (y :: ys)).toList) := by
    intro x y ys
    rw [joinComma, String.toList_append, String.toList_append, List.append_assoc, comma_toList]
    · rfl
    · simp
  induction l generalizing l' with
  | nil =>
    match l' with
    | [] => rfl
    | [y] => exact absurd h.symm (hf.ne y)
    | y :: z :: zs =>
      rw [step] at h
      simp [joinComma] at h
  | cons x xs ih =>
    match xs, l' with
    | [], [] => exact absurd h (hf.ne x)
    | [], [y] => rw [hf.inj (hl _ List.mem_cons_self) (hl' _ List.mem_cons_self) (toList_inj h)]
    | [], y :: z :: zs =>
      rw [step] at h
      have : ',' ∈ (fmt x).toList := by
        change (fmt x).toList = _ at h
        rw [h]
        simp
      exact absurd this (hf.plain x)
    | x' :: xs', [] =>
      rw [step] at h
      simp [joinComma] at h
    | x' :: xs', [y] =>
      rw [step] at h
      have : ',' ∈ (fmt y).toList := by
        change _ = (fmt y).toList at h
        rw [← h]
        simp
      exact absurd this (hf.plain y)
    | x' :: xs', y :: z :: zs =>
      rw [step, step] at h
      obtain ⟨h1, h2⟩ := peel (hf.plain x) (hf.plain y) h
      rw [hf.inj (hl _ List.mem_cons_self) (hl' _ List.mem_cons_self) (toList_inj h1),
        ih (fun x hx => hl x (List.mem_cons_of_mem _ hx)) (fun x hx => hl' x (List.mem_cons_of_mem _ hx)) (List.cons.inj h2).2]

/-- **C105** the text of a laminate of angles determines the angles. -/
theorem C105_repr_laminate (fmt : ℝ → String) (S : Set ℝ) (hf : PlainFmt fmt S) (dict : LPDict → String) (l l' : Lam) (s s' : List ℝ)
    (hs : l.stacking = .angles s) (hs' : l'.stacking = .angles s') (hS : ∀ x ∈ s, x ∈ S) (hS' : ∀ x ∈ s', x ∈ S) : l.repr fmt dict = l'.repr fmt dict ↔ s = s' := by
  constructor
  · intro h
    have h' := congrArg String.toList h
    simp only [Lam.repr, hs, hs'] at h'
    rw [String.toList_append, String.toList_append, String.toList_append, String.toList_append, listStr, listStr, String.toList_append,
      String.toList_append, String.toList_append, String.toList_append] at h'
    exact joinComma_inj hf hS hS' (List.append_cancel_left (List.append_cancel_right (List.append_cancel_left (List.append_cancel_left h'))))
  · rintro rfl
    rw [Lam.repr, Lam.repr, hs, hs']

/-- **C105** the text says nothing about the plies: laminates of the same stacking have the same text, whatever their plies. -/
theorem C105_repr_blind (fmt : ℝ → String) (dict : LPDict → String) (st : Stacking) (p p' : Plies) (l l' : Lam) (h : Lam.init st p = .ok l)
    (h' : Lam.init st p' = .ok l') : l.repr fmt dict = l'.repr fmt dict := by
  have key : ∀ p l, Lam.init st p = .ok l → l.stacking = st := by
    intro p l h
    unfold Lam.init at h
    split at h
    · split at h
      · cases h; rfl
      · split at h
        · cases h
        · cases h; rfl
    · split at h
      · cases h
      · split at h
        · cases h
        · cases h; rfl
  rw [Lam.repr, Lam.repr, key p l h, key p' l' h']

/-- Two laminates with the same text that are not equal. -/
example (fmt : ℝ → String) (dict : LPDict → String) (m m' : Mat) (hm : m ≠ m') : ∃ l l', Lam.init (.angles [0]) (.single m) = .ok l ∧
    Lam.init (.angles [0]) (.single m') = .ok l' ∧ l.repr fmt dict = l'.repr fmt dict ∧ l.pyEq l' ≠ .ok true := by
  obtain ⟨l, hl, e⟩ := C10_single [0] m
  obtain ⟨l', hl', e'⟩ := C10_single [0] m'
  refine ⟨l, l', hl, hl', C105_repr_blind fmt dict _ _ _ l l' hl hl', fun h => hm ?_⟩
  rw [C27_eq_iff_layup, e, e'] at h
  simpa using h

/-! ## Operators -/

theorem eqv_comm (x y : PyFloat) : XF.eqv x y ↔ XF.eqv y x := by
  cases x <;> cases y <;> simp [XF.eqv, eq_comm]

theorem ortho_comm (m o : OrthoMat PyFloat) : m.pyEq (.ortho o) = o.pyEq (.ortho m) := by
  simp only [OrthoMat.pyEq]
  congr 1
  rw [Bool.eq_iff_iff]
  simp only [Bool.and_eq_true, decide_eq_true_eq]
  rw [eqv_comm m.e1 o.e1, eqv_comm m.e2 o.e2, eqv_comm m.v12 o.v12, eqv_comm m.g12 o.g12, eqv_comm m.thickness o.thickness, eqv_comm m.t1 o.t1, eqv_comm m.c1 o.c1, eqv_comm m.t2 o.t2, eqv_comm m.c2 o.c2, eqv_comm m.s o.s]

theorem iso_comm (m o : IsoMat PyFloat) : m.pyEq (.iso o) = o.pyEq (.iso m) := by
  simp only [IsoMat.pyEq]
  congr 1
  rw [Bool.eq_iff_iff]
  simp only [Bool.and_eq_true, decide_eq_true_eq]
  rw [eqv_comm m.e o.e, eqv_comm m.v o.v, eqv_comm m.g o.g, eqv_comm m.thickness o.thickness, eqv_comm m.t o.t, eqv_comm m.c o.c, eqv_comm m.s o.s]

theorem matEq_comm (a b : Mat) : a.pyEq b = b.pyEq a := by
  cases a <;> cases b <;> simp only [Mat.pyEq, eq_comm]

theorem entriesEq_comm (a b : List (ℝ × Mat)) : entriesEq a b = entriesEq b a := by
  induction a generalizing b with
  | nil => cases b <;> rfl
  | cons p ps ih =>
    cases b with
    | nil => rfl
    | cons q qs =>
      have he : entryEq p q = entryEq q p := by simp only [entryEq, matEq_comm p.2, eq_comm]
      simp only [entriesEq, he, ih]

theorem lamEq_comm (l l' : Lam) : l.pyEq l' = l'.pyEq l := by
  simp only [Lam.pyEq, entriesEq_comm l.layup, ne_comm]

/-- **C105** `x == y` and `y == x` have the same outcome, exceptions included. -/
theorem C105_eq_comm (x y : Obj) : x.opEq y = y.opEq x := by
  cases x <;> cases y
  case ortho.ortho => exact ortho_comm _ _
  case iso.iso => exact iso_comm _ _
  case lam.lam => exact lamEq_comm _ _
  all_goals simp [Obj.opEq, Obj.eqMethod, Obj.asPyObj, OrthoMat.pyEq, IsoMat.pyEq, Obj.id, Bool.beq_comm]

/-- **C105** `x != y` is the negation of `x == y` and raises the same exceptions. -/
theorem C105_ne (x y : Obj) : x.opNe y = (x.opEq y).map not := by
  unfold Obj.opNe Obj.opEq Obj.neMethod
  cases x.eqMethod y with
  | some r => rfl
  | none =>
    cases y.eqMethod x with
    | some r => rfl
    | none => rfl

/-- **C105** a material compared with anything but a material of its class raises `ValueError`, on either side. -/
theorem C105_material_other (m : OrthoMat PyFloat) (m' : IsoMat PyFloat) (i j : ℕ) (y : Obj) :
    ((∀ k o, y ≠ .ortho k o) → (Obj.ortho i m).opEq y = .error .valueError ∧ y.opEq (.ortho i m) = .error .valueError) ∧
    ((∀ k o, y ≠ .iso k o) → (Obj.iso j m').opEq y = .error .valueError ∧ y.opEq (.iso j m') = .error .valueError) := by
  cases y <;> simp [Obj.opEq, Obj.eqMethod, Obj.asPyObj, OrthoMat.pyEq, IsoMat.pyEq]

/-- **C105** a laminate differs from everything that is neither a laminate nor a material. -/
theorem C105_laminate_other (l : Lam) (i j : ℕ) (hij : i ≠ j) :
    (Obj.lam i l).opEq (.other j) = .ok false ∧ (Obj.lam i l).opNe (.other j) = .ok true := by
  rw [C105_ne]
  simp [Obj.opEq, Obj.eqMethod, Obj.id, hij, Except.map]

/-- **C105** laminates compare by their layups, whatever their identity. -/
theorem C105_laminates (l l' : Lam) (i j : ℕ) : (Obj.lam i l).opEq (.lam j l') = .ok true ↔ l.layup = l'.layup :=
  C27_eq_iff_layup l l'

/-- **C105** materials and laminates cannot be hashed; objects that can be hashed are equal only if identical. -/
theorem C105_hash (x y : Obj) : ((∃ i, x = .other i) ∨ x.hash = .error .typeError) ∧
    (∀ i j, x.hash = .ok i → y.hash = .ok j → (x.opEq y = .ok true ↔ i = j)) := by
  cases x <;> cases y <;> simp [Obj.hash, Obj.opEq, Obj.eqMethod, Obj.id]

/-- The hypotheses on the text of numbers can be met, here for the natural numbers among the floats. -/
example : ∃ (fmt : PyFloat → String) (m : OrthoMat PyFloat), PlainFmt fmt (Set.range fun n : ℕ => XF.fin (n : ℝ)) ∧
    OrthoIn (Set.range fun n : ℕ => XF.fin (n : ℝ)) m ∧ NoNaN m := by
  classical
  refine ⟨fun x => if h : ∃ n : ℕ, x = XF.fin (n : ℝ) then String.ofList (List.replicate (h.choose + 1) 'x') else "nan",
    ⟨.fin (7 : ℕ), .fin (7 : ℕ), .fin (7 : ℕ), .fin (7 : ℕ), .fin (7 : ℕ), .fin (7 : ℕ), .fin (7 : ℕ), .fin (7 : ℕ), .fin (7 : ℕ), .fin (7 : ℕ)⟩,
    ⟨?_, fun x => ?_, fun x => ?_⟩, ?_, ?_⟩
  · rintro _ ⟨a, rfl⟩ _ ⟨b, rfl⟩ h
    have ha : ∃ n : ℕ, (XF.fin (a : ℝ) : PyFloat) = XF.fin (n : ℝ) := ⟨a, rfl⟩
    have hb : ∃ n : ℕ, (XF.fin (b : ℝ) : PyFloat) = XF.fin (n : ℝ) := ⟨b, rfl⟩
    simp only [dif_pos ha, dif_pos hb] at h
    have h2 := congrArg (fun s => s.toList.length) h
    simp only [String.toList_ofList, List.length_replicate, add_left_inj] at h2
    show XF.fin (a : ℝ) = XF.fin (b : ℝ)
    rw [ha.choose_spec, hb.choose_spec, h2]
  · split_ifs
    · simp
    · decide
  · split_ifs
    · simp
    · decide
  · exact ⟨⟨7, rfl⟩, ⟨7, rfl⟩, ⟨7, rfl⟩, ⟨7, rfl⟩, ⟨7, rfl⟩, ⟨7, rfl⟩, ⟨7, rfl⟩, ⟨7, rfl⟩, ⟨7, rfl⟩, ⟨7, rfl⟩⟩
  · simp [NoNaN]

end Composipy
