import Verif.Spec.Names
import Verif.Props.Validation
import Mathlib.Data.List.Basic

/-!
# C08: material names
-/

namespace Composipy
open Spec

/-- Relation between the world and the constructions made so far. -/
structure NameInv (w : World) (cr : List (MatClass × Option String)) : Prop where
  nextOrtho : w.nextOrtho = serial cr cr.length .ortho
  nextIso : w.nextIso = serial cr cr.length .iso
  len : w.objs.length = cr.length
  obj : ∀ i (h : i < w.objs.length) (h' : i < cr.length),
    w.objs[i].cls = cr[i].1 ∧ w.objs[i].id = serial cr i cr[i].1 ∧
    ((w.objs[i].name = cr[i].2) ∨ (cr[i].2 = none ∧ w.objs[i].name = some (autoName w.objs[i].id)))

theorem serial_append_of_le (cr : List (MatClass × Option String)) (x) (i : Nat) (c : MatClass)
    (h : i ≤ cr.length) : serial (cr ++ [x]) i c = serial cr i c := by
  simp [serial, List.take_append_of_le_length h]

theorem serial_append_len (cr : List (MatClass × Option String)) (x) (c : MatClass) :
    serial (cr ++ [x]) (cr ++ [x]).length c =
      serial cr cr.length c + if x.1 = c then 1 else 0 := by
  unfold serial
  rw [List.take_length, List.take_length, List.filter_append, List.length_append]
  by_cases h : x.1 = c <;> simp [h]

theorem nameInv_init : NameInv World.init [] := by
  constructor <;> simp [World.init, serial]

theorem nameInv_push (w : World) (cr) (h : NameInv w cr) (c : MatClass) (nm : Option String)
    (w' : World)
    (hobjs : w'.objs = w.objs ++ [{ cls := c, id := serial cr cr.length c, name := nm }])
    (ho : w'.nextOrtho = w.nextOrtho + if c = .ortho then 1 else 0)
    (hi : w'.nextIso = w.nextIso + if c = .iso then 1 else 0) :
    NameInv w' (cr ++ [(c, nm)]) := by
  constructor
  · rw [serial_append_len, ho, h.nextOrtho]
  · rw [serial_append_len, hi, h.nextIso]
  · simp [hobjs, h.len]
  · intro i hi1 hi2
    simp only [hobjs]
    by_cases hlt : i < cr.length
    · have hlt' : i < w.objs.length := by rw [h.len]; exact hlt
      rw [List.getElem_append_left hlt', List.getElem_append_left hlt,
        serial_append_of_le _ _ _ _ hlt.le]
      exact h.obj i hlt' hlt
    · have : i = cr.length := by simp at hi2; omega
      subst this
      have hl := h.len
      simp only [List.getElem_append_right (Nat.le_refl _), Nat.sub_self, List.getElem_singleton]
      rw [List.getElem_append_right (by rw [hl])]
      simp only [hl, Nat.sub_self, List.getElem_singleton]
      exact ⟨trivial, by rw [serial_append_of_le _ _ _ _ (Nat.le_refl _)], Or.inl trivial⟩

theorem nameInv_step (w : World) (cr) (h : NameInv w cr) (op : NameOp) :
    NameInv (w.step op).2 (cr ++ (madeBy op).toList) := by
  cases op with
  | newOrtho a nm =>
    cases ha : a.init with
    | error e => simpa [World.step, madeBy, ha] using h
    | ok m =>
      simp only [World.step, madeBy, ha, Option.toList]
      exact nameInv_push w cr h .ortho nm _ (by rw [h.nextOrtho]) (by simp) (by simp)
  | newIso a nm =>
    cases ha : a.init with
    | error e => simpa [World.step, madeBy, ha] using h
    | ok m =>
      simp only [World.step, madeBy, ha, Option.toList]
      exact nameInv_push w cr h .iso nm _ (by rw [h.nextIso]) (by simp) (by simp)
  | readName i =>
    simp only [World.step, madeBy, Option.toList, List.append_nil]
    cases ho : w.objs[i]? with
    | none => exact h
    | some o =>
      obtain ⟨hi, rfl⟩ := List.getElem?_eq_some_iff.mp ho
      constructor
      · exact h.nextOrtho
      · exact h.nextIso
      · simpa using h.len
      · intro j hj hj'
        simp only [List.getElem_set]
        have hj0 : j < w.objs.length := by simpa using hj
        obtain ⟨h1, h2, h3⟩ := h.obj j hj0 hj'
        by_cases hij : i = j
        · subst hij
          simp only [if_true, NamedObj.readName]
          cases hn : w.objs[i].name with
          | none =>
            simp only
            refine ⟨h1, h2, Or.inr ⟨?_, trivial⟩⟩
            rcases h3 with h3 | h3
            · rw [← h3, hn]
            · exact h3.1
          | some s => exact ⟨h1, h2, h3⟩
        · simp only [if_neg hij]
          exact ⟨h1, h2, h3⟩

theorem nameInv_run (w : World) (cr) (h : NameInv w cr) (ops : List NameOp) :
    NameInv (w.run ops).2 (cr ++ created ops) := by
  induction ops generalizing w cr with
  | nil => simpa [World.run, created] using h
  | cons op ops ih =>
    have := ih _ _ (nameInv_step w cr h op)
    simp only [World.run, created, List.filterMap_cons] at this ⊢
    cases hm : madeBy op <;> simpa [hm] using this

/-- **C08** at every point of every history, reading the name of the `i`-th material gives exactly
the name determined by the constructions made so far: the user's name, or `ply_k` where the material
is the `k`-th of its class.  Reading names and failing constructions influence nothing. -/
theorem C08_name_determined (ops : List NameOp) (i : Nat) :
    ((World.init.run ops).2.step (.readName i)).1 =
      match expectedName (created ops) i with
      | some s => .name s
      | none => .err .indexError := by
  have h := nameInv_run _ _ nameInv_init ops
  simp only [List.nil_append] at h
  simp only [World.step, expectedName]
  by_cases hi : i < (created ops).length
  · have hi' : i < (World.init.run ops).2.objs.length := by rw [h.len]; exact hi
    obtain ⟨h1, h2, h3⟩ := h.obj i hi' hi
    rw [List.getElem?_eq_getElem hi', List.getElem?_eq_getElem hi]
    simp only [NamedObj.readName, Option.map_some]
    rcases h3 with h3 | ⟨h3, h4⟩
    · rw [h3]
      cases hc : (created ops)[i].2 with
      | none => simp [autoName, h2]
      | some s => rfl
    · rw [h4, h3]; simp [autoName, h2]
  · have hi' : ¬ i < (World.init.run ops).2.objs.length := by rw [h.len]; exact hi
    rw [List.getElem?_eq_none (not_lt.mp hi'), List.getElem?_eq_none (not_lt.mp hi)]
    rfl

theorem created_append (ops ops' : List NameOp) :
    created (ops ++ ops') = created ops ++ created ops' := by
  simp [created]

theorem serial_mono (cr : List (MatClass × Option String)) {i j : Nat} (hij : i < j)
    (hj : i < cr.length) (c : MatClass) (hc : cr[i].1 = c) : serial cr i c < serial cr j c := by
  unfold serial
  have h1 : cr.take i ++ [cr[i]] = cr.take (i + 1) := List.take_append_getElem hj
  have h2 : ((cr.take (i + 1)).filter fun x => x.1 = c).length ≤
      ((cr.take j).filter fun x => x.1 = c).length := by
    apply List.Sublist.length_le
    apply List.Sublist.filter
    exact (List.take_prefix_take_left (by omega)).sublist
  rw [← h1, List.filter_append, List.length_append] at h2
  simp [hc] at h2
  omega

/-- **C08** the reported name of a material never changes, whatever happens later. -/
theorem C08_name_stable (ops ops' : List NameOp) (i : Nat) (h : i < (created ops).length) :
    ((World.init.run (ops ++ ops')).2.step (.readName i)).1 =
      ((World.init.run ops).2.step (.readName i)).1 := by
  rw [C08_name_determined, C08_name_determined]
  have : expectedName (created (ops ++ ops')) i = expectedName (created ops) i := by
    rw [created_append]
    simp only [expectedName, serial, List.getElem?_append_left h,
      List.take_append_of_le_length h.le]
  rw [this]

/-- **C08** two unnamed materials of one class never share a name. -/
theorem C08_auto_names_distinct (ops : List NameOp) (i j : Nat) (hij : i ≠ j)
    (hi : i < (created ops).length) (hj : j < (created ops).length)
    (hcls : (created ops)[i].1 = (created ops)[j].1)
    (hin : (created ops)[i].2 = none) (hjn : (created ops)[j].2 = none) :
    ((World.init.run ops).2.step (.readName i)).1 ≠
      ((World.init.run ops).2.step (.readName j)).1 := by
  rw [C08_name_determined, C08_name_determined]
  simp only [expectedName, List.getElem?_eq_getElem hi, List.getElem?_eq_getElem hj,
    Option.map_some, hin, hjn]
  intro h
  simp only [NameOut.name.injEq] at h
  have h' := congrArg String.toList h
  simp only [String.toList_append, List.append_cancel_left_eq] at h'
  have h'' := congrArg (fun l => Nat.ofDigitChars 10 l 0)
    (show Nat.toDigits 10 (serial (created ops) i (created ops)[i].1) =
      Nat.toDigits 10 (serial (created ops) j (created ops)[j].1) by simpa [toString] using h')
  rw [Nat.ofDigitChars_toDigits (by decide) (by decide),
    Nat.ofDigitChars_toDigits (by decide) (by decide)] at h''
  rcases Nat.lt_or_gt_of_ne hij with hlt | hlt
  · have := serial_mono (created ops) hlt hi _ hcls
    rw [hcls] at h''
    omega
  · have := serial_mono (created ops) hlt hj _ hcls.symm
    rw [← hcls] at h''
    omega

/-- **C08** a user-supplied name is reported verbatim. -/
theorem C08_user_name (ops : List NameOp) (i : Nat) (s : String) (hi : i < (created ops).length)
    (h : (created ops)[i].2 = some s) :
    ((World.init.run ops).2.step (.readName i)).1 = .name s := by
  rw [C08_name_determined]
  simp [expectedName, List.getElem?_eq_getElem hi, h]

/-- **C08** failing constructions and name reads do not consume numbers: the history may be
stripped of them. -/
theorem C08_failed_construction_consumes_nothing (ops ops' : List NameOp)
    (h : created ops = created ops') (i : Nat) :
    ((World.init.run ops).2.step (.readName i)).1 =
      ((World.init.run ops').2.step (.readName i)).1 := by
  rw [C08_name_determined, C08_name_determined, h]

theorem madeBy_carbon (nm : Option String) :
    madeBy (.newOrtho (OrthoMat.args (.num (.fin 1)) (.num (.fin 1)) (.num (.fin 0)) (.num (.fin 1))
      (.num (.fin 1))) nm) = some (.ortho, nm) := by
  have : ∃ m, (OrthoMat.args (.num (.fin 1)) (.num (.fin 1)) (.num (.fin 0)) (.num (.fin 1))
      (.num (.fin 1))).init = .ok m := by
    refine ⟨_, (C01_ortho_ok _ ⟨.fin 1, .fin 1, .fin 0, .fin 1, .fin 1, .fin 0, .fin 0, .fin 0,
      .fin 0, .fin 0⟩).mpr ⟨?_, ?_, ?_⟩⟩
    · simp [OrthoConverts, OrthoMat.args, PyVal.toFloat]
    · simp only [OrthoRanges, InRange]; norm_num; simp
    · simp
  obtain ⟨m, hm⟩ := this
  simp [madeBy, hm]

/-- Non-vacuity: a history with a failed construction and a named material in between; the second
unnamed material is `ply_3` (the named one has consumed number 2). -/
example :
    let ply (nm : Option String) := NameOp.newOrtho (OrthoMat.args (.num (.fin 1)) (.num (.fin 1))
      (.num (.fin 0)) (.num (.fin 1)) (.num (.fin 1))) nm
    let bad := NameOp.newIso (IsoMat.args .none .none .none .none) none
    ((World.init.run [ply none, bad, ply (some "glass"), .readName 0, ply none]).2.step
      (.readName 2)).1 = .name "ply_3" := by
  intro ply bad
  rw [C08_name_determined]
  have hb : madeBy bad = none := by
    have := C02_iso_omitted_allowable_raises (IsoMat.args .none .none .none .none) (Or.inl rfl)
    simp [bad, madeBy, this]
  have h1 : created [ply none, bad, ply (some "glass"), .readName 0, ply none] =
      [(.ortho, none), (.ortho, some "glass"), (.ortho, none)] := by
    have h2 : ∀ nm, madeBy (ply nm) = some (.ortho, nm) := madeBy_carbon
    have h3 : madeBy (.readName 0) = none := rfl
    simp [created, h2, hb, h3]
  rw [h1]
  decide

end Composipy
