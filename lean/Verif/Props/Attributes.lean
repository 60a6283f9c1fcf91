import Verif.Model.Attributes
import Verif.Props.Cache
import Verif.Props.StrengthState
import Verif.Props.Plot

/-!
# C130: attributes of live objects; C131: writing into returned arrays
-/

namespace Composipy
open Spec Matrix

theorem assignTo_iff (g : List String) (name : String) : assignTo g name = .error .attributeError ↔ name ∈ g := by
  unfold assignTo
  by_cases h : name ∈ g <;> simp [h]

/-! ## Materials -/

/-- What an operation without writing returns according to the constructor arguments alone. -/
noncomputable def Spec.matOut (m : Mat) : MatAct → MatActOut
  | .Q0 => .m3 m.Q0
  | .invariants => .inv m.invariants
  | .assign name => .status (if name ∈ m.getters then .error .attributeError else .ok ())
  | .writeQ0 _ => .status (m.Q0.map fun _ => ())

theorem matAct_good (m : Mat) (o : MatObj) (hm : o.mat = m) (hQ : ∀ Q, o.Q = some Q → m.Q0 = .ok Q) (a : MatAct) :
    (o.act a).1 = matOut m a ∧ (o.act a).2.mat = m ∧ ((∀ M, a ≠ .writeQ0 M) → ∀ Q, (o.act a).2.Q = some Q → m.Q0 = .ok Q) := by
  obtain ⟨m', q⟩ := o
  simp only at hm
  subst hm
  have read : (MatObj.readQ0 ⟨m', q⟩).1 = m'.Q0 ∧ (MatObj.readQ0 ⟨m', q⟩).2.mat = m' ∧
      ∀ Q, (MatObj.readQ0 ⟨m', q⟩).2.Q = some Q → m'.Q0 = .ok Q := by
    cases q with
    | some Q => exact ⟨(hQ Q rfl).symm, rfl, hQ⟩
    | none =>
      cases h : m'.Q0 with
      | error e => simp [MatObj.readQ0, h]
      | ok Q => simp [MatObj.readQ0, h]
  rcases hr : MatObj.readQ0 ⟨m', q⟩ with ⟨r, o'⟩
  rw [hr] at read
  obtain ⟨r1, r2, r3⟩ := read
  simp only at r1 r2 r3
  cases a with
  | Q0 => simp only [MatObj.act, hr, matOut, r1]; exact ⟨trivial, r2, fun _ => r3⟩
  | invariants =>
    cases m' with
    | iso i => exact ⟨rfl, rfl, fun _ => hQ⟩
    | ortho i =>
      simp only [MatObj.act, MatObj.readInvariants, hr, matOut, Mat.invariants, OrthoMat.invariants]
      simp only [Mat.Q0] at r1
      subst r1
      cases h : i.Q0 with
      | error e => exact ⟨rfl, r2, fun _ => r3⟩
      | ok Q => exact ⟨rfl, r2, fun _ => r3⟩
  | assign name => exact ⟨rfl, rfl, fun _ => hQ⟩
  | writeQ0 M =>
    simp only [MatObj.act, hr, matOut]
    subst r1
    cases h : m'.Q0 with
    | error e => exact ⟨rfl, r2, fun h => absurd rfl (h M)⟩
    | ok Q => exact ⟨rfl, r2, fun h => absurd rfl (h M)⟩

/-- **C130** materials: in every history of reads and assignments, an assignment to a parameter raises `AttributeError`, every other
assignment succeeds, and all reads give the values of the constructor arguments. -/
theorem C130_material (m : Mat) (acts : List MatAct) (h : ∀ M, .writeQ0 M ∉ acts) : (MatObj.fresh m).runActs acts = acts.map (matOut m) := by
  have key : ∀ (acts : List MatAct) (o : MatObj), (∀ M, .writeQ0 M ∉ acts) → o.mat = m → (∀ Q, o.Q = some Q → m.Q0 = .ok Q) →
      o.runActs acts = acts.map (matOut m) := by
    intro acts
    induction acts with
    | nil => intros; rfl
    | cons a as ih =>
      intro o hw hm hQ
      obtain ⟨h1, h2, h3⟩ := matAct_good m o hm hQ a
      simp only [MatObj.runActs, List.map_cons, h1]
      rw [ih _ (fun M hM => hw M (by simp [hM])) h2 (h3 fun M hM => hw M (by simp [hM]))]
  exact key acts _ h rfl (by simp [MatObj.fresh])

/-- **C130** the parameters of the constructors are exactly the names that cannot be assigned, with the derived `v21` and `Q_0`. -/
theorem C130_parameters (m : Mat) (name : String) :
    (assignTo m.getters name = .error .attributeError ↔
      match m with
      | .ortho _ => name = "v21" ∨ name = "Q_0" ∨ name ∈ ["e1", "e2", "v12", "g12", "thickness", "t1", "c1", "t2", "c2", "s", "name"]
      | .iso _ => name = "Q_0" ∨ name ∈ ["e", "v", "g", "thickness", "t", "c", "s", "name"]) := by
  rw [assignTo_iff]
  cases m <;> simp only [Mat.getters, orthoGetters, isoGetters, List.mem_cons, List.not_mem_nil, or_false] <;> tauto

/-- **C131** writing into `Q_0` of a material replaces its stiffness: until the next write, `Q_0` is what was written and `Invariants` are
computed from it.  The parameters do not change.  A material whose `Q_0` cannot be computed is not changed. -/
theorem C131_material (m : Mat) (o : MatObj) (hm : o.mat = m) (M : M3) (r : MatActOut) (o' : MatObj) (hw : o.act (.writeQ0 M) = (r, o'))
    (hr : r = .status (.ok ())) (acts : List MatAct) (h : ∀ M', .writeQ0 M' ∉ acts) :
    o'.runActs acts = acts.map fun a => match a, m with
      | .Q0, _ => .m3 (.ok M)
      | .invariants, .ortho _ => .inv (.ok (invariantsOf M))
      | a, _ => matOut m a := by
  have ho : o'.mat = m ∧ o'.Q = some M := by
    simp only [MatObj.act] at hw
    have hmat : o.readQ0.2.mat = o.mat := by
      unfold MatObj.readQ0
      cases o.Q <;> simp only
      cases o.mat.Q0 <;> rfl
    rcases hq : o.readQ0 with ⟨x, o''⟩
    rw [hq] at hw hmat
    cases x with
    | error e =>
      simp only [Prod.mk.injEq] at hw
      rw [← hw.1] at hr
      cases hr
    | ok Q =>
      simp only [Prod.mk.injEq] at hw
      rw [← hw.2]
      exact ⟨hmat.trans hm, rfl⟩
  clear hw hr
  have same : ∀ a ∈ acts, (o'.act a).2 = o' := by
    intro a ha
    obtain ⟨m', q⟩ := o'
    obtain ⟨h1, h2⟩ := ho
    simp only at h1 h2
    subst h1 h2
    cases a with
    | Q0 => rfl
    | invariants => cases m' <;> rfl
    | assign n => rfl
    | writeQ0 M' => exact absurd ha (h M')
  induction acts with
  | nil => rfl
  | cons a as ih =>
    simp only [MatObj.runActs, List.map_cons]
    rw [same a (by simp), ih (fun M' hM => h M' (by simp [hM])) (fun b hb => same b (by simp [hb]))]
    congr 1
    obtain ⟨m', q⟩ := o'
    obtain ⟨h1, h2⟩ := ho
    simp only at h1 h2
    subst h1 h2
    cases a with
    | Q0 => rfl
    | invariants => cases m' <;> rfl
    | assign n => rfl
    | writeQ0 M' => exact absurd (by simp) (h M')

/-! ## Laminates -/

/-- The operation neither replaces the layup nor writes into a returned array. -/
def Spec.KeepsLayup : LamAct → Prop
  | .op _ | .assign _ | .setStacking _ | .setPlies _ | .writeABD _ => True
  | _ => False

theorem Good.of_same {l l' : Lam} {c : Cache} (h : Good l c) (h1 : l'.layup = l.layup) (h2 : l'.xiA = l.xiA) (h3 : l'.xiD = l.xiD) : Good l' c := by
  have hT : l'.Tlayup = l.Tlayup := by simp only [Lam.Tlayup, h1]
  exact ⟨by rw [h1]; exact h.Q, by rw [hT]; exact h.T, by rw [h1, h2]; exact h.A, by rw [h1]; exact h.B, by rw [h1, h3]; exact h.D⟩

theorem writeInto_snd {α : Type} (o : LamObj) (r : Except PyErr α × Cache) : (writeInto o r id).2 = { o with cache := r.2 } := by
  rcases r with ⟨_ | _, c⟩ <;> rfl

theorem act_keeps (o : LamObj) (a : LamAct) (hk : KeepsLayup a) (h : AllOk o.lam.layup) (hc : Good o.lam o.cache) :
    (o.act a).2.lam.layup = o.lam.layup ∧ (o.act a).2.lam.xiA = o.lam.xiA ∧ (o.act a).2.lam.xiD = o.lam.xiD ∧
      Good (o.act a).2.lam (o.act a).2.cache := by
  cases a with
  | op q =>
    obtain ⟨-, h2, h3⟩ := step_good o q h hc
    have hs := sameStiff_mutate o.lam q
    simp only [LamObj.act]
    exact ⟨by rw [h2, hs.1], by rw [h2, hs.2], by rw [h2, hs.4], h3⟩
  | assign n => exact ⟨rfl, rfl, rfl, hc⟩
  | setStacking s => exact ⟨rfl, rfl, rfl, hc.of_same rfl rfl rfl⟩
  | setPlies p => exact ⟨rfl, rfl, rfl, hc.of_same rfl rfl rfl⟩
  | writeABD M =>
    simp only [LamObj.act, writeInto_snd]
    exact ⟨trivial, trivial, trivial, (readABD_good o.lam o.cache h hc).2⟩
  | _ => exact absurd hk id

/-- The operation reads something that is computed from the layup. -/
def Spec.IsStiff : LamOp → Prop
  | .z | .Q | .T | .A | .B | .D | .ABD => True
  | _ => False

/-- **C130** laminates given as stacks: whatever is assigned to `stacking`, `plies` or any name without meaning, and whatever is read in
between, the interfaces and stiffness matrices are those of the laminate that was constructed. -/
theorem C130_laminate (l : Lam) (hs : IsStack l) (h : Readable l) (acts : List LamAct) (hk : ∀ a ∈ acts, KeepsLayup a) (q : LamOp) (hq : IsStiff q) :
    (((LamObj.fresh l).afterActs acts).act (.op q)).1 = .out (freshOut l q) := by
  have key : ∀ (acts : List LamAct) (o : LamObj), (∀ a ∈ acts, KeepsLayup a) → o.lam.layup = l.layup → o.lam.xiA = l.xiA → o.lam.xiD = l.xiD →
      Good o.lam o.cache → ((o.afterActs acts).act (.op q)).1 = .out (freshOut l q) := by
    intro acts
    induction acts with
    | nil =>
      intro o _ h1 h2 h3 hc
      have hall : AllOk o.lam.layup := by rw [h1]; exact (readable_iff l).mp h
      have hloop : ∀ w, o.lam.loopMatrix w = l.loopMatrix w := fun w => loopMatrix_layup _ _ w h1
      have hA : o.lam.A = l.A := by simp only [Lam.A, h2, hs.lp_none.1, hloop]
      have hD : o.lam.D = l.D := by simp only [Lam.D, h3, hs.lp_none.2.2.1, hloop]
      have hB : o.lam.B = l.B := hloop _
      simp only [LamObj.afterActs, LamObj.act, (step_good o q hall hc).1]
      cases q <;> first
        | exact absurd hq id
        | simp only [freshOut, Lam.zPosition, Lam.Qlayup, Lam.Tlayup, Lam.ABD, h1, hA, hB, hD]
    | cons a as ih =>
      intro o hk h1 h2 h3 hc
      obtain ⟨g1, g2, g3, g4⟩ := act_keeps o a (hk a (by simp)) (by rw [h1]; exact (readable_iff l).mp h) hc
      exact ih _ (fun b hb => hk b (by simp [hb])) (g1.trans h1) (g2.trans h2) (g3.trans h3) g4
  exact key acts _ hk rfl rfl rfl (good_empty l)

/-- **C130** the getters of a laminate cannot be assigned, and a refused assignment leaves the object alone. -/
theorem C130_getters (o : LamObj) (name : String) :
    (o.act (.assign name)).2 = o ∧ ((o.act (.assign name)).1 = .status (.error .attributeError) ↔
      name ∈ ["z_position", "Q_layup", "T_layup", "A", "B", "D", "ABD", "xiA", "xiD"]) := by
  refine ⟨rfl, ?_⟩
  simp only [LamObj.act, LamActOut.status.injEq, assignTo_iff, lamGetters]

theorem act_xi (o : LamObj) (a : LamAct) : (o.act a).2.lam.xiA = o.lam.xiA ∧ (o.act a).2.lam.xiD = o.lam.xiD ∧ (o.act a).2.lam.T = o.lam.T := by
  have hw : ∀ {α : Type} (r : Except PyErr α × Cache) (put : Cache → Cache), (writeInto o r put).2.lam = o.lam := by
    intro α r put
    rcases r with ⟨_ | _, c⟩ <;> rfl
  cases a with
  | op q =>
    have : (o.step q).2.lam = o.lam.mutate q := by cases q <;> rfl
    have hs := sameStiff_mutate o.lam q
    simp only [LamObj.act]
    exact ⟨by rw [this, hs.2], by rw [this, hs.4], by rw [this, hs.5]⟩
  | assign n => exact ⟨rfl, rfl, rfl⟩
  | setStacking s => exact ⟨rfl, rfl, rfl⟩
  | setPlies p => exact ⟨rfl, rfl, rfl⟩
  | setLayup L => exact ⟨rfl, rfl, rfl⟩
  | _ => simp only [LamObj.act, hw]; exact ⟨trivial, trivial, trivial⟩

/-- **C130, C131** laminates given by lamination parameters: after any history of reads, assignments and writes, `A` (if `xiA` was given)
and `D` are computed anew from the stored parameters and from the material assigned to `plies` last. -/
theorem C130_parameters_laminate (l : Lam) (acts : List LamAct) :
    (l.xiA ≠ .none → (((LamObj.fresh l).afterActs acts).act (.op .A)).1 =
      .out (.m3 (lpA ((LamObj.fresh l).afterActs acts).lam.plies l.xiA l.T))) ∧
    (l.xiD ≠ .none → (((LamObj.fresh l).afterActs acts).act (.op .D)).1 =
      .out (.m3 (lpD ((LamObj.fresh l).afterActs acts).lam.plies l.xiD l.T))) := by
  have key : ∀ (acts : List LamAct) (o : LamObj), (o.afterActs acts).lam.xiA = o.lam.xiA ∧ (o.afterActs acts).lam.xiD = o.lam.xiD ∧
      (o.afterActs acts).lam.T = o.lam.T := by
    intro acts
    induction acts with
    | nil => intro o; exact ⟨rfl, rfl, rfl⟩
    | cons a as ih =>
      intro o
      obtain ⟨g1, g2, g3⟩ := act_xi o a
      obtain ⟨k1, k2, k3⟩ := ih (o.act a).2
      exact ⟨k1.trans g1, k2.trans g2, k3.trans g3⟩
  obtain ⟨k1, k2, k3⟩ := key acts (.fresh l)
  generalize (LamObj.fresh l).afterActs acts = o at *
  simp only [LamObj.fresh] at k1 k2 k3
  constructor
  · intro hx
    simp only [LamObj.act, LamObj.step, readA, k1, k3]
    cases h : l.xiA with
    | none => exact absurd h hx
    | _ => split <;> simp_all
  · intro hx
    simp only [LamObj.act, LamObj.step, readD, k2, k3]
    cases h : l.xiD with
    | none => exact absurd h hx
    | _ => split <;> simp_all

/-- The material assigned to `plies` last. -/
def Spec.lastPlies (p : Plies) : List LamAct → Plies
  | [] => p
  | .setPlies p' :: as => lastPlies p' as
  | _ :: as => lastPlies p as

/-- **C130** ... where the material in `plies` is the one assigned last (no list was changed in between). -/
theorem C130_last_plies (l : Lam) (acts : List LamAct) (h : ∀ ps, .op (.setPlies ps) ∉ acts) :
    ((LamObj.fresh l).afterActs acts).lam.plies = lastPlies l.plies acts := by
  have key : ∀ (acts : List LamAct) (o : LamObj), (∀ ps, .op (.setPlies ps) ∉ acts) → (o.afterActs acts).lam.plies = lastPlies o.lam.plies acts := by
    intro acts
    induction acts with
    | nil => intro o _; rfl
    | cons a as ih =>
      intro o h
      have hw : ∀ {α : Type} (r : Except PyErr α × Cache) (put : Cache → Cache), (writeInto o r put).2.lam = o.lam := by
        intro α r put
        rcases r with ⟨_ | _, c⟩ <;> rfl
      have ih' := ih (o.act a).2 fun ps hp => h ps (by simp [hp])
      simp only [LamObj.afterActs, ih']
      cases a with
      | op q =>
        have : (o.step q).2.lam = o.lam.mutate q := by cases q <;> rfl
        simp only [LamObj.act, lastPlies, this]
        cases q with
        | setStacking s => cases hst : o.lam.stacking <;> simp [Lam.mutate, hst]
        | setPlies ps => exact absurd (by simp) (h ps)
        | _ => rfl
      | setPlies p => rfl
      | assign n => rfl
      | setStacking s => rfl
      | setLayup L => rfl
      | _ => simp only [LamObj.act, lastPlies, hw]
  exact key acts _ h

/-- Sum over plies of `w` of the heights of its faces times a matrix. -/
noncomputable def Spec.layered (w : ℝ → ℝ → ℝ) (z : List ℝ) (Qs : List M3) : M3 :=
  ∑ k : Fin Qs.length, w (z.getD k 0) (z.getD (k + 1) 0) • Qs[k]

theorem loop_layered (w : ℝ → ℝ → ℝ) (z : List ℝ) (Qs : List M3) (s : ℕ) (hlen : s + Qs.length + 1 ≤ z.length ∨ Qs = []) (acc : M3) :
    (Qs.zipIdx s).foldlM (fun acc (Qi : M3 × Nat) => do
      let zk1 ← pyIdx z (Qi.2 + 1)
      let zk0 ← pyIdx z Qi.2
      return acc + w zk0 zk1 • Qi.1) acc =
      Except.ok (acc + ∑ k : Fin Qs.length, w (z.getD (s + k) 0) (z.getD (s + k + 1) 0) • Qs[k]) := by
  induction Qs generalizing s acc with
  | nil => simp
  | cons Q Qs ih =>
    have hl : s + (Qs.length + 1) + 1 ≤ z.length := by simpa using hlen
    have h1 : pyIdx z (s + 1) = .ok (z.getD (s + 1) 0) := by
      simp [pyIdx, List.getElem?_eq_getElem (show s + 1 < z.length by omega)]
    have h0 : pyIdx z s = .ok (z.getD s 0) := by
      simp [pyIdx, List.getElem?_eq_getElem (show s < z.length by omega)]
    simp only [List.zipIdx_cons, List.foldlM_cons, h0, h1, ok_bind, pure_eq_ok]
    have := ih (s + 1) (.inl (by omega)) (acc + w (z.getD s 0) (z.getD (s + 1) 0) • Q)
    simp only [pure_eq_ok] at this
    rw [this]
    congr 1
    rw [add_assoc]
    congr 1
    simp only [List.length_cons, Fin.sum_univ_succ]
    simp [add_assoc, add_comm 1]

theorem momentLoop_layered (w : ℝ → ℝ → ℝ) (z : List ℝ) (Qs : List M3) (hlen : Qs.length + 1 ≤ z.length) :
    momentLoop w z Qs 0 = .ok (layered w z Qs) := by
  have := loop_layered w z Qs 0 (.inl (by omega)) 0
  simpa [momentLoop, layered] using this

theorem zPositionOf_length (L : List (ℝ × Mat)) : (zPositionOf L).length = L.length + 1 := by
  rw [zPositionOf_eq, zList_length, List.length_map]

/-- **C130** replacing `layup` before anything was read: all results are those of the new layup. -/
theorem C130_layup_early (l : Lam) (L : List (ℝ × Mat)) (h : Readable { l with layup := L }) (ops : List LamOp) (hr : ∀ q ∈ ops, IsRead q) :
    (LamObj.fresh l).runActs (.setLayup L :: ops.map .op) = .status (.ok ()) :: ops.map fun q => .out (freshOut { l with layup := L } q) := by
  have key : ∀ (ops : List LamOp) (o : LamObj), o.runActs (ops.map .op) = (o.run ops).map .out := by
    intro ops
    induction ops with
    | nil => intro o; rfl
    | cons q qs ih => intro o; simp only [List.map_cons, LamObj.runActs, LamObj.run, LamObj.act, ih]
  simp only [LamObj.runActs, LamObj.act]
  rw [key]
  have := C23_read_order_irrelevant { l with layup := L } h ops hr
  simp only [LamObj.fresh] at this ⊢
  rw [this, List.map_map]
  rfl

/-- **C130** replacing `layup` of a stack after `D` was read: the interfaces are the new ones; the ply stiffnesses and `D` stay the old
ones; `A` and `B`, if they had not been read, combine the old stiffnesses with the new interfaces, and raise `IndexError` if the new layup
has fewer plies. -/
theorem C130_layup_late (l : Lam) (hs : IsStack l) (h : Readable l) (L : List (ℝ × Mat)) (Qs : List M3) (hQ : l.Qlayup = .ok Qs) (D : M3) (hD : l.D = .ok D) :
    (l.layup.length ≤ L.length → (LamObj.fresh l).runActs [.op .D, .setLayup L, .op .z, .op .Q, .op .D, .op .A, .op .B] =
      [.out (.m3 (.ok D)), .status (.ok ()), .out (.z (zPositionOf L)), .out (.Q (.ok Qs)), .out (.m3 (.ok D)),
        .out (.m3 (.ok (layered (fun z0 z1 => z1 - z0) (zPositionOf L) Qs))),
        .out (.m3 (.ok (layered (fun z0 z1 => 1 / 2 * (z1 ^ 2 - z0 ^ 2)) (zPositionOf L) Qs)))]) ∧
    (L.length < l.layup.length → (LamObj.fresh l).runActs [.op .D, .setLayup L, .op .A] =
      [.out (.m3 (.ok D)), .status (.ok ()), .out (.m3 (.error .indexError))]) := by
  have hall := (readable_iff l).mp h
  have hQs : Qs = l.layup.map plyQ! := by rw [l.Qlayup_ok hall] at hQ; cases hQ; rfl
  have hxA := hs.lp_none.1
  have hxD := hs.lp_none.2.2.1
  have hDm : D = mom wD (bottom l.layup) (l.layup.map layer) := by
    rw [hs.D_eq, l.loopMatrix_ok _ hall] at hD; cases hD; rfl
  have hread : readD l .empty = (.ok D, ⟨some Qs, none, none, none, some D⟩) := by
    simp only [readD, hxD]
    rcases readSlot_good wD Cache.D (fun c M => { c with D := some M }) l .empty hall (.inl rfl) (fun _ => rfl) (.inl rfl) with he | he
    · exfalso
      have := congrArg (fun x => x.2.Q) he
      simp only [readSlot, Cache.empty] at this
      rw [readQ_good l _ hall (.inl rfl)] at this
      simp only at this
      rw [accLoop_eq wD _ _ _ _ (momentLoop_layup l wD hall)] at this
      simp at this
    · rw [he, hDm, hQs]
      rfl
  have hfirst : (LamObj.fresh l).act (.op .D) = (.out (.m3 (.ok D)), ⟨l, ⟨some Qs, none, none, none, some D⟩⟩) := by
    simp only [LamObj.act, LamObj.step, LamObj.fresh, hread]
  have hlenQ : Qs.length = l.layup.length := by rw [hQs, List.length_map]
  constructor
  · intro hlen
    have hz : Qs.length + 1 ≤ (zPositionOf L).length := by rw [zPositionOf_length]; omega
    have hA := accLoop_eq wA (zPositionOf L) Qs.zipIdx 0 _ (momentLoop_layered wA (zPositionOf L) Qs hz)
    have hB := accLoop_eq wB (zPositionOf L) Qs.zipIdx 0 _ (momentLoop_layered wB (zPositionOf L) Qs hz)
    simp only [LamObj.runActs, hfirst]
    simp only [LamObj.act, LamObj.step, readQ, readD, readA, readB, hxA, hxD, readSlot, Lam.zPosition, hA, hB]
    rfl
  · intro hlen
    have hA : ∀ (Qs' : List M3) (s : ℕ) (acc : M3), s + Qs'.length = Qs.length → Qs' ≠ [] → s ≤ L.length →
        ∃ M, accLoop wA (zPositionOf L) (Qs'.zipIdx s) acc = (.error .indexError, M) := by
      intro Qs'
      induction Qs' with
      | nil => intro s acc _ hne _; exact absurd rfl hne
      | cons Q Qs' ih =>
        intro s acc hs' _ hsl
        simp only [List.zipIdx_cons, accLoop]
        by_cases hs1 : s + 1 ≤ L.length
        · have e1 : pyIdx (zPositionOf L) (s + 1) = .ok ((zPositionOf L).getD (s + 1) 0) := by
            simp [pyIdx, List.getElem?_eq_getElem (show s + 1 < (zPositionOf L).length by rw [zPositionOf_length]; omega)]
          have e0 : pyIdx (zPositionOf L) s = .ok ((zPositionOf L).getD s 0) := by
            simp [pyIdx, List.getElem?_eq_getElem (show s < (zPositionOf L).length by rw [zPositionOf_length]; omega)]
          simp only [e1, e0]
          refine ih (s + 1) _ (by simp at hs'; omega) (fun hnil => ?_) hs1
          rw [hnil] at hs'
          simp at hs'
          omega
        · have e1 : pyIdx (zPositionOf L) (s + 1) = .error .indexError := by
            simp [pyIdx, List.getElem?_eq_none (show (zPositionOf L).length ≤ s + 1 by rw [zPositionOf_length]; omega)]
          simp only [e1]
          exact ⟨_, rfl⟩
    obtain ⟨M, hM⟩ := hA Qs 0 0 (by omega) (fun hnil => by rw [hnil] at hlenQ; simp at hlenQ; omega) (by omega)
    simp only [LamObj.runActs, hfirst]
    simp only [LamObj.act, LamObj.step, readQ, readA, hxA, readSlot, Lam.zPosition, hM]

/-! ## Writing into returned arrays -/

theorem readQ_frame (l : Lam) (c : Cache) : (readQ l c).2.A = c.A ∧ (readQ l c).2.B = c.B ∧ (readQ l c).2.D = c.D := by
  unfold readQ
  cases c.Q with
  | some Q => exact ⟨rfl, rfl, rfl⟩
  | none =>
    simp only
    rcases fillQ l.layup [] with ⟨_ | _, Qs⟩ <;> exact ⟨rfl, rfl, rfl⟩

theorem readA_keeps (l : Lam) (c : Cache) : ((readA l c).2.B = c.B ∧ (readA l c).2.D = c.D) ∧
    (∀ M, l.xiA = .none → c.A = some M → readA l c = (.ok M, c)) := by
  constructor
  · unfold readA
    cases l.xiA with
    | none =>
      simp only [readSlot]
      cases c.A with
      | some M => exact ⟨rfl, rfl⟩
      | none =>
        have hf := readQ_frame l { c with A := some 0 }
        simp only
        rcases hr : readQ l { c with A := some 0 } with ⟨_ | Qs, c'⟩ <;> rw [hr] at hf
        · exact hf.2
        · simp only
          rcases accLoop wA l.zPosition Qs.zipIdx 0 with ⟨_ | _, M⟩ <;> exact hf.2
    | _ => simp only; split <;> exact ⟨rfl, rfl⟩
  · intro M hx hA
    simp only [readA, hx, readSlot, hA]

theorem readD_keeps (l : Lam) (c : Cache) : ((readD l c).2.A = c.A ∧ (readD l c).2.B = c.B) ∧
    (∀ M, l.xiD = .none → c.D = some M → readD l c = (.ok M, c)) := by
  constructor
  · unfold readD
    cases l.xiD with
    | none =>
      simp only [readSlot]
      cases c.D with
      | some M => exact ⟨rfl, rfl⟩
      | none =>
        have hf := readQ_frame l { c with D := some 0 }
        simp only
        rcases hr : readQ l { c with D := some 0 } with ⟨_ | Qs, c'⟩ <;> rw [hr] at hf
        · exact ⟨hf.1, hf.2.1⟩
        · simp only
          rcases accLoop wD l.zPosition Qs.zipIdx 0 with ⟨_ | _, M⟩ <;> exact ⟨hf.1, hf.2.1⟩
    | _ => simp only; split <;> exact ⟨rfl, rfl⟩
  · intro M hx hD
    simp only [readD, hx, readSlot, hD]

theorem readB_keeps (l : Lam) (c : Cache) : (l.xiA = .none → (readB l c).2.A = c.A) ∧ (readB l c).2.D = c.D ∧
    (∀ M, c.B = some M → (readB l c).1 = .ok M ∧ (readB l c).2.B = some M) := by
  have key : ∀ c : Cache, (readSlot wB Cache.B (fun c M => { c with B := some M }) l c).2.A = c.A ∧
      (readSlot wB Cache.B (fun c M => { c with B := some M }) l c).2.D = c.D ∧
      (∀ M, c.B = some M → readSlot wB Cache.B (fun c M => { c with B := some M }) l c = (.ok M, c)) := by
    intro c
    simp only [readSlot]
    refine ⟨?_, ?_, fun M hM => by rw [hM]⟩
    all_goals
      cases c.B with
      | some M => rfl
      | none =>
        have hf := readQ_frame l { c with B := some 0 }
        simp only
        rcases hr : readQ l { c with B := some 0 } with ⟨_ | Qs, c'⟩ <;> rw [hr] at hf
        · first | exact hf.1 | exact hf.2.2
        · simp only
          rcases accLoop wB l.zPosition Qs.zipIdx 0 with ⟨_ | _, M⟩ <;> first | exact hf.1 | exact hf.2.2
  unfold readB
  have k0 := key c
  have k1 := key { c with A := some 0 }
  refine ⟨fun hx => ?_, ?_, fun M hM => ?_⟩
  · simp only [hx]; exact k0.1
  · cases hA : l.xiA <;> cases hD : l.xiD <;> simp only <;> first | exact k0.2.1 | exact k1.2.1
  · cases hA : l.xiA <;> cases hD : l.xiD <;> simp only <;> first
      | (rw [k0.2.2 M hM]; exact ⟨rfl, hM⟩)
      | (rw [k1.2.2 M hM]; exact ⟨rfl, hM⟩)

/-- A predicate on caches that every getter preserves. -/
structure Frame (l : Lam) (P : Cache → Prop) : Prop where
  A : ∀ c, P c → P (readA l c).2
  B : ∀ c, P c → P (readB l c).2
  D : ∀ c, P c → P (readD l c).2
  Q : ∀ c, P c → P (readQ l c).2

theorem Frame.ABD {l : Lam} {P : Cache → Prop} (h : Frame l P) (c : Cache) (hc : P c) : P (readABD l c).2 := by
  unfold readABD
  have a := h.A c hc
  revert a
  rcases readA l c with ⟨_ | A, c1⟩ <;> intro a
  · exact a
  have b := h.B c1 a
  simp only
  revert b
  rcases readB l c1 with ⟨_ | B, c2⟩ <;> intro b
  · exact b
  have b' := h.B c2 b
  simp only
  revert b'
  rcases readB l c2 with ⟨_ | B', c3⟩ <;> intro b'
  · exact b'
  have d := h.D c3 b'
  simp only
  revert d
  rcases readD l c3 with ⟨_ | D, c4⟩ <;> intro d <;> exact d

theorem frameA (l : Lam) (hx : l.xiA = .none) (M : M3) : Frame l fun c => c.A = some M where
  A c h := by rw [(readA_keeps l c).2 M hx h]; exact h
  B c h := ((readB_keeps l c).1 hx).trans h
  D c h := (readD_keeps l c).1.1.trans h
  Q c h := (readQ_frame l c).1.trans h

theorem frameB (l : Lam) (M : M3) : Frame l fun c => c.B = some M where
  A c h := (readA_keeps l c).1.1.trans h
  B c h := ((readB_keeps l c).2.2 M h).2
  D c h := (readD_keeps l c).1.2.trans h
  Q c h := (readQ_frame l c).2.1.trans h

theorem frameD (l : Lam) (hx : l.xiD = .none) (M : M3) : Frame l fun c => c.D = some M where
  A c h := (readA_keeps l c).1.2.trans h
  B c h := (readB_keeps l c).2.1.trans h
  D c h := by rw [(readD_keeps l c).2 M hx h]; exact h
  Q c h := (readQ_frame l c).2.2.trans h

theorem writeInto_frame {α : Type} (o : LamObj) (r : Except PyErr α × Cache) (put : Cache → Cache) (P : Cache → Prop) (h : P r.2)
    (hput : ∀ c, P c → P (put c)) : P (writeInto o r put).2.cache := by
  rcases r with ⟨_ | _, c⟩
  · exact h
  · exact hput c h

/-- What was written stays: a predicate on the caches survives every operation that does not write to the same place. -/
theorem after_frame (P : Cache → Prop) (I : Lam → Prop) (hI : ∀ (o : LamObj) a, I o.lam → I (o.act a).2.lam) (hF : ∀ l, I l → Frame l P)
    (hT : ∀ c T, P c → P { c with T := T }) (hQ : ∀ c Q, P c → P { c with Q := Q }) (ok : LamAct → Prop)
    (hA : ∀ M, ok (.writeA M) → ∀ c, P c → P { c with A := some M }) (hB : ∀ M, ok (.writeB M) → ∀ c, P c → P { c with B := some M })
    (hD : ∀ M, ok (.writeD M) → ∀ c, P c → P { c with D := some M }) (acts : List LamAct) (o : LamObj) (hi : I o.lam) (hp : P o.cache)
    (hok : ∀ a ∈ acts, ok a) : I (o.afterActs acts).lam ∧ P (o.afterActs acts).cache := by
  induction acts generalizing o with
  | nil => exact ⟨hi, hp⟩
  | cons a as ih =>
    have hf := hF o.lam hi
    refine ih (o.act a).2 (hI o a hi) ?_ fun b hb => hok b (by simp [hb])
    have ha := hok a (by simp)
    cases a with
    | op q =>
      cases q with
      | A => exact hf.A _ hp
      | B => exact hf.B _ hp
      | D => exact hf.D _ hp
      | Q => exact hf.Q _ hp
      | ABD => exact hf.ABD _ hp
      | T =>
        simp only [LamObj.act, LamObj.step, readT]
        cases o.cache.T with
        | some T => exact hp
        | none => exact hT _ _ hp
      | _ => exact hp
    | assign n => exact hp
    | setStacking s => exact hp
    | setPlies p => exact hp
    | setLayup L => exact hp
    | writeA M => exact writeInto_frame o _ _ P (hf.A _ hp) (hA M ha)
    | writeB M => exact writeInto_frame o _ _ P (hf.B _ hp) (hB M ha)
    | writeD M => exact writeInto_frame o _ _ P (hf.D _ hp) (hD M ha)
    | writeQ Qs => exact writeInto_frame o _ _ P (hf.Q _ hp) fun c h => hQ c _ h
    | writeABD M => exact writeInto_frame o _ _ P (hf.ABD _ hp) fun c h => h

/-- **C131** writing into the array returned by `A`, `B` or `D` of a stack (for `B`: of any laminate) replaces that matrix of the laminate:
from then on the getter returns what was written, whatever is read, assigned or written elsewhere in between, and even when the layup is
replaced. -/
theorem C131_matrices (o : LamObj) (M : M3) (acts : List LamAct) :
    (o.lam.xiA = .none → (o.act (.writeA M)).1 = .status (.ok ()) → (∀ M', .writeA M' ∉ acts) →
      (((o.act (.writeA M)).2.afterActs acts).act (.op .A)).1 = .out (.m3 (.ok M))) ∧
    ((o.act (.writeB M)).1 = .status (.ok ()) → (∀ M', .writeB M' ∉ acts) →
      (((o.act (.writeB M)).2.afterActs acts).act (.op .B)).1 = .out (.m3 (.ok M))) ∧
    (o.lam.xiD = .none → (o.act (.writeD M)).1 = .status (.ok ()) → (∀ M', .writeD M' ∉ acts) →
      (((o.act (.writeD M)).2.afterActs acts).act (.op .D)).1 = .out (.m3 (.ok M))) := by
  have start : ∀ {α : Type} (r : Except PyErr α × Cache) (put : Cache → Cache), (writeInto o r put).1 = .status (.ok ()) →
      (writeInto o r put).2 = { o with cache := put r.2 } := by
    intro α r put h
    rcases r with ⟨_ | _, c⟩
    · simp [writeInto] at h
    · rfl
  refine ⟨fun hx hw hn => ?_, fun hw hn => ?_, fun hx hw hn => ?_⟩
  · have e := start _ _ hw
    obtain ⟨h1, h2⟩ := after_frame (fun c => c.A = some M) (fun l => l.xiA = .none) (fun o a h => (act_xi o a).1.trans h) (fun l h => frameA l h M)
      (fun c T h => h) (fun c Q h => h) (fun a => ∀ M', a ≠ .writeA M') (fun M' h => absurd rfl (h M')) (fun M' _ c h => h) (fun M' _ c h => h)
      acts (o.act (.writeA M)).2 ((act_xi o _).1.trans hx) (by simp only [LamObj.act, e]) (fun a ha M' h => hn M' (h ▸ ha))
    simp only [LamObj.act, LamObj.step] at h1 h2 ⊢
    rw [(readA_keeps _ _).2 M h1 h2]
  · have e := start _ _ hw
    obtain ⟨-, h2⟩ := after_frame (fun c => c.B = some M) (fun l => True) (fun o a h => trivial) (fun l h => frameB l M)
      (fun c T h => h) (fun c Q h => h) (fun a => ∀ M', a ≠ .writeB M') (fun M' _ c h => h) (fun M' h => absurd rfl (h M')) (fun M' _ c h => h)
      acts (o.act (.writeB M)).2 trivial (by simp only [LamObj.act, e]) (fun a ha M' h => hn M' (h ▸ ha))
    simp only [LamObj.act, LamObj.step] at h2 ⊢
    rw [((readB_keeps _ _).2.2 M h2).1]
  · have e := start _ _ hw
    obtain ⟨h1, h2⟩ := after_frame (fun c => c.D = some M) (fun l => l.xiD = .none) (fun o a h => (act_xi o a).2.1.trans h) (fun l h => frameD l h M)
      (fun c T h => h) (fun c Q h => h) (fun a => ∀ M', a ≠ .writeD M') (fun M' _ c h => h) (fun M' _ c h => h) (fun M' h => absurd rfl (h M'))
      acts (o.act (.writeD M)).2 ((act_xi o _).2.1.trans hx) (by simp only [LamObj.act, e]) (fun a ha M' h => hn M' (h ▸ ha))
    simp only [LamObj.act, LamObj.step] at h1 h2 ⊢
    rw [(readD_keeps _ _).2 M h1 h2]

/-- **C131** writing into the list returned by `Q_layup` of a stack that was not read before: all three matrices are computed from what was
written. -/
theorem C131_plies (l : Lam) (hs : IsStack l) (h : Readable l) (Qs : List M3) (hlen : Qs.length ≤ l.layup.length) :
    (LamObj.fresh l).runActs [.writeQ Qs, .op .Q, .op .A, .op .B, .op .D] =
      [.status (.ok ()), .out (.Q (.ok Qs)), .out (.m3 (.ok (layered (fun z0 z1 => z1 - z0) l.zPosition Qs))),
        .out (.m3 (.ok (layered (fun z0 z1 => 1 / 2 * (z1 ^ 2 - z0 ^ 2)) l.zPosition Qs))),
        .out (.m3 (.ok (layered (fun z0 z1 => 1 / 3 * (z1 ^ 3 - z0 ^ 3)) l.zPosition Qs)))] := by
  have hall := (readable_iff l).mp h
  have hz : Qs.length + 1 ≤ l.zPosition.length := by rw [Lam.zPosition, zPositionOf_length]; omega
  have hA := accLoop_eq wA l.zPosition Qs.zipIdx 0 _ (momentLoop_layered wA _ Qs hz)
  have hB := accLoop_eq wB l.zPosition Qs.zipIdx 0 _ (momentLoop_layered wB _ Qs hz)
  have hD := accLoop_eq wD l.zPosition Qs.zipIdx 0 _ (momentLoop_layered wD _ Qs hz)
  have hw : (LamObj.fresh l).act (.writeQ Qs) = (.status (.ok ()), ⟨l, ⟨some Qs, none, none, none, none⟩⟩) := by
    simp only [LamObj.act, LamObj.fresh]
    rw [readQ_good l .empty hall (.inl rfl)]
    rfl
  simp only [LamObj.runActs, hw]
  simp only [LamObj.act, LamObj.step, readQ, readD, readA, readB, hs.lp_none.1, hs.lp_none.2.2.1, readSlot, hA, hB, hD]
  rfl

/-- **C131** laminates given by lamination parameters: after any reads, writes and assignments that leave `plies` alone, `A` (if `xiA` was
given) and `D` are those of a new laminate. -/
theorem C131_parameters (l : Lam) (acts : List LamAct) (h : ∀ p, .setPlies p ∉ acts) (h' : ∀ ps, .op (.setPlies ps) ∉ acts) :
    (l.xiA ≠ .none → (((LamObj.fresh l).afterActs acts).act (.op .A)).1 = .out (.m3 l.A)) ∧
    (l.xiD ≠ .none → (((LamObj.fresh l).afterActs acts).act (.op .D)).1 = .out (.m3 l.D)) := by
  have hp : lastPlies l.plies acts = l.plies := by
    clear h'
    induction acts with
    | nil => rfl
    | cons a as ih =>
      have := ih fun p hm => h p (by simp [hm])
      cases a with
      | setPlies p => exact absurd (by simp) (h p)
      | _ => exact this
  obtain ⟨k1, k2⟩ := C130_parameters_laminate l acts
  rw [C130_last_plies l acts h', hp] at k1 k2
  refine ⟨fun hx => ?_, fun hx => ?_⟩
  · rw [k1 hx, Lam.A]
    cases hv : l.xiA with
    | none => exact absurd hv hx
    | _ => rfl
  · rw [k2 hx, Lam.D]
    cases hv : l.xiD with
    | none => exact absurd hv hx
    | _ => rfl

/-- **C131** writing into `ABD` changes nothing: the operation is the same as reading `ABD`. -/
theorem C131_ABD (o : LamObj) (M : M6) : (o.act (.writeABD M)).2 = (o.act (.op .ABD)).2 := by
  simp only [LamObj.act, writeInto_snd, LamObj.step]

/-! ## Strength objects -/

/-- The results of a history, each from the laminate and the loads of that moment. -/
noncomputable def Spec.strActs (l : Lam) (N : V6) : List StrAct → List StrOut
  | [] => []
  | .op (.setLoads N') :: as => .done :: strActs l N' as
  | .op q :: as => strOut l N q :: strActs l N as
  | .setLoad i x :: as => .done :: strActs l (fun j => if j = i then x else N j) as
  | .setProperty o :: as => .done :: strActs o.lam N as
  | .assign _ :: as => .done :: strActs l N as

/-- The operation does not change a list of the caller, and a laminate that is assigned has readable plies and has only been read. -/
def Spec.SoundAct : StrAct → Prop
  | .op q => KeepsLists q
  | .setProperty o => ∃ l ops, Readable l ∧ (∀ q ∈ ops, IsRead q) ∧ o = after (.fresh l) ops
  | _ => True

/-- **C130** strength objects: after any history of calls and assignments to the loads and to `dproperty`, each call returns what a new
object with the current laminate and loads returns. -/
theorem C130_strength (l : Lam) (N : V6) (h : Readable l) (acts : List StrAct) (hk : ∀ a ∈ acts, SoundAct a) :
    StrObj.runActs ⟨.fresh l, N⟩ acts = strActs l N acts := by
  have key : ∀ (acts : List StrAct) (o : StrObj), (∀ a ∈ acts, SoundAct a) → AllOk o.lam.lam.layup → Good o.lam.lam o.lam.cache →
      o.runActs acts = strActs o.lam.lam o.loads acts := by
    intro acts
    induction acts with
    | nil => intro o _ _ _; rfl
    | cons a as ih =>
      intro o hk hall hc
      have hk' : ∀ a ∈ as, SoundAct a := fun b hb => hk b (by simp [hb])
      have ha := hk a (by simp)
      have call : ∀ {α : Type} (m : CM α) (x : Except PyErr α), Refines o.lam.lam m x →
          (m o.lam.cache).1 = x ∧ StrObj.runActs { o with lam.cache := (m o.lam.cache).2 } as = strActs o.lam.lam o.loads as :=
        fun m x hr => ⟨(hr _ hc).1, ih { o with lam.cache := (m o.lam.cache).2 } hk' hall (hr _ hc).2⟩
      cases a with
      | op q =>
        cases q with
        | lam q =>
          obtain ⟨h1, h2, h3⟩ := step_good o.lam q hall hc
          have hm : o.lam.lam.mutate q = o.lam.lam := by
            cases q <;> first | rfl | exact absurd ha id
          rw [hm] at h2
          have := ih { o with lam := (o.lam.step q).2 } hk' (by simp only [h2]; exact hall) h3
          simp only [h2] at this
          simp only [StrObj.runActs, StrObj.act, StrObj.step, strActs, strOut, h1, this]
        | setLoads N' =>
          simp only [StrObj.runActs, StrObj.act, StrObj.step, strActs]
          rw [ih { o with loads := N' } hk' hall hc]
        | epsilon0 =>
          obtain ⟨k1, k2⟩ := call _ _ (refines_eps0 o.lam.lam o.loads hall)
          simp only [StrObj.runActs, StrObj.act, StrObj.step, strActs, strOut, k1, k2]
        | strain =>
          obtain ⟨k1, k2⟩ := call _ _ (refines_strain o.lam.lam o.loads hall)
          simp only [StrObj.runActs, StrObj.act, StrObj.step, strActs, strOut, k1, k2]
        | stress =>
          obtain ⟨k1, k2⟩ := call _ _ (refines_stress o.lam.lam o.loads hall)
          simp only [StrObj.runActs, StrObj.act, StrObj.step, strActs, strOut, k1, k2]
        | margin =>
          obtain ⟨k1, k2⟩ := call _ _ (refines_margin o.lam.lam o.loads hall)
          simp only [StrObj.runActs, StrObj.act, StrObj.step, strActs, strOut, k1, k2]
      | setLoad i x =>
        simp only [StrObj.runActs, StrObj.act, strActs]
        rw [ih { o with loads := Function.update o.loads i x } hk' hall hc]
        congr 2
        funext j
        simp only [Function.update_apply]
      | setProperty o' =>
        obtain ⟨l', ops, hr, -, rfl⟩ := ha
        obtain ⟨-, g2, g3⟩ := after_good (.fresh l') ops ((readable_iff l').mp hr) (good_empty l')
        simp only [StrObj.runActs, StrObj.act, strActs]
        rw [ih { o with lam := after (.fresh l') ops } hk' (by simp only [g2.1]; exact (readable_iff l').mp hr) g3]
      | assign n =>
        simp only [StrObj.runActs, StrObj.act, strActs]
        rw [ih o hk' hall hc]
  exact key acts ⟨.fresh l, N⟩ hk ((readable_iff l).mp h) (good_empty l)

/-! ## Plates -/

theorem buckling_any_state (S : EigSolver) (D : Except PyErr M3) (c : Constraints) (p : PlateNum) (k : ℤ) (st st' : PlateState (p.m * p.n)) :
    (bucklingAnalysis S D c p k st).1 = (bucklingAnalysis S D c p k st').1 := by
  unfold bucklingAnalysis
  cases D with
  | error e => rfl
  | ok D =>
    simp only
    cases computeIdx c p.m p.n with
    | error e => rfl
    | ok s =>
      simp only
      cases calcKKGD shipped (.ok D) c p with
      | error e => rfl
      | ok x =>
        simp only
        cases eigshCall S x.2 x.1 (min k ((p.m * p.n : ℕ) - 2 : ℤ)) <;> rfl

/-- **C130** plates: the constructor parameters cannot be assigned, and whatever was assigned to the other attributes, drawn or analysed
before, `buckling_analysis` returns what it returns on a new plate. -/
theorem C130_plate (S : EigSolver) (D : Except PyErr M3) (c : Constraints) (p : PlateNum) (acts : List (PlateAct (p.m * p.n))) (st : PlateAttrs (p.m * p.n)) :
    (∀ name, (plateAct S D c p (plateAfter S D c p st acts) (.assign name)).2 = plateAfter S D c p st acts ∧
      ((plateAct S D c p (plateAfter S D c p st acts) (.assign name)).1 = .status (.error .attributeError) ↔
        name ∈ ["dproperty", "a", "b", "constraints", "Nxx", "Nyy", "Nxy", "m", "n"])) ∧
    ∀ k, (plateAct S D c p (plateAfter S D c p st acts) (.analysis k)).1 = .eig (bucklingAnalysis S D c p k (.fresh _)).1 := by
  refine ⟨fun name => ⟨rfl, ?_⟩, fun k => ?_⟩
  · simp only [plateAct, PlateActOut.status.injEq, assignTo_iff, plateGetters]
  · simp only [plateAct, attrBuckling]
    rw [buckling_any_state S D c p k (.fresh _) ⟨(plateAfter S D c p st acts).idx, none⟩]
    rcases bucklingAnalysis S D c p k ⟨(plateAfter S D c p st acts).idx, none⟩ with ⟨_ | ⟨v, w⟩, st'⟩ <;> rfl

/-- The attributes of a plate that was only analysed and plotted. -/
def Spec.attrsOf {N : ℕ} (st : PlateState N) : PlateAttrs N := ⟨st.idx, st.eig.map Prod.fst, st.eig.map Prod.snd⟩

theorem attrBuckling_eq (S : EigSolver) (D : Except PyErr M3) (c : Constraints) (p : PlateNum) (k : ℤ) (st : PlateState (p.m * p.n)) :
    attrBuckling S D c p k (attrsOf st) = ((bucklingAnalysis S D c p k st).1, attrsOf (bucklingAnalysis S D c p k st).2) := by
  simp only [attrBuckling, bucklingAnalysis, attrsOf]
  cases D with
  | error e => rfl
  | ok D =>
    simp only
    cases computeIdx c p.m p.n with
    | error e => rfl
    | ok s =>
      simp only
      cases calcKKGD shipped (.ok D) c p with
      | error e => rfl
      | ok x =>
        simp only
        cases eigshCall S x.2 x.1 (min k ((p.m * p.n : ℕ) - 2 : ℤ)) <;> rfl

/-- **C130** without assignments the plots are those of C65 and C66. -/
theorem C130_plot_model (S : EigSolver) (D : Except PyErr M3) (c : Constraints) (p : PlateNum) (nth : ℤ) (gx gy : ℕ) (st : PlateState (p.m * p.n)) :
    attrPlot S D c p nth gx gy (attrsOf st) = ((plotEigenvalue S D c p nth gx gy st).1, attrsOf (plotEigenvalue S D c p nth gx gy st).2) := by
  obtain ⟨idx, eig⟩ := st
  cases eig with
  | some e => rfl
  | none =>
    have h := attrBuckling_eq S D c p 5 ⟨idx, none⟩
    simp only [attrPlot, plotEigenvalue, h]
    simp only [attrsOf, Option.map_none, Option.isNone_none, Bool.and_self, if_true]
    rcases hb : bucklingAnalysis S D c p 5 ⟨idx, none⟩ with ⟨_ | ⟨v, w⟩, st'⟩
    · rfl
    · have : st'.eig = some (v, w) := by
        obtain ⟨s, K, KG, out, -, -, -, -, -, -, hst⟩ := buckling_inv (congrArg Prod.fst hb)
        rw [hb] at hst
        simp only at hst
        rw [hst]
      simp only [this]
      rfl

/-- **C130** assigned modes, on a plate with any attributes `st`: `plot_eigenvalue` draws the columns assigned to `eigenvector`, on the
shape functions in `sw_idx`; with `eigenvector` set to `None` it raises `TypeError` as long as `eigenvalue` is an array; with both set to
`None` it analyses the plate again; setting `eigenvalue` does not matter while `eigenvector` is an array. -/
theorem C130_plot_assigned (S : EigSolver) (D : Except PyErr M3) (c : Constraints) (p : PlateNum) (nth : ℤ) (gx gy : ℕ) (st : PlateAttrs (p.m * p.n)) :
    (∀ V, (plateAct S D c p (plateAfter S D c p st [.setVec (some V)]) (.plot nth gx gy)).1 = .surface (surfaceOf p.a p.b st.idx V nth gx gy)) ∧
    (∀ V s v, (plateAct S D c p (plateAfter S D c p st [.setVec (some V), .setIdx s, .setVal v]) (.plot nth gx gy)).1 =
      .surface (surfaceOf p.a p.b s V nth gx gy)) ∧
    (∀ v, (plateAct S D c p (plateAfter S D c p st [.setVal (some v), .setVec none]) (.plot nth gx gy)).1 = .surface (.error .typeError)) ∧
    (∀ v, st.val = some v → (plateAct S D c p (plateAfter S D c p st [.setVec none]) (.plot nth gx gy)).1 = .surface (.error .typeError)) ∧
    plateAct S D c p (plateAfter S D c p st [.setVal none, .setVec none]) (.plot nth gx gy) =
      (.surface (plotEigenvalue S D c p nth gx gy ⟨st.idx, none⟩).1, attrsOf (plotEigenvalue S D c p nth gx gy ⟨st.idx, none⟩).2) := by
  refine ⟨fun V => ?_, fun V s v => ?_, fun v => ?_, fun v hv => ?_, ?_⟩
  · simp [attrPlot, plateAct, plateAfter]
  · simp [attrPlot, plateAct, plateAfter]
  · simp [attrPlot, plateAct, plateAfter]
  · simp [attrPlot, plateAct, plateAfter, hv]
  · have := C130_plot_model S D c p nth gx gy ⟨st.idx, none⟩
    simp only [attrsOf, Option.map_none] at this
    simp only [plateAct, plateAfter, this]
    rfl

/-! ## Concrete cases -/

/-- Non-vacuity for C130: a carbon laminate whose `stacking` and `plies` are replaced keeps its stiffness. -/
example : ∃ l A, Lam.init (.angles [0, 45, 90]) (.single carbon) = .ok l ∧ l.A = .ok A ∧
    (((LamObj.fresh l).afterActs [.op .D, .setStacking (.angles [30]), .assign "colour", .assign "A", .setPlies (.single carbon)]).act (.op .A)).1 =
      .out (.m3 (.ok A)) := by
  obtain ⟨l, hl, hlay⟩ := C10_single [0, 45, 90] carbon
  have hr : Readable l := by
    intro p hp
    rw [hlay] at hp
    obtain ⟨a, -, rfl⟩ := List.mem_map.mp hp
    obtain ⟨-, Q, hQ, -⟩ := carbon_admissible a
    exact ⟨Q, hQ⟩
  have hs : IsStack l := ⟨_, _, hl⟩
  have hA : ∃ A, l.A = .ok A := ⟨_, by rw [hs.A_eq]; exact l.loopMatrix_ok _ ((readable_iff l).mp hr)⟩
  obtain ⟨A, hA⟩ := hA
  refine ⟨l, A, hl, hA, ?_⟩
  rw [C130_laminate l hs hr _ (by simp [KeepsLayup]) .A trivial]
  simp only [freshOut, hA]

/-- Non-vacuity for C131: zeros written into `A` of a carbon ply are what `A` returns afterwards, while a fresh read is not zero. -/
example : ∃ l A, Lam.init (.angles [0]) (.single carbon) = .ok l ∧ l.A = .ok A ∧ A ≠ 0 ∧
    (LamObj.fresh l).runActs [.writeA 0, .op .A] = [.status (.ok ()), .out (.m3 (.ok 0))] := by
  obtain ⟨l, hl, hlay⟩ := C10_single [0] carbon
  have hr : Readable l := by
    intro p hp
    rw [hlay] at hp
    obtain ⟨a, -, rfl⟩ := List.mem_map.mp hp
    obtain ⟨-, Q, hQ, -⟩ := carbon_admissible a
    exact ⟨Q, hQ⟩
  have hs : IsStack l := ⟨_, _, hl⟩
  have hall := (readable_iff l).mp hr
  have hA : ∃ A, l.A = .ok A := ⟨_, by rw [hs.A_eq]; exact l.loopMatrix_ok _ hall⟩
  obtain ⟨A, hA⟩ := hA
  refine ⟨l, A, hl, hA, ?_, ?_⟩
  · obtain ⟨A', -, -, hA', -, -, hpd, -⟩ := C15_posDef l hs (by rw [hlay]; simp) (by
      intro p hp
      rw [hlay] at hp
      obtain ⟨a, -, rfl⟩ := List.mem_map.mp hp
      exact carbon_admissible a)
    rw [hA] at hA'
    cases hA'
    intro h0
    have := hpd.2 (fun _ => 1) (fun h => one_ne_zero (congrFun h 0))
    simp [h0] at this
  · have hw : ((LamObj.fresh l).act (.writeA 0)).1 = .status (.ok ()) := by
      simp only [LamObj.act, LamObj.fresh]
      have := (readA_good l .empty hall (good_empty l)).1
      rcases hr : readA l .empty with ⟨r, c⟩
      rw [hr] at this
      simp only at this
      rw [this, hA]
      rfl
    have := (C131_matrices (.fresh l) 0 []).1 hs.lp_none.1 hw (by simp)
    simp only [LamObj.afterActs] at this
    simp only [LamObj.runActs, hw, this]

end Composipy
