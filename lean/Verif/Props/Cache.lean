import Verif.Props.Symmetry
import Verif.Model.LaminateCache

/-!
# C23, C24, C28: histories of laminate reads
-/

namespace Composipy
open Spec Matrix

/-- What an operation returns on an object that has not been read before. -/
noncomputable def Spec.freshOut (l : Lam) : LamOp → LamOut
  | .z => .z l.zPosition
  | .Q => .Q l.Qlayup
  | .T => .T (.ok l.Tlayup)
  | .A => .m3 l.A
  | .B => .m3 l.B
  | .D => .m3 l.D
  | .ABD => .m6 l.ABD
  | .xiA => .xi l.xiAread
  | .xiD => .xi l.xiDread
  | .setStacking _ => .done
  | .setPlies _ => .done

/-- The object after a history. -/
noncomputable def Spec.after (o : LamObj) : List LamOp → LamObj
  | [] => o
  | op :: ops => after (o.step op).2 ops

/-- The operation only reads. -/
def Spec.IsRead : LamOp → Prop
  | .setStacking _ => False
  | .setPlies _ => False
  | _ => True

/-- The operation reads the lamination parameters. -/
def Spec.IsXi : LamOp → Prop
  | .xiA => True
  | .xiD => True
  | _ => False

theorem fillQ_ok (L : List (ℝ × Mat)) (h : AllOk L) (acc : List M3) :
    fillQ L acc = (.ok (), acc ++ L.map plyQ!) := by
  induction L generalizing acc with
  | nil => simp [fillQ]
  | cons p L ih =>
    simp only [fillQ, plyQ_of_ok (h p (by simp))]
    rw [ih (fun q hq => h q (by simp [hq]))]
    simp

theorem fillQ_err (P S : List (ℝ × Mat)) (p : ℝ × Mat) (h : AllOk P) (e : PyErr)
    (hp : plyQ p = .error e) (acc : List M3) :
    fillQ (P ++ p :: S) acc = (.error e, acc ++ P.map plyQ!) := by
  induction P generalizing acc with
  | nil => simp [fillQ, hp]
  | cons q P ih =>
    simp only [List.cons_append, fillQ, plyQ_of_ok (h q (by simp))]
    rw [ih (fun r hr => h r (by simp [hr]))]
    simp

theorem accLoop_eq (w : ℝ → ℝ → ℝ) (z : List ℝ) (l : List (M3 × Nat)) (acc M : M3)
    (h : l.foldlM (fun acc (Qi : M3 × Nat) => do
      let zk1 ← pyIdx z (Qi.2 + 1)
      let zk0 ← pyIdx z Qi.2
      return acc + w zk0 zk1 • Qi.1) acc = Except.ok M) :
    accLoop w z l acc = (.ok (), M) := by
  induction l generalizing acc with
  | nil => simp at h; simp [accLoop, h]
  | cons Qi l ih =>
    obtain ⟨Q, i⟩ := Qi
    simp only [List.foldlM_cons] at h
    simp only [accLoop]
    cases h1 : pyIdx z (i + 1) with
    | error e => simp [h1] at h
    | ok zk1 =>
      cases h0 : pyIdx z i with
      | error e => simp [h1, h0] at h
      | ok zk0 =>
        simp only [h1, h0, ok_bind, pure_eq_ok] at h
        exact ih _ h

/-- The cache holds only correct values. -/
structure Good (l : Lam) (c : Cache) : Prop where
  Q : c.Q = none ∨ c.Q = some (l.layup.map plyQ!)
  T : c.T = none ∨ c.T = some l.Tlayup
  A : l.xiA = .none → c.A = none ∨ c.A = some (mom wA (bottom l.layup) (l.layup.map layer))
  B : c.B = none ∨ c.B = some (mom wB (bottom l.layup) (l.layup.map layer))
  D : l.xiD = .none → c.D = none ∨ c.D = some (mom wD (bottom l.layup) (l.layup.map layer))

theorem good_empty (l : Lam) : Good l .empty :=
  ⟨Or.inl rfl, Or.inl rfl, fun _ => Or.inl rfl, Or.inl rfl, fun _ => Or.inl rfl⟩

theorem readQ_good (l : Lam) (c : Cache) (h : AllOk l.layup)
    (hQ : c.Q = none ∨ c.Q = some (l.layup.map plyQ!)) :
    readQ l c = (.ok (l.layup.map plyQ!), { c with Q := some (l.layup.map plyQ!) }) := by
  unfold readQ
  rcases hQ with hQ | hQ
  · rw [hQ]; simp only [fillQ_ok _ h]; simp
  · rw [hQ]; cases c; simp at hQ; simp [hQ]

theorem momentLoop_layup (l : Lam) (w : ℝ → ℝ → ℝ) (h : AllOk l.layup) :
    momentLoop w l.zPosition (l.layup.map plyQ!) 0 =
      .ok (mom w (bottom l.layup) (l.layup.map layer)) := by
  have := l.loopMatrix_ok w h
  simpa [Lam.loopMatrix, l.Qlayup_ok h] using this

theorem readSlot_good (w : ℝ → ℝ → ℝ) (get : Cache → Option M3) (set : Cache → M3 → Cache)
    (l : Lam) (c : Cache) (h : AllOk l.layup)
    (hQ : c.Q = none ∨ c.Q = some (l.layup.map plyQ!)) (hset : ∀ M, (set c M).Q = c.Q)
    (hget : get c = none ∨ get c = some (mom w (bottom l.layup) (l.layup.map layer))) :
    readSlot w get set l c = (.ok (mom w (bottom l.layup) (l.layup.map layer)), c) ∨
    readSlot w get set l c = (.ok (mom w (bottom l.layup) (l.layup.map layer)),
      set { set c 0 with Q := some (l.layup.map plyQ!) }
        (mom w (bottom l.layup) (l.layup.map layer))) := by
  unfold readSlot
  rcases hget with hget | hget
  · right
    rw [hget]
    simp only
    rw [readQ_good l (set c 0) h (by rw [hset]; exact hQ)]
    simp only
    rw [accLoop_eq w _ _ _ _ (momentLoop_layup l w h)]
  · left; rw [hget]

theorem readA_good (l : Lam) (c : Cache) (h : AllOk l.layup) (hc : Good l c) :
    (readA l c).1 = l.A ∧ Good l (readA l c).2 := by
  unfold readA Lam.A
  cases hx : l.xiA with
  | none =>
    simp only [l.loopMatrix_ok wA h]
    rcases readSlot_good wA Cache.A (fun c M => { c with A := some M }) l c h hc.Q (fun _ => rfl)
      (hc.A hx) with he | he <;> rw [he]
    · exact ⟨rfl, hc⟩
    · exact ⟨rfl, ⟨Or.inr rfl, hc.T, fun _ => Or.inr rfl, hc.B, hc.D⟩⟩
  | vec v =>
    cases hl : lpA l.plies (.vec v) l.T with
    | error e => exact ⟨by simp only [hl], by simp only [hl]; exact hc⟩
    | ok M =>
      refine ⟨by simp only [hl], ?_⟩
      simp only [hl]
      exact ⟨hc.Q, hc.T, fun h' => (by rw [hx] at h'; cases h'), hc.B, hc.D⟩
  | num v =>
    cases hl : lpA l.plies (.num v) l.T with
    | error e => exact ⟨by simp only [hl], by simp only [hl]; exact hc⟩
    | ok M =>
      refine ⟨by simp only [hl], ?_⟩
      simp only [hl]
      exact ⟨hc.Q, hc.T, fun h' => (by rw [hx] at h'; cases h'), hc.B, hc.D⟩

theorem readD_good (l : Lam) (c : Cache) (h : AllOk l.layup) (hc : Good l c) :
    (readD l c).1 = l.D ∧ Good l (readD l c).2 := by
  unfold readD Lam.D
  cases hx : l.xiD with
  | none =>
    simp only [l.loopMatrix_ok wD h]
    rcases readSlot_good wD Cache.D (fun c M => { c with D := some M }) l c h hc.Q (fun _ => rfl)
      (hc.D hx) with he | he <;> rw [he]
    · exact ⟨rfl, hc⟩
    · exact ⟨rfl, ⟨Or.inr rfl, hc.T, hc.A, hc.B, fun _ => Or.inr rfl⟩⟩
  | vec v =>
    cases hl : lpD l.plies (.vec v) l.T with
    | error e => exact ⟨by simp only [hl], by simp only [hl]; exact hc⟩
    | ok M =>
      refine ⟨by simp only [hl], ?_⟩
      simp only [hl]
      exact ⟨hc.Q, hc.T, hc.A, hc.B, fun h' => by rw [hx] at h'; cases h'⟩
  | num v =>
    cases hl : lpD l.plies (.num v) l.T with
    | error e => exact ⟨by simp only [hl], by simp only [hl]; exact hc⟩
    | ok M =>
      refine ⟨by simp only [hl], ?_⟩
      simp only [hl]
      exact ⟨hc.Q, hc.T, hc.A, hc.B, fun h' => by rw [hx] at h'; cases h'⟩

theorem readB_good (l : Lam) (c : Cache) (h : AllOk l.layup) (hc : Good l c) :
    (readB l c).1 = l.B ∧ Good l (readB l c).2 := by
  have key : ∀ c, Good l c →
      (readSlot wB Cache.B (fun c M => { c with B := some M }) l c).1 = l.B ∧
      Good l (readSlot wB Cache.B (fun c M => { c with B := some M }) l c).2 := by
    intro c hc
    rw [Lam.B, l.loopMatrix_ok wB h]
    rcases readSlot_good wB Cache.B (fun c M => { c with B := some M }) l c h hc.Q (fun _ => rfl)
      hc.B with he | he <;> rw [he]
    · exact ⟨rfl, hc⟩
    · exact ⟨rfl, ⟨Or.inr rfl, hc.T, hc.A, Or.inr rfl, hc.D⟩⟩
  have hz : l.xiA ≠ .none → Good l { c with A := some 0 } := fun hx =>
    ⟨hc.Q, hc.T, fun h' => absurd h' hx, hc.B, hc.D⟩
  unfold readB
  cases hA : l.xiA <;> cases hD : l.xiD <;> simp only <;>
    first
      | exact key c hc
      | exact key _ (hz (by rw [hA]; simp))

theorem readABD_good (l : Lam) (c : Cache) (h : AllOk l.layup) (hc : Good l c) :
    (readABD l c).1 = l.ABD ∧ Good l (readABD l c).2 := by
  unfold readABD Lam.ABD
  obtain ⟨a1, a2⟩ := readA_good l c h hc
  rcases hA : readA l c with ⟨rA, cA⟩
  rw [hA] at a1 a2; simp only at a1 a2; subst a1
  cases hA' : l.A with
  | error e => simp; exact a2
  | ok A =>
    simp only [ok_bind]
    obtain ⟨b1, b2⟩ := readB_good l cA h a2
    rcases hB : readB l cA with ⟨rB, cB⟩
    rw [hB] at b1 b2; simp only at b1 b2; subst b1
    cases hB' : l.B with
    | error e => simp; exact b2
    | ok B =>
      simp only [ok_bind]
      obtain ⟨b1', b2'⟩ := readB_good l cB h b2
      rcases hB2 : readB l cB with ⟨rB2, cB2⟩
      rw [hB2] at b1' b2'; simp only at b1' b2'; subst b1'
      simp only [hB']
      obtain ⟨d1, d2⟩ := readD_good l cB2 h b2'
      rcases hD : readD l cB2 with ⟨rD, cD⟩
      rw [hD] at d1 d2; simp only at d1 d2; subst d1
      cases hD' : l.D with
      | error e => simp; exact d2
      | ok D => simp; exact d2

theorem readT_good (l : Lam) (c : Cache) (hc : Good l c) :
    (readT l c).1 = .ok l.Tlayup ∧ Good l (readT l c).2 := by
  unfold readT
  rcases hc.T with hT | hT <;> rw [hT]
  · exact ⟨rfl, ⟨hc.Q, Or.inr rfl, hc.A, hc.B, hc.D⟩⟩
  · exact ⟨rfl, hc⟩

/-- The part of a laminate that the stiffness getters use. -/
structure SameStiff (l l' : Lam) : Prop where
  layup : l'.layup = l.layup
  xiA : l'.xiA = l.xiA
  xiB : l'.xiB = l.xiB
  xiD : l'.xiD = l.xiD
  T : l'.T = l.T
  inv : l'.plies.invariants = l.plies.invariants

theorem SameStiff.refl (l : Lam) : SameStiff l l := ⟨rfl, rfl, rfl, rfl, rfl, rfl⟩

theorem sameStiff_mutate (l : Lam) (op : LamOp) : SameStiff l (l.mutate op) := by
  cases op <;> try exact SameStiff.refl l
  · cases h : l.stacking <;> simp [Lam.mutate, h] <;> constructor <;> rfl
  · cases h : l.plies <;> simp [Lam.mutate, h]
    · exact SameStiff.refl l
    · exact ⟨rfl, rfl, rfl, rfl, rfl, by simp [Plies.invariants, h]⟩

theorem SameStiff.trans {l l' l'' : Lam} (h : SameStiff l l') (h' : SameStiff l' l'') :
    SameStiff l l'' :=
  ⟨h'.1.trans h.1, h'.2.trans h.2, h'.3.trans h.3, h'.4.trans h.4, h'.5.trans h.5, h'.6.trans h.6⟩

theorem SameStiff.getters {l l' : Lam} (h : SameStiff l l') :
    l'.zPosition = l.zPosition ∧ l'.Qlayup = l.Qlayup ∧ l'.Tlayup = l.Tlayup ∧ l'.A = l.A ∧
    l'.B = l.B ∧ l'.D = l.D ∧ l'.ABD = l.ABD := by
  have h1 : ∀ w, l'.loopMatrix w = l.loopMatrix w := fun w => loopMatrix_layup l' l w h.1
  have hA : l'.A = l.A := by simp only [Lam.A, lpA, h.2, h.5, h.6, h1]
  have hB : l'.B = l.B := h1 _
  have hD : l'.D = l.D := by simp only [Lam.D, lpD, h.4, h.5, h.6, h1]
  refine ⟨by simp only [Lam.zPosition, h.1], by simp only [Lam.Qlayup, h.1],
    by simp only [Lam.Tlayup, h.1], hA, hB, hD, ?_⟩
  simp only [Lam.ABD, hA, hB, hD]

theorem Good.mutate {l : Lam} {c : Cache} (h : Good l c) (op : LamOp) : Good (l.mutate op) c := by
  have hs := sameStiff_mutate l op
  have hg := hs.getters
  exact ⟨by rw [hs.1]; exact h.Q, by rw [hg.2.2.1]; exact h.T, by rw [hs.1, hs.2]; exact h.A,
    by rw [hs.1]; exact h.B, by rw [hs.1, hs.4]; exact h.D⟩

theorem step_good (o : LamObj) (op : LamOp) (h : AllOk o.lam.layup) (hc : Good o.lam o.cache) :
    (o.step op).1 = freshOut o.lam op ∧ (o.step op).2.lam = o.lam.mutate op ∧
      Good (o.step op).2.lam (o.step op).2.cache := by
  cases op with
  | z => exact ⟨rfl, rfl, hc⟩
  | Q =>
    simp only [LamObj.step, readQ_good o.lam o.cache h hc.Q, freshOut, o.lam.Qlayup_ok h]
    exact ⟨trivial, rfl, ⟨Or.inr rfl, hc.T, hc.A, hc.B, hc.D⟩⟩
  | T =>
    obtain ⟨h1, h2⟩ := readT_good o.lam o.cache hc
    simp only [LamObj.step, freshOut, h1]; exact ⟨trivial, rfl, h2⟩
  | A =>
    obtain ⟨h1, h2⟩ := readA_good o.lam o.cache h hc
    simp only [LamObj.step, freshOut, h1]; exact ⟨trivial, rfl, h2⟩
  | B =>
    obtain ⟨h1, h2⟩ := readB_good o.lam o.cache h hc
    simp only [LamObj.step, freshOut, h1]; exact ⟨trivial, rfl, h2⟩
  | D =>
    obtain ⟨h1, h2⟩ := readD_good o.lam o.cache h hc
    simp only [LamObj.step, freshOut, h1]; exact ⟨trivial, rfl, h2⟩
  | ABD =>
    obtain ⟨h1, h2⟩ := readABD_good o.lam o.cache h hc
    simp only [LamObj.step, freshOut, h1]; exact ⟨trivial, rfl, h2⟩
  | xiA => exact ⟨rfl, rfl, hc⟩
  | xiD => exact ⟨rfl, rfl, hc⟩
  | setStacking new => exact ⟨rfl, rfl, hc.mutate (.setStacking new)⟩
  | setPlies new => exact ⟨rfl, rfl, hc.mutate (.setPlies new)⟩

theorem after_good (o : LamObj) (ops : List LamOp) (h : AllOk o.lam.layup) (hc : Good o.lam o.cache) :
    (after o ops).lam = ops.foldl Lam.mutate o.lam ∧ SameStiff o.lam (after o ops).lam ∧
      Good (after o ops).lam (after o ops).cache := by
  induction ops generalizing o with
  | nil => exact ⟨rfl, SameStiff.refl _, hc⟩
  | cons op ops ih =>
    obtain ⟨-, h2, h3⟩ := step_good o op h hc
    have hs := sameStiff_mutate o.lam op
    have hlay : AllOk (o.step op).2.lam.layup := by rw [h2, hs.1]; exact h
    obtain ⟨h4, h5, h6⟩ := ih (o.step op).2 hlay h3
    simp only [after, List.foldl_cons]
    refine ⟨by rw [h4, h2], ?_, h6⟩
    rw [h2] at h5
    exact hs.trans h5

theorem run_good (o : LamObj) (ops : List LamOp) (hr : ∀ op ∈ ops, IsRead op)
    (h : AllOk o.lam.layup) (hc : Good o.lam o.cache) : o.run ops = ops.map (freshOut o.lam) := by
  induction ops generalizing o with
  | nil => rfl
  | cons op ops ih =>
    obtain ⟨h1, h2, h3⟩ := step_good o op h hc
    have hm : o.lam.mutate op = o.lam := by
      have := hr op (by simp)
      cases op <;> first | rfl | exact absurd this id
    rw [hm] at h2
    simp only [LamObj.run, List.map_cons, h1]
    rw [ih _ (fun q hq => hr q (by simp [hq])) (by rw [h2]; exact h) h3, h2]

/-- Every ply stiffness of the laminate can be read. -/
def Spec.Readable (l : Lam) : Prop := ∀ p ∈ l.layup, ∃ Q, p.2.Q0 = .ok Q

theorem readable_iff (l : Lam) : Readable l ↔ AllOk l.layup := by
  simp only [Readable, AllOk, plyQ_ok_iff]

/-- **C23** in every history of reads, each read returns what a fresh object would return.  (Holds
for stacks with readable plies and for all lamination-parameter laminates.) -/
theorem C23_read_order_irrelevant (l : Lam) (h : Readable l) (ops : List LamOp)
    (hr : ∀ op ∈ ops, IsRead op) : (LamObj.fresh l).run ops = ops.map (freshOut l) :=
  run_good (LamObj.fresh l) ops hr ((readable_iff l).mp h) (good_empty l)

/-- **C23** lamination-parameter laminates are always in the scope of the theorem. -/
theorem C23_dict_readable (d : LPDict) (p : Plies) (l : Lam) (h : Lam.init (.dict d) p = .ok l) :
    Readable l := by
  have : l.layup = [] := by
    unfold Lam.init at h
    cases hD : d.xiD <;> cases hT : d.T <;> simp [hD, hT] at h
    rw [← h]
  simp [Readable, this]

/-- **C28** after any history of reads and of changes to the lists passed as `stacking` and `plies`,
the stiffness getters return the values of the original laminate. -/
theorem C28_mutation_safe (l : Lam) (h : Readable l) (ops : List LamOp) (op : LamOp) (hx : ¬ IsXi op) :
    ((after (LamObj.fresh l) ops).step op).1 = freshOut l op := by
  have hall := (readable_iff l).mp h
  obtain ⟨-, h2, h3⟩ := after_good (LamObj.fresh l) ops hall (good_empty l)
  have hall' : AllOk (after (LamObj.fresh l) ops).lam.layup := by rw [h2.1]; exact hall
  rw [(step_good _ op hall' h3).1]
  have h2' : SameStiff l (after (LamObj.fresh l) ops).lam := h2
  obtain ⟨g1, g2, g3, g4, g5, g6, g7⟩ := h2'.getters
  cases op <;> first | (exact absurd trivial hx) | simp [freshOut, g1, g2, g3, g4, g5, g6, g7]

/-- **C28** the lamination parameters do follow the changed lists. -/
theorem C28_xi_follows (l : Lam) (h : Readable l) (ops : List LamOp) (op : LamOp) (hx : IsXi op) :
    ((after (LamObj.fresh l) ops).step op).1 = freshOut (ops.foldl Lam.mutate l) op := by
  have hall := (readable_iff l).mp h
  obtain ⟨h1, h2, h3⟩ := after_good (LamObj.fresh l) ops hall (good_empty l)
  have hall' : AllOk (after (LamObj.fresh l) ops).lam.layup := by rw [h2.1]; exact hall
  rw [(step_good _ op hall' h3).1, h1]
  rfl

/-- Non-vacuity for C23/C28. -/
example : ∃ l, Lam.init (.angles [0, 45, 90]) (.single carbon) = .ok l ∧ Readable l := by
  obtain ⟨l, hl, hlay⟩ := C10_single [0, 45, 90] carbon
  refine ⟨l, hl, ?_⟩
  intro p hp
  rw [hlay] at hp
  obtain ⟨a, -, rfl⟩ := List.mem_map.mp hp
  obtain ⟨-, Q, hQ, -⟩ := carbon_admissible a
  exact ⟨Q, hQ⟩

/-! ## C24 (refuted) -/

theorem not_allOk_split (L : List (ℝ × Mat)) (h : ¬ AllOk L) :
    ∃ P p S, L = P ++ p :: S ∧ AllOk P ∧ plyQ p = .error .zeroDivisionError := by
  induction L with
  | nil => exact absurd (by simp [AllOk]) h
  | cons p L ih =>
    cases hp : plyQ p with
    | error e => exact ⟨[], p, L, rfl, by simp [AllOk], by rw [hp, plyQ_err hp]⟩
    | ok Q =>
      have : ¬ AllOk L := by
        intro hL
        apply h
        intro q hq
        rcases List.mem_cons.mp hq with rfl | hq
        · exact ⟨Q, hp⟩
        · exact hL q hq
      obtain ⟨P, q, S, h1, h2, h3⟩ := ih this
      refine ⟨p :: P, q, S, by rw [h1]; rfl, ?_, h3⟩
      intro r hr
      rcases List.mem_cons.mp hr with rfl | hr
      · exact ⟨Q, hp⟩
      · exact h2 r hr

/-- **C24** what really happens for *every* stack with an unreadable ply: the first read of `A`, `B`,
`D` or `Q_layup` raises `ZeroDivisionError`; the second read of `A` (`B`, `D`) silently returns the
zero matrix and the second read of `Q_layup` returns the plies below the first unreadable one. -/
theorem C24_second_read_returns_garbage (l : Lam) (hs : IsStack l) (h : ¬ Readable l) :
    (LamObj.fresh l).run [.A, .A] = [.m3 (.error .zeroDivisionError), .m3 (.ok 0)] ∧
    (LamObj.fresh l).run [.B, .B] = [.m3 (.error .zeroDivisionError), .m3 (.ok 0)] ∧
    (LamObj.fresh l).run [.D, .D] = [.m3 (.error .zeroDivisionError), .m3 (.ok 0)] ∧
    ∃ P p S, l.layup = P ++ p :: S ∧ AllOk P ∧ (¬ ∃ Q, p.2.Q0 = .ok Q) ∧
      (LamObj.fresh l).run [.Q, .Q] =
        [.Q (.error .zeroDivisionError), .Q (.ok (P.map plyQ!))] := by
  rw [readable_iff] at h
  obtain ⟨P, p, S, h1, h2, h3⟩ := not_allOk_split _ h
  have hf : fillQ l.layup [] = (.error .zeroDivisionError, P.map plyQ!) := by
    rw [h1, fillQ_err P S p h2 _ h3]; simp
  have hA := hs.lp_none.1
  have hD := hs.lp_none.2.2.1
  refine ⟨?_, ?_, ?_, P, p, S, h1, h2, ?_, ?_⟩
  · simp [LamObj.run, LamObj.step, LamObj.fresh, readA, hA, readSlot, Cache.empty, readQ, hf]
  · simp [LamObj.run, LamObj.step, LamObj.fresh, readB, hA, readSlot, Cache.empty, readQ, hf]
  · simp [LamObj.run, LamObj.step, LamObj.fresh, readD, hD, readSlot, Cache.empty, readQ, hf]
  · rw [← plyQ_ok_iff, h3]; simp
  · simp [LamObj.run, LamObj.step, LamObj.fresh, Cache.empty, readQ, hf]

/-- An accepted material (`e1 = 1`, `e2 = 4`, `v12 = 1/2`) whose `Q_0` raises. -/
noncomputable def Spec.degenerate : Mat := .ortho ⟨1, 4, 1/2, 1, 1, 0, 0, 0, 0, 0⟩

theorem degenerate_Q0 : degenerate.Q0 = .error .zeroDivisionError :=
  (C05_Q0_raises_iff ⟨1, 4, 1/2, 1, 1, 0, 0, 0, 0, 0⟩ (by norm_num)).mpr (by norm_num)

/-- **C24** is false: a laminate whose first read of `A` raises and whose second read returns a value. -/
theorem C24_failed_read_keeps_failing_false :
    ¬ ∀ (l : Lam) (e : PyErr), (∃ s p, Lam.init s p = .ok l) →
      (LamObj.fresh l).run [.A] = [.m3 (.error e)] →
      ∃ e', (LamObj.fresh l).run [.A, .A] = [.m3 (.error e), .m3 (.error e')] := by
  intro H
  obtain ⟨l, hl, hlay⟩ := C10_single [0] degenerate
  have hn : ¬ Readable l := by
    intro h
    obtain ⟨Q, hQ⟩ := h (0, degenerate) (by simp [hlay])
    rw [degenerate_Q0] at hQ; cases hQ
  have h2 := (C24_second_read_returns_garbage l ⟨_, _, hl⟩ hn).1
  have h1 : (LamObj.fresh l).run [.A] = [.m3 (.error .zeroDivisionError)] := by
    simp only [LamObj.run, List.cons.injEq] at h2 ⊢
    exact ⟨h2.1, trivial⟩
  obtain ⟨e', h3⟩ := H l .zeroDivisionError ⟨_, _, hl⟩ h1
  rw [h2] at h3
  simp at h3

/-- **C24** what holds: without an unreadable ply there is no failed read of `Q_layup`, and a failed
read of `A` or `D` (only possible for lamination parameters) keeps failing in the same way. -/
theorem C24_failed_read_keeps_failing_partial (l : Lam) (h : Readable l) (ops : List LamOp) (op : LamOp)
    (hx : ¬ IsXi op) :
    ((after (LamObj.fresh l) ops).step op).1 = ((LamObj.fresh l).step op).1 := by
  rw [C28_mutation_safe l h ops op hx]
  exact (C28_mutation_safe l h [] op hx).symm

end Composipy
