import Verif.Props.LP
import Verif.Model.StrengthHeap

/-!
Closed forms of the strain and stress tables of a stack, and of the heap version.
-/

namespace Composipy
open Spec Matrix

theorem mapM_eq_ok {α β : Type} (f : α → Except PyErr β) (g : α → β) (l : List α)
    (h : ∀ x ∈ l, f x = .ok (g x)) : l.mapM f = .ok (l.map g) := by
  induction l with
  | nil => rfl
  | cons x l ih =>
    rw [List.mapM_cons, h x (by simp), ih fun y hy => h y (by simp [hy])]
    rfl

/-- Interface height number `i`. -/
noncomputable def Lam.zAt (l : Lam) (i : Nat) : ℝ := l.zPosition.getD i 0
/-- Angle of ply number `i`. -/
noncomputable def Lam.angleAt (l : Lam) (i : Nat) : ℝ := (l.layup.map Prod.fst).getD i 0
/-- Rotated stiffness of ply number `i`. -/
noncomputable def Lam.QAt (l : Lam) (i : Nat) : M3 := (l.layup.map plyQ!).getD i 0

theorem zPosition_length (l : Lam) : l.zPosition.length = l.layup.length + 1 := (C11_z_position l).1

theorem pyIdx_zAt (l : Lam) (i : Nat) (h : i ≤ l.layup.length) : pyIdx l.zPosition i = .ok (l.zAt i) := by
  have : i < l.zPosition.length := by rw [zPosition_length]; omega
  simp [Lam.zAt, this]

theorem list_eq_range_map {α : Type} (L : List α) (d : α) :
    L = (List.range L.length).map fun i => L.getD i d := by
  apply List.ext_getElem?
  intro i
  by_cases h : i < L.length
  · simp [h]
  · simp [List.getElem?_eq_none (Nat.le_of_not_lt h), h]

theorem IsStack.len {l : Lam} (h : IsStack l) : l.stacking.len = l.layup.length := by
  simp [h.fields.1, Stacking.len]

theorem IsStack.zPairs_eq {l : Lam} (h : IsStack l) : zPairs l.zPosition l.stacking.len =
    .ok ((List.range l.layup.length).map fun i => (l.zAt i, l.zAt (i + 1))) := by
  rw [h.len, zPairs]
  apply mapM_eq_ok
  intro i hi
  have hi' : i < l.layup.length := List.mem_range.mp hi
  simp [pyIdx_zAt l i (by omega), pyIdx_zAt l (i + 1) (by omega)]

/-- Plate-axis strain at height `z`. -/
noncomputable def strainAt (e : V6) (z : ℝ) : V3 := membrane e + z • curvature e

theorem IsStack.epsilonk_eq {l : Lam} (h : IsStack l) (N : V6) : epsilonk l N =
    (fun e => (List.range l.layup.length).map fun i => (strainAt e (l.zAt i), strainAt e (l.zAt (i + 1)))) <$>
      epsilon0 l N := by
  simp only [epsilonk, h.zPairs_eq, ok_bind]
  cases epsilon0 l N with
  | error e => rfl
  | ok e =>
    simp only [ok_bind, ok_map, pure_eq_ok, List.map_map, Except.ok.injEq]
    rfl

theorem halve_double (t : ℝ) (v : V3) : doubleShear (Treal t *ᵥ halveShear v) = Teng t *ᵥ v := by
  ext i
  fin_cases i <;>
    simp [doubleShear, halveShear, Treal, Teng, Matrix.mulVec, dotProduct, Fin.sum_univ_three] <;> ring

theorem IsStack.toAngles_eq {l : Lam} (h : IsStack l) :
    l.stacking.toAngles = .ok ((List.range l.layup.length).map l.angleAt) := by
  rw [h.fields.1, Stacking.toAngles]
  congr 1
  conv_lhs => rw [list_eq_range_map (l.layup.map Prod.fst) 0]
  simp [Lam.angleAt]

theorem IsStack.epsilonk123_eq {l : Lam} (h : IsStack l) (N : V6) : epsilonk123 l N =
    (fun e => (List.range l.layup.length).map fun i =>
      (Teng (l.angleAt i) *ᵥ strainAt e (l.zAt i), Teng (l.angleAt i) *ᵥ strainAt e (l.zAt (i + 1)))) <$>
      epsilon0 l N := by
  simp only [epsilonk123, h.epsilonk_eq, h.toAngles_eq]
  cases epsilon0 l N with
  | error e => rfl
  | ok e =>
    simp only [ok_bind, ok_map, pure_eq_ok, List.zip_map', List.map_map, Function.comp_def, halve_double]

/-- Reading `ABD` fails with `ZeroDivisionError` when a ply stiffness cannot be read. -/
theorem IsStack.epsilon0_err {l : Lam} (h : IsStack l) (N : V6) (hn : ¬ AllOk l.layup) :
    epsilon0 l N = .error .zeroDivisionError := by
  simp [epsilon0, Lam.ABD, h.A_eq, l.loopMatrix_err _ hn]

theorem IsStack.stressk_eq {l : Lam} (h : IsStack l) (N : V6) : stressk l N =
    (fun e => (List.range l.layup.length).map fun i =>
      (l.QAt i *ᵥ strainAt e (l.zAt i), l.QAt i *ᵥ strainAt e (l.zAt (i + 1)))) <$> epsilon0 l N := by
  by_cases hall : AllOk l.layup
  · simp only [stressk, l.Qlayup_ok hall, h.epsilonk_eq, ok_bind]
    cases epsilon0 l N with
    | error e => rfl
    | ok e =>
      simp only [ok_bind, ok_map, pure_eq_ok]
      conv_lhs => rw [list_eq_range_map (l.layup.map plyQ!) 0]
      simp only [List.length_map, List.zip_map', List.map_map, Function.comp_def, Lam.QAt]
  · simp [stressk, l.Qlayup_err hall, h.epsilon0_err N hall]

theorem IsStack.stressk123_eq {l : Lam} (h : IsStack l) (N : V6) : stressk123 l N =
    (fun e => (List.range l.layup.length).map fun i =>
      (Treal (l.angleAt i) *ᵥ (l.QAt i *ᵥ strainAt e (l.zAt i)),
       Treal (l.angleAt i) *ᵥ (l.QAt i *ᵥ strainAt e (l.zAt (i + 1))))) <$> epsilon0 l N := by
  simp only [stressk123, h.stressk_eq, h.toAngles_eq]
  cases epsilon0 l N with
  | error e => rfl
  | ok e => simp only [ok_bind, ok_map, pure_eq_ok, List.zip_map', List.map_map, Function.comp_def]

theorem zipIdx_range_map {α : Type} (f : Nat → α) (n : Nat) :
    ((List.range n).map f).zipIdx = (List.range n).map fun i => (f i, i) := by
  apply List.ext_getElem?
  intro i
  by_cases h : i < n
  · simp [h]
  · simp [h]

theorem fillRows_range (l : Lam) (xb xt mb mt : Nat → V3) (th : Nat → ℝ) :
    fillRows l.zPosition ((List.range l.layup.length).map fun i => (xb i, xt i))
      ((List.range l.layup.length).map fun i => (mb i, mt i)) ((List.range l.layup.length).map th) =
    .ok ((List.range l.layup.length).flatMap fun i =>
      [(⟨i + 1, l.zAt i, .bot, th i, xb i, mb i⟩ : Row), ⟨i + 1, l.zAt (i + 1), .top, th i, xt i, mt i⟩]) := by
  simp only [fillRows, List.zip_map', zipIdx_range_map]
  rw [mapM_eq_ok _ (fun p =>
    [(⟨p.2 + 1, l.zAt p.2, .bot, p.1.2.2, p.1.1.1, p.1.2.1.1⟩ : Row),
     ⟨p.2 + 1, l.zAt (p.2 + 1), .top, p.1.2.2, p.1.1.2, p.1.2.1.2⟩])]
  · simp only [ok_bind, pure_eq_ok, List.map_map, Function.comp_def, List.flatMap_def]
  · intro p hp
    obtain ⟨i, hi, rfl⟩ := List.mem_map.mp hp
    have hi' : i < l.layup.length := List.mem_range.mp hi
    simp [pyIdx_zAt l i (by omega), pyIdx_zAt l (i + 1) (by omega)]

/-- The strain table of a stack. -/
noncomputable def strainRows (l : Lam) (e : V6) : List Row :=
  (List.range l.layup.length).flatMap fun i =>
    [⟨i + 1, l.zAt i, .bot, l.angleAt i, strainAt e (l.zAt i), Teng (l.angleAt i) *ᵥ strainAt e (l.zAt i)⟩,
     ⟨i + 1, l.zAt (i + 1), .top, l.angleAt i, strainAt e (l.zAt (i + 1)),
      Teng (l.angleAt i) *ᵥ strainAt e (l.zAt (i + 1))⟩]

/-- The stress table of a stack. -/
noncomputable def stressRows (l : Lam) (e : V6) : List Row :=
  (List.range l.layup.length).flatMap fun i =>
    [⟨i + 1, l.zAt i, .bot, l.angleAt i, l.QAt i *ᵥ strainAt e (l.zAt i),
      Treal (l.angleAt i) *ᵥ (l.QAt i *ᵥ strainAt e (l.zAt i))⟩,
     ⟨i + 1, l.zAt (i + 1), .top, l.angleAt i, l.QAt i *ᵥ strainAt e (l.zAt (i + 1)),
      Treal (l.angleAt i) *ᵥ (l.QAt i *ᵥ strainAt e (l.zAt (i + 1)))⟩]

theorem IsStack.strain_eq {l : Lam} (h : IsStack l) (N : V6) :
    calculateStrain l N = strainRows l <$> epsilon0 l N := by
  simp only [calculateStrain, h.epsilonk_eq, h.epsilonk123_eq, h.toAngles_eq]
  cases epsilon0 l N with
  | error e => rfl
  | ok e =>
    simp only [ok_bind, ok_map]
    exact fillRows_range l _ _ _ _ _

theorem IsStack.stress_eq {l : Lam} (h : IsStack l) (N : V6) :
    calculateStress l N = stressRows l <$> epsilon0 l N := by
  simp only [calculateStress, h.stressk_eq, h.stressk123_eq, h.toAngles_eq]
  cases epsilon0 l N with
  | error e => rfl
  | ok e =>
    simp only [ok_bind, ok_map]
    exact fillRows_range l _ _ _ _ _

theorem flatMap_pair_length {α : Type} (a b : Nat → α) (n : Nat) :
    ((List.range n).flatMap fun i => [a i, b i]).length = 2 * n := by
  simp [List.length_flatMap]; omega

theorem flatMap_pair_get {α : Type} (a b : Nat → α) (n k : Nat) (h : k < n) :
    ((List.range n).flatMap fun i => [a i, b i])[2 * k]? = some (a k) ∧
    ((List.range n).flatMap fun i => [a i, b i])[2 * k + 1]? = some (b k) := by
  induction n with
  | zero => omega
  | succ n ih =>
    rw [List.range_succ, List.flatMap_append]
    by_cases hk : k < n
    · rw [List.getElem?_append_left (by rw [flatMap_pair_length]; omega),
        List.getElem?_append_left (by rw [flatMap_pair_length]; omega)]
      exact ih hk
    · have : k = n := by omega
      subst this
      rw [List.getElem?_append_right (by rw [flatMap_pair_length]),
        List.getElem?_append_right (by rw [flatMap_pair_length]; omega), flatMap_pair_length]
      simp

theorem IsStack.angleAt_eq {l : Lam} (k : Nat) (hk : k < l.layup.length) : l.angleAt k = (l.layup[k]).1 := by
  simp [Lam.angleAt, hk]

theorem Lam.QAt_eq (l : Lam) (k : Nat) (hk : k < l.layup.length) : l.QAt k = plyQ! (l.layup[k]) := by
  simp [Lam.QAt, hk]

/-! ### Heap -/

namespace Heap

theorem get_append_old (h : Heap) (v : V3) (a : Nat) (ha : a < h.length) : Heap.get (h ++ [v]) a = h.get a := by
  simp [Heap.get, List.getElem?_append_left ha]

theorem get_append_new (h : Heap) (v : V3) : Heap.get (h ++ [v]) h.length = v := by
  simp [Heap.get]

theorem get_modify_self (h : Heap) (a : Nat) (f : V3 → V3) (ha : a < h.length) :
    (h.modify a f).get a = f (h.get a) := by
  simp only [Heap.modify, Heap.get, List.getD_eq_getElem?_getD]
  rw [List.getElem?_set_self ha]; rfl

theorem get_modify_ne (h : Heap) (a b : Nat) (f : V3 → V3) (hab : a ≠ b) :
    (h.modify a f).get b = h.get b := by
  simp only [Heap.modify, Heap.get, List.getD_eq_getElem?_getD]
  rw [List.getElem?_set_ne hab]

@[simp] theorem length_modify (h : Heap) (a : Nat) (f : V3 → V3) : (h.modify a f).length = h.length := by
  simp [Heap.modify]

end Heap

/-- All addresses in a list of pairs. -/
def addrs (r : List (Nat × Nat)) : List Nat := r.flatMap fun p => [p.1, p.2]

theorem hEpsLoop_spec (eps kap : V3) (zs : List (ℝ × ℝ)) (h : Heap) :
    let r := (hEpsLoop eps kap zs h).1
    let h' := (hEpsLoop eps kap zs h).2
    h.length ≤ h'.length ∧ (∀ a, a < h.length → h'.get a = h.get a) ∧
    (∀ a ∈ addrs r, h.length ≤ a ∧ a < h'.length) ∧ (addrs r).Nodup ∧
    h'.pairs r = zs.map fun p => (eps + p.1 • kap, eps + p.2 • kap) := by
  induction zs generalizing h with
  | nil => simp [hEpsLoop, addrs, Heap.pairs]
  | cons p zs ih =>
    obtain ⟨zt, zb⟩ := p
    simp only [hEpsLoop, alloc]
    set h2 : Heap := (h ++ [eps + zt • kap]) ++ [eps + zb • kap] with hh2
    obtain ⟨i1, i2, i3, i4, i5⟩ := ih h2
    have hl : h2.length = h.length + 2 := by simp [hh2]
    have g1 : h2.get h.length = eps + zt • kap := by
      rw [hh2, Heap.get_append_old _ _ _ (by simp), Heap.get_append_new]
    have g2 : h2.get (h.length + 1) = eps + zb • kap := by
      have := Heap.get_append_new (h ++ [eps + zt • kap]) (eps + zb • kap)
      simpa [hh2] using this
    have g0 : ∀ a, a < h.length → h2.get a = h.get a := by
      intro a ha
      rw [hh2, Heap.get_append_old _ _ _ (by simp; omega), Heap.get_append_old _ _ _ ha]
    have hsnd : (h ++ [eps + zt • kap]).length = h.length + 1 := by simp
    rw [hsnd]
    refine ⟨by omega, ?_, ?_, ?_, ?_⟩
    · intro a ha
      rw [i2 a (by omega), g0 a ha]
    · intro a ha
      simp only [addrs, List.flatMap_cons, List.mem_append, List.mem_cons, List.not_mem_nil, or_false] at ha
      rcases ha with (rfl | rfl) | ha
      · omega
      · omega
      · have := i3 a ha; omega
    · simp only [addrs, List.flatMap_cons, List.cons_append, List.nil_append, List.nodup_cons,
        List.mem_cons, not_or]
      refine ⟨⟨by omega, fun ha => ?_⟩, fun ha => ?_, i4⟩
      · have := i3 _ ha; omega
      · have := i3 _ ha; omega
    · simp only [Heap.pairs, List.map_cons]
      rw [i2 _ (by omega), i2 _ (by omega), g1, g2]
      congr 1

theorem h123Loop_spec (ps : List (ℝ × (Nat × Nat))) (h : Heap)
    (hlt : ∀ a ∈ addrs (ps.map Prod.snd), a < h.length) (hnd : (addrs (ps.map Prod.snd)).Nodup) :
    let r := (h123Loop ps h).1
    let h' := (h123Loop ps h).2
    h.length ≤ h'.length ∧
    (∀ a, a < h.length → a ∉ addrs (ps.map Prod.snd) → h'.get a = h.get a) ∧
    h'.pairs r = ps.map fun p => (doubleShear (Treal p.1 *ᵥ halveShear (h.get p.2.1)),
      doubleShear (Treal p.1 *ᵥ halveShear (h.get p.2.2))) := by
  induction ps generalizing h with
  | nil => simp [h123Loop, Heap.pairs]
  | cons p ps ih =>
    obtain ⟨theta, t, b⟩ := p
    simp only [List.map_cons, addrs, List.flatMap_cons, List.cons_append, List.nil_append,
      List.nodup_cons, List.mem_cons, not_or] at hlt hnd
    obtain ⟨⟨htb, htr⟩, hbr, hnd⟩ := hnd
    have ht : t < h.length := hlt t (by simp)
    have hb : b < h.length := hlt b (by simp)
    simp only [h123Loop, alloc]
    set h2 : Heap := (h.modify t halveShear).modify b halveShear with hh2
    have l2 : h2.length = h.length := by simp [hh2]
    have v2t : h2.get t = halveShear (h.get t) := by
      rw [hh2, Heap.get_modify_ne _ _ _ _ (Ne.symm htb), Heap.get_modify_self _ _ _ ht]
    have v2b : h2.get b = halveShear (h.get b) := by
      rw [hh2, Heap.get_modify_self _ _ _ (by simpa using hb), Heap.get_modify_ne _ _ _ _ htb]
    have v2 : ∀ a, a ≠ t → a ≠ b → h2.get a = h.get a := by
      intro a h1 h1'
      rw [hh2, Heap.get_modify_ne _ _ _ _ (Ne.symm h1'), Heap.get_modify_ne _ _ _ _ (Ne.symm h1)]
    set wt := Treal theta *ᵥ h2.get t with hwt
    set h3 : Heap := h2 ++ [wt] with hh3
    have l3 : h3.length = h.length + 1 := by simp [hh3, l2]
    have v3b : h3.get b = h2.get b := by rw [hh3, Heap.get_append_old _ _ _ (by omega)]
    rw [v3b]
    set wb := Treal theta *ᵥ h2.get b with hwb
    set h4 : Heap := h3 ++ [wb] with hh4
    have l4 : h4.length = h.length + 2 := by simp [hh4, l3]
    have v4t : h4.get h2.length = wt := by
      rw [hh4, Heap.get_append_old _ _ _ (by omega), hh3, Heap.get_append_new]
    have v4b : h4.get h3.length = wb := by rw [hh4, Heap.get_append_new]
    have v4 : ∀ a, a < h.length → h4.get a = h2.get a := by
      intro a ha
      rw [hh4, Heap.get_append_old _ _ _ (by omega), hh3, Heap.get_append_old _ _ _ (by omega)]
    set h6 : Heap := (h4.modify h2.length doubleShear).modify h3.length doubleShear with hh6
    have l6 : h6.length = h.length + 2 := by simp [hh6, l4]
    have v6t : h6.get h2.length = doubleShear wt := by
      rw [hh6, Heap.get_modify_ne _ _ _ _ (by omega), Heap.get_modify_self _ _ _ (by omega), v4t]
    have v6b : h6.get h3.length = doubleShear wb := by
      rw [hh6, Heap.get_modify_self _ _ _ (by rw [Heap.length_modify]; omega),
        Heap.get_modify_ne _ _ _ _ (by omega), v4b]
    have v6 : ∀ a, a < h.length → h6.get a = h2.get a := by
      intro a ha
      rw [hh6, Heap.get_modify_ne _ _ _ _ (by omega), Heap.get_modify_ne _ _ _ _ (by omega), v4 a ha]
    have hlt' : ∀ a ∈ addrs (ps.map Prod.snd), a < h.length := by
      intro a ha
      exact hlt a (Or.inr (Or.inr ha))
    obtain ⟨i1, i2, i3⟩ := ih h6 (fun a ha => by have := hlt' a ha; omega) hnd
    refine ⟨by omega, ?_, ?_⟩
    · intro a ha hna
      simp only [addrs, List.map_cons, List.flatMap_cons, List.cons_append, List.nil_append,
        List.mem_cons, not_or] at hna
      rw [i2 a (by omega) hna.2.2, v6 a ha, v2 a hna.1 hna.2.1]
    · simp only [Heap.pairs, List.map_cons]
      rw [i2 _ (by omega) (fun hc => by have := hlt' _ hc; omega),
        i2 _ (by omega) (fun hc => by have := hlt' _ hc; omega), v6t, v6b, hwt, hwb, v2t, v2b]
      congr 1
      rw [← Heap.pairs, i3]
      apply List.map_congr_left
      intro q hq
      have m1 : q.2.1 ∈ addrs (ps.map Prod.snd) :=
        List.mem_flatMap.mpr ⟨q.2, List.mem_map_of_mem hq, by simp⟩
      have m2 : q.2.2 ∈ addrs (ps.map Prod.snd) :=
        List.mem_flatMap.mpr ⟨q.2, List.mem_map_of_mem hq, by simp⟩
      rw [v6 _ (hlt' _ m1), v6 _ (hlt' _ m2),
        v2 _ (fun hc => htr (hc ▸ m1)) (fun hc => hbr (hc ▸ m1)),
        v2 _ (fun hc => htr (hc ▸ m2)) (fun hc => hbr (hc ▸ m2))]

theorem pairs_length (h : Heap) (r : List (Nat × Nat)) : (h.pairs r).length = r.length := by
  simp [Heap.pairs]

/-- The heap version of `calculate_strain` returns the value version, from any heap. -/
theorem hCalculateStrain_eq (l : Lam) (N : V6) (h : Heap) :
    (hCalculateStrain l N h).1 = calculateStrain l N := by
  simp only [hCalculateStrain, hEpsilonk123, hEpsilonk, calculateStrain, epsilonk, epsilonk123]
  cases hz : zPairs l.zPosition l.stacking.len with
  | error e => simp
  | ok zmid =>
    cases he : epsilon0 l N with
    | error e => simp
    | ok e =>
      simp only [ok_bind, pure_eq_ok]
      cases ha : l.stacking.toAngles with
      | error e => simp
      | ok angles =>
        simp only [ok_bind]
        obtain ⟨a1, a2, a3, a4, a5⟩ := hEpsLoop_spec (membrane e) (curvature e) zmid h
        generalize hr1 : hEpsLoop (membrane e) (curvature e) zmid h = R1 at *
        obtain ⟨r1, h1⟩ := R1
        obtain ⟨b1, b2, b3, b4, b5⟩ := hEpsLoop_spec (membrane e) (curvature e) zmid h1
        generalize hr2 : hEpsLoop (membrane e) (curvature e) zmid h1 = R2 at *
        obtain ⟨r2, h2⟩ := R2
        have hsub : List.Sublist (addrs ((angles.zip r2).map Prod.snd)) (addrs r2) := by
          have : List.Sublist ((angles.zip r2).map Prod.snd) r2 := by
            clear * -
            induction angles generalizing r2 with
            | nil => simp
            | cons x xs ih =>
              cases r2 with
              | nil => simp
              | cons y ys => simpa using ih ys
          exact this.flatMap _
        obtain ⟨c1, c2, c3⟩ := h123Loop_spec (angles.zip r2) h2
          (fun a ha => (b3 a (hsub.subset ha)).2) (hsub.nodup b4)
        generalize hr3 : h123Loop (angles.zip r2) h2 = R3 at *
        obtain ⟨r3, h3⟩ := R3
        simp only at a1 a2 a3 a4 a5 b1 b2 b3 b4 b5 c1 c2 c3 ⊢
        have e1 : h3.pairs r1 = zmid.map fun p =>
            (membrane e + p.1 • curvature e, membrane e + p.2 • curvature e) := by
          rw [← a5]
          simp only [Heap.pairs]
          apply List.map_congr_left
          intro p hp
          have old : ∀ a ∈ addrs r1, h3.get a = h1.get a := by
            intro a ha
            have := (a3 a ha).2
            rw [c2 a (by omega) (fun hc => by have := (b3 a (hsub.subset hc)).1; omega), b2 a this]
          rw [old p.1 (List.mem_flatMap.mpr ⟨p, hp, by simp⟩),
            old p.2 (List.mem_flatMap.mpr ⟨p, hp, by simp⟩)]
        have e2 : h3.pairs r3 = (angles.zip (zmid.map fun p =>
            (membrane e + p.1 • curvature e, membrane e + p.2 • curvature e))).map fun p =>
              (doubleShear (Treal p.1 *ᵥ halveShear p.2.1), doubleShear (Treal p.1 *ᵥ halveShear p.2.2)) := by
          rw [c3, ← b5, Heap.pairs, List.zip_map_right, List.map_map]
          rfl
        rw [e1, e2]

end Composipy
