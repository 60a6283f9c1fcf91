import Verif.Props.Optimum
import Mathlib.Topology.Semicontinuity.Basic

/-!
# C104: critical loads are concave; local optima of the optimisers are global

For a given load the smallest positive multiplier is a concave function of the stiffness, hence of the lamination parameters; the loads a
plate carries form a convex set.  So `maximize_buckling_load` maximises a concave function over a convex set, and `minimize_panel_weight`
minimises an increasing function of the thickness over a convex set.
-/

namespace Composipy
open Spec Matrix

/-- All positive multipliers are at least `l`: the plate carries `l` times the load. -/
def Spec.Carries {N : ℕ} (K KG : SqMat N) (l : ℝ) : Prop := ∀ nu, PosMult K KG nu → l ≤ nu

theorem carries_iff {N : ℕ} {K KG : SqMat N} (hK : K.PosDef) (hG : KG.IsSymm) {l : ℝ} (hl : 0 ≤ l) :
    Carries K KG l ↔ ∀ c, 0 ≤ c ⬝ᵥ K.mulVec c + l * (c ⬝ᵥ KG.mulVec c) := by
  constructor
  · intro h c
    by_contra hcon
    push Not at hcon
    have hc : c ≠ 0 := by
      rintro rfl
      simp at hcon
    have hE : 0 < c ⬝ᵥ K.mulVec c := by simpa using hK.dotProduct_mulVec_pos hc
    set E := c ⬝ᵥ K.mulVec c
    set W := c ⬝ᵥ KG.mulVec c
    have hW : W < 0 := by
      by_contra hW
      push Not at hW
      have := mul_nonneg hl hW
      linarith
    have hq : E / -W < l := by
      rw [div_lt_iff₀ (by linarith)]
      linarith
    obtain ⟨nu, hle, hnu⟩ := posMult_le hK hG hc (lam := E / -W) (div_pos hE (by linarith)) (le_of_eq (by
      show E + E / -W * W = 0
      have := hW.ne
      field_simp
      ring))
    have := h nu hnu
    linarith
  · rintro h nu ⟨hnu, v, hv, he⟩
    have h1 := h v
    have hE : 0 < v ⬝ᵥ K.mulVec v := by simpa using hK.dotProduct_mulVec_pos hv
    have h2 : v ⬝ᵥ K.mulVec v + nu * (v ⬝ᵥ KG.mulVec v) = 0 := by
      have := congrArg (v ⬝ᵥ ·) he
      simpa [add_mulVec, smul_mulVec, dotProduct_add] using this
    set E := v ⬝ᵥ K.mulVec v
    set W := v ⬝ᵥ KG.mulVec v
    have hW : W < 0 := by
      by_contra hW
      push Not at hW
      have := mul_nonneg hnu.le hW
      linarith
    nlinarith

theorem form_lin {N : ℕ} (s t : ℝ) (A B : SqMat N) (c : Fin N → ℝ) :
    c ⬝ᵥ (s • A + t • B).mulVec c = s * (c ⬝ᵥ A.mulVec c) + t * (c ⬝ᵥ B.mulVec c) := by
  simp [add_mulVec, smul_mulVec, dotProduct_add]

theorem posDef_lin {N : ℕ} {A B : SqMat N} (hA : A.PosDef) (hB : B.PosDef) {s t : ℝ} (hs : 0 ≤ s) (ht : 0 ≤ t) (hst : 0 < s + t) :
    (s • A + t • B).PosDef := by
  rcases hs.eq_or_lt with rfl | hs
  · rw [zero_smul, zero_add]
    exact hB.smul (by linarith)
  · exact (hA.smul hs).add_posSemidef (hB.posSemidef.smul ht)

/-- **C104** plates and loads: a combination with non-negative factors of stiffnesses, and of the loads they carry, is a stiffness that carries
the load.  In particular the loads a plate carries form a convex set. -/
theorem C104_mix (D1 D2 : M3) (cs : Constraints) (p : PlateNum) (Mxx Myy Mxy : ℝ) (hm : 1 ≤ p.m) (hn : 1 ≤ p.n) (K1 KG1 K2 KG2 : SqMat (p.m * p.n))
    (h1 : calcKKGD shipped (.ok D1) cs p = .ok (K1, KG1))
    (h2 : calcKKGD shipped (.ok D2) cs { p with Nxx := Mxx, Nyy := Myy, Nxy := Mxy } = .ok (K2, KG2)) (d1 : K1.PosDef) (d2 : K2.PosDef)
    (c1 : Carries K1 KG1 1) (c2 : Carries K2 KG2 1) (s t : ℝ) (hs : 0 ≤ s) (ht : 0 ≤ t) (hst : 0 < s + t) :
    ∃ K KG : SqMat (p.m * p.n), calcKKGD shipped (.ok (s • D1 + t • D2)) cs
        { p with Nxx := s * p.Nxx + t * Mxx, Nyy := s * p.Nyy + t * Myy, Nxy := s * p.Nxy + t * Mxy } = .ok (K, KG) ∧
      K.PosDef ∧ Carries K KG 1 := by
  obtain ⟨K2', KG2', h2', h3, -⟩ := C50_linear D1 D2 cs p Mxx Myy Mxy s t hm hn K1 KG1 h1
  obtain ⟨rfl, rfl⟩ := Prod.mk.inj (Except.ok.inj (h2.symm.trans h2'))
  have g1 := (C48_symmetric _ _ p hm hn K1 KG1 h1).2
  have g2 := (C48_symmetric _ _ { p with Nxx := Mxx, Nyy := Myy, Nxy := Mxy } hm hn K2 KG2 h2).2
  have g3 := (C48_symmetric _ _ { p with Nxx := s * p.Nxx + t * Mxx, Nyy := s * p.Nyy + t * Myy, Nxy := s * p.Nxy + t * Mxy } hm hn _ _ h3).2
  have hpd := posDef_lin d1 d2 hs ht hst
  refine ⟨_, _, h3, hpd, (carries_iff hpd g3 zero_le_one).mpr fun c => ?_⟩
  have e1 := mul_nonneg hs ((carries_iff d1 g1 zero_le_one).mp c1 c)
  have e2 := mul_nonneg ht ((carries_iff d2 g2 zero_le_one).mp c2 c)
  rw [form_lin, form_lin]
  linarith

/-- **C104** for a given load, what a plate carries is a concave function of its stiffness. -/
theorem C104_concave (D1 D2 : M3) (cs : Constraints) (p : PlateNum) (hm : 1 ≤ p.m) (hn : 1 ≤ p.n) (K1 K2 KG : SqMat (p.m * p.n))
    (h1 : calcKKGD shipped (.ok D1) cs p = .ok (K1, KG)) (h2 : calcKKGD shipped (.ok D2) cs p = .ok (K2, KG)) (d1 : K1.PosDef) (d2 : K2.PosDef)
    (l1 l2 : ℝ) (hl1 : 0 ≤ l1) (hl2 : 0 ≤ l2) (c1 : Carries K1 KG l1) (c2 : Carries K2 KG l2) (s t : ℝ) (hs : 0 ≤ s) (ht : 0 ≤ t) (hst : s + t = 1) :
    ∃ K, calcKKGD shipped (.ok (s • D1 + t • D2)) cs p = .ok (K, KG) ∧ K.PosDef ∧ Carries K KG (s * l1 + t * l2) := by
  have hG := (C48_symmetric _ _ p hm hn K1 KG h1).2
  have hpd := posDef_lin d1 d2 hs ht (by linarith)
  have h3 : calcKKGD shipped (.ok (s • D1 + t • D2)) cs p = .ok (s • K1 + t • K2, KG) := by
    obtain ⟨D, i, hD, hi, ha, hb, hr, hK1, hKG⟩ := calcKKGD_inv hm hn h1
    obtain ⟨D', i', hD', hi', -, -, -, hK2, -⟩ := calcKKGD_inv hm hn h2
    obtain rfl := Except.ok.inj hD
    obtain rfl := Except.ok.inj hD'
    obtain rfl := Except.ok.inj (hi.symm.trans hi')
    rw [calcKKGD_ok shipped_ok _ cs p i hi ha hb hr, kMat_lin, ← hK1, ← hK2, ← hKG]
  refine ⟨_, h3, hpd, (carries_iff hpd hG (by positivity)).mpr fun c => ?_⟩
  have e1 := mul_nonneg hs ((carries_iff d1 hG hl1).mp c1 c)
  have e2 := mul_nonneg ht ((carries_iff d2 hG hl2).mp c2 c)
  rw [form_lin]
  linarith

/-! ## Panels -/

theorem panelD_inv {g : Panel} {T x1 x3 : ℝ} {D : M3} (h : panelD g T x1 x3 = .ok D) : ∃ U, (panelMat g).invariants = .ok U := by
  cases hU : (panelMat g).invariants with
  | ok U => exact ⟨U, rfl⟩
  | error e =>
    exfalso
    have hU' : (Plies.single (panelMat g)).invariants = .error e := hU
    simp [panelD, Lam.init, Lam.D, lpD, hU'] at h

/-- The matrices of all designs of a panel. -/
theorem panel_form (g : Panel) (hg : PanelOk g) (x y s T x1 x3 : ℝ) (K KG : SqMat (g.m * g.n))
    (h : calcKKGD shipped (panelD g T x1 x3) g.c (panelPlate g x y s) = .ok (K, KG)) :
    ∃ K0 K1 K3 : SqMat (g.m * g.n), ∀ T x1 x3, calcKKGD shipped (panelD g T x1 x3) g.c (panelPlate g x y s)
      = .ok (T ^ 3 • (K0 + x1 • K1 + x3 • K3), KG) := by
  have hm : 1 ≤ (panelPlate g x y s).m := hg.2.2.2.2.2.2.1
  have hn : 1 ≤ (panelPlate g x y s).n := hg.2.2.2.2.2.2.2
  obtain ⟨D, i, hD, hi, ha, hb, hr, rfl, rfl⟩ := calcKKGD_inv hm hn h
  obtain ⟨U, hU⟩ := panelD_inv hD
  set P := panelPlate g x y s
  let k : M3 → SqMat (P.m * P.n) := fun D => kMat shippedV P.a P.b D i.w (P.m * P.n)
  let L : ℝ → ℝ → M3 := fun x1 x3 => lpStiffness (1 / 12) U ![x1, 0, x3, 0]
  refine ⟨k (L 0 0), k (L 1 0 - L 0 0), k (L 0 1 - L 0 0), fun T x1 x3 => ?_⟩
  rw [panelD_eq g U hU, calcKKGD_ok shipped_ok _ g.c P i hi ha hb hr]
  have e : lpStiffness (T ^ 3 / 12) U ![x1, 0, x3, 0] = T ^ 3 • ((1 : ℝ) • L 0 0 + (1 : ℝ) • (x1 • (L 1 0 - L 0 0) + x3 • (L 0 1 - L 0 0))) := by
    ext i j
    fin_cases i <;> fin_cases j <;> simp [L, lpStiffness, invariantQ] <;> ring
  have e2 : kMat shippedV P.a P.b (lpStiffness (T ^ 3 / 12) U ![x1, 0, x3, 0]) i.w (P.m * P.n)
      = T ^ 3 • (k (L 0 0) + x1 • k (L 1 0 - L 0 0) + x3 • k (L 0 1 - L 0 0)) := by
    rw [e, kMat_smul, kMat_lin, kMat_lin, one_smul, one_smul, add_assoc]
  rw [e2]
  rfl

/-- A design whose matrices can be computed, with definite stiffness, that can buckle and carries the (normalised) load. -/
def Spec.Sound (g : Panel) (T x1 x3 x y s : ℝ) : Prop :=
  ∃ K KG : SqMat (g.m * g.n), calcKKGD shipped (panelD g T x1 x3) g.c (panelPlate g x y s) = .ok (K, KG) ∧ K.PosDef ∧
    (∃ nu, PosMult K KG nu) ∧ Carries K KG 1

/-- What the optimisers get for a design with definite stiffness. -/
theorem ncr_first (S : EigSolver) (hS : GoodSolver S) (g : Panel) (hg : PanelOk g) (h2 : 2 < g.m * g.n) (T x1 x3 x y s : ℝ)
    (K KG : SqMat (g.m * g.n)) (hK : calcKKGD shipped (panelD g T x1 x3) g.c (panelPlate g x y s) = .ok (K, KG)) (hpd : K.PosDef) :
    ∃ vals vecs e, (bucklingAnalysis S (panelD g T x1 x3) g.c (panelPlate g x y s) 5 (.fresh _)).1 = .ok (vals, vecs) ∧
      vals[0]? = some e ∧ ncrFromLp S g T x1 x3 x y s = .ok e ∧ KG.IsSymm ∧ Honest S KG K ∧
      ∀ k out, S _ KG K k = .ok out → CayleySorted out := by
  have hm : 1 ≤ (panelPlate g x y s).m := hg.2.2.2.2.2.2.1
  have hn : 1 ≤ (panelPlate g x y s).n := hg.2.2.2.2.2.2.2
  have hsy := (C48_symmetric _ _ (panelPlate g x y s) hm hn K KG hK).2
  obtain ⟨s1, s2, s3⟩ := hS _ KG K hsy hpd
  obtain ⟨D, i, hD, hi, -, -, -, -, -⟩ := calcKKGD_inv hm hn hK
  set k := min (5 : ℤ) (((g.m * g.n : ℕ) : ℤ) - 2) with hk
  have hk1 : ¬ k ≤ 0 := by omega
  have hkN : k.toNat ≤ g.m * g.n := by omega
  obtain ⟨out, ho⟩ := s3 k.toNat hkN
  have hrun : (bucklingAnalysis S (panelD g T x1 x3) g.c (panelPlate g x y s) 5 (.fresh _)).1
      = .ok (out.map fun q => npDiv (-1) q.1, out.map Prod.snd) := by
    have hk' : min (5 : ℤ) ((((panelPlate g x y s).m * (panelPlate g x y s).n : ℕ) : ℤ) - 2) = k := rfl
    rw [hD] at hK ⊢
    have ho' : S ((panelPlate g x y s).m * (panelPlate g x y s).n) KG K k.toNat = .ok out := ho
    simp only [bucklingAnalysis, hi, hK, eigshCall, hk', if_neg hk1]
    rw [ho']
    rfl
  have hlen := (s1 _ _ ho).len
  cases hout : out with
  | nil => rw [hout] at hlen; simp at hlen; omega
  | cons q rest =>
    rw [hout] at hrun
    refine ⟨_, _, npDiv (-1) q.1, hrun, rfl, ?_, hsy, s1, s2⟩
    rw [ncr_eq S g hg, hrun]
    rfl

theorem ncr_sound (S : EigSolver) (hS : GoodSolver S) (g : Panel) (hg : PanelOk g) (h2 : 2 < g.m * g.n) (T x1 x3 x y s : ℝ)
    (K KG : SqMat (g.m * g.n)) (hK : calcKKGD shipped (panelD g T x1 x3) g.c (panelPlate g x y s) = .ok (K, KG)) (hpd : K.PosDef)
    (hex : ∃ nu, PosMult K KG nu) (hc : Carries K KG 1) :
    ∃ lam, ncrFromLp S g T x1 x3 x y s = .ok (.fin lam) ∧ PosMult K KG lam ∧ Carries K KG lam := by
  obtain ⟨vals, vecs, e, hrun, he, hn, hsy, s1, s2⟩ := ncr_first S hS g hg h2 T x1 x3 x y s K KG hK hpd
  obtain ⟨lam0, h0, hmin⟩ := exists_min_posMult hpd hsy hex
  have hhead := head_critical hrun hK s1 s2 h0 hmin (hc _ h0)
  rw [he] at hhead
  obtain rfl := Option.some.inj hhead
  exact ⟨lam0, hn, h0, hmin⟩

/-! ## Minima of the problems given to `minimize` -/

/-- Within the bounds and satisfying all constraints. -/
def Spec.Feas (prob : MinProblem) (x : List ℝ) : Prop := InBounds prob.bounds x ∧ ∀ c ∈ prob.cons, Satisfied c x

/-- A feasible point of `A` where the objective is finite and not larger than at the feasible points of `A` close by. -/
def Spec.LocalMinOn (prob : MinProblem) (A : Set (List ℝ)) (x : List ℝ) : Prop :=
  x ∈ A ∧ Feas prob x ∧ ∃ o, prob.obj x = .ok (.fin o) ∧ ∃ eps > (0 : ℝ), ∀ z ∈ A, Feas prob z →
    List.Forall₂ (fun a b => |a - b| < eps) x z → ∀ o', prob.obj z = .ok (.fin o') → o ≤ o'

/-- A feasible point of `A` where the objective is finite and not larger than at the other feasible points of `A`. -/
def Spec.GlobalMinOn (prob : MinProblem) (A : Set (List ℝ)) (x : List ℝ) : Prop :=
  x ∈ A ∧ Feas prob x ∧ ∃ o, prob.obj x = .ok (.fin o) ∧ ∀ z ∈ A, Feas prob z → ∀ o', prob.obj z = .ok (.fin o') → o ≤ o'

theorem small_step (a b : ℝ) {eps : ℝ} (heps : 0 < eps) : ∃ t0 > (0 : ℝ), ∀ t, 0 ≤ t → t < t0 → |a - ((1 - t) * a + t * b)| < eps := by
  refine ⟨eps / (|a - b| + 1), by positivity, fun t h0 ht => ?_⟩
  rw [lt_div_iff₀ (by positivity)] at ht
  rw [show a - ((1 - t) * a + t * b) = t * (a - b) by ring, abs_mul, abs_of_nonneg h0]
  linarith

/-- The form of the design `(x1, x3)`. -/
theorem design_form {N : ℕ} (T3 : ℝ) (K0 K1 K3 : SqMat N) (x1 x3 : ℝ) (c : Fin N → ℝ) :
    c ⬝ᵥ (T3 • (K0 + x1 • K1 + x3 • K3)).mulVec c
      = T3 * (c ⬝ᵥ K0.mulVec c + x1 * (c ⬝ᵥ K1.mulVec c) + x3 * (c ⬝ᵥ K3.mulVec c)) := by
  simp [add_mulVec, smul_mulVec, dotProduct_add, mul_add]

theorem forall₂_two {α β : Type*} {R : α → β → Prop} {a b : α} {l : List β} (h : List.Forall₂ R [a, b] l) :
    ∃ x y, l = [x, y] ∧ R a x ∧ R b y := by
  cases h with
  | cons h1 h' =>
    cases h' with
    | cons h2 h'' =>
      cases h''
      exact ⟨_, _, rfl, h1, h2⟩

theorem forall₂_three {α β : Type*} {R : α → β → Prop} {a b c : α} {l : List β} (h : List.Forall₂ R [a, b, c] l) :
    ∃ x y z, l = [x, y, z] ∧ R a x ∧ R b y ∧ R c z := by
  cases h with
  | cons h1 h' =>
    obtain ⟨y, z, rfl, h2, h3⟩ := forall₂_two h'
    exact ⟨_, _, _, rfl, h1, h2, h3⟩

/-- The feasible designs of `maximize_buckling_load`. -/
def Spec.MaxSet (pen : Bool) : Set (ℝ × ℝ) :=
  {q | ((-1 ≤ q.1 ∧ q.1 ≤ 1) ∧ -1 ≤ q.2 ∧ q.2 ≤ 1) ∧
    if pen then -0.0001 ≤ q.2 + 2 * q.1 + 1 ∧ -0.0001 ≤ q.2 - 2 * q.1 + 1 else -0.0001 ≤ q.2 - 2 * q.1 ^ 2 + 1}

theorem maxSet_mix (pen : Bool) {p q : ℝ × ℝ} (hp : p ∈ MaxSet pen) (hq : q ∈ MaxSet pen) {s t : ℝ} (hs : 0 ≤ s) (ht : 0 ≤ t) (hst : s + t = 1) :
    (s * p.1 + t * q.1, s * p.2 + t * q.2) ∈ MaxSet pen := by
  obtain ⟨⟨⟨a1, a2⟩, a3, a4⟩, a5⟩ := hp
  obtain ⟨⟨⟨b1, b2⟩, b3, b4⟩, b5⟩ := hq
  obtain rfl : t = 1 - s := by linarith
  have m : ∀ {u v w : ℝ}, w ≤ u → w ≤ v → w ≤ s * u + (1 - s) * v := fun {u v w} hu hv => by
    have := mul_le_mul_of_nonneg_left hu hs
    have := mul_le_mul_of_nonneg_left hv ht
    linarith
  have m' : ∀ {u v w : ℝ}, u ≤ w → v ≤ w → s * u + (1 - s) * v ≤ w := fun {u v w} hu hv => by
    have := mul_le_mul_of_nonneg_left hu hs
    have := mul_le_mul_of_nonneg_left hv ht
    linarith
  refine ⟨⟨⟨m a1 b1, m' a2 b2⟩, m a3 b3, m' a4 b4⟩, ?_⟩
  cases pen
  · simp only [Bool.false_eq_true, if_false] at a5 b5 ⊢
    have := m a5 b5
    have h2 : 0 ≤ s * (1 - s) * (p.1 - q.1) ^ 2 := by positivity
    nlinarith
  · simp only [if_true] at a5 b5 ⊢
    have := m a5.1 b5.1
    have := m a5.2 b5.2
    constructor <;> linarith

theorem maxSet_compact (pen : Bool) : IsCompact (MaxSet pen) := by
  refine IsCompact.of_isClosed_subset (isCompact_Icc (a := ((-1 : ℝ), (-1 : ℝ))) (b := (1, 1))) ?_ ?_
  · cases pen
    · simp only [MaxSet, Bool.false_eq_true, if_false, Set.ofPred_and]
      refine (((isClosed_le ?_ ?_).inter (isClosed_le ?_ ?_)).inter ((isClosed_le ?_ ?_).inter (isClosed_le ?_ ?_))).inter (isClosed_le ?_ ?_) <;> fun_prop
    · simp only [MaxSet, if_true, Set.ofPred_and]
      refine (((isClosed_le ?_ ?_).inter (isClosed_le ?_ ?_)).inter ((isClosed_le ?_ ?_).inter (isClosed_le ?_ ?_))).inter
        ((isClosed_le ?_ ?_).inter (isClosed_le ?_ ?_)) <;> fun_prop
  · rintro q ⟨⟨⟨a1, a2⟩, a3, a4⟩, -⟩
    exact ⟨⟨a1, a3⟩, a2, a4⟩

/-- **C104** `maximize_buckling_load`: if all feasible designs can be computed, buckle, and carry the normalised load, then the objective is
finite at all of them, every local minimum is a global one, there is one, and the minima form a convex set. -/
theorem C104_maximize (S : EigSolver) (hS : GoodSolver S) (g : Panel) (hg : PanelOk g) (h2 : 2 < g.m * g.n) (T Nxx Nyy Nxy : ℝ) (pen : Bool)
    (prob : MinProblem) (hp : (maximizeBucklingLoad S g T Nxx Nyy Nxy pen).2 = .ok prob)
    (hsound : ∀ x y s M, normalizeCriticalLoad Nxx Nyy Nxy = .ok (x, y, s, M) → ∀ x1 x3, Feas prob [x1, x3] → Sound g T x1 x3 x y s) :
    (∀ v, Feas prob v → ∃ o, prob.obj v = .ok (.fin o)) ∧ (∀ v, LocalMinOn prob Set.univ v → GlobalMinOn prob Set.univ v) ∧
    (∃ v, GlobalMinOn prob Set.univ v) ∧
    ∀ x1 x3 y1 y3 s t, GlobalMinOn prob Set.univ [x1, x3] → GlobalMinOn prob Set.univ [y1, y3] → 0 ≤ s → 0 ≤ t → s + t = 1 →
      GlobalMinOn prob Set.univ [s * x1 + t * y1, s * x3 + t * y3] := by
  obtain ⟨x, y, s, M, hn, -⟩ := C59_objective S g T Nxx Nyy Nxy pen prob hp 0 0
  have hobj : ∀ x1 x3 e, ncrFromLp S g T x1 x3 x y s = .ok (.fin e) → prob.obj [x1, x3] = .ok (.fin (-e)) := by
    intro x1 x3 e he
    obtain ⟨x', y', s', M', hn', h1, -⟩ := C59_objective S g T Nxx Nyy Nxy pen prob hp x1 x3
    rw [hn] at hn'
    cases hn'
    exact h1 e he
  have hbounds : prob.bounds = [(-1, 1), (-1, 1)] ∧ prob.x0 = [0, 0] := by
    simp only [maximizeBucklingLoad, hn, ok_bind, pure_eq_ok, Except.ok.injEq] at hp
    rw [← hp]
    exact ⟨rfl, rfl⟩
  have hfeas : ∀ v, Feas prob v ↔ ∃ q ∈ MaxSet pen, v = [q.1, q.2] := by
    intro v
    have hin : ∀ x1 x3 : ℝ, InBounds prob.bounds [x1, x3] ↔ (-1 ≤ x1 ∧ x1 ≤ 1) ∧ -1 ≤ x3 ∧ x3 ≤ 1 := fun x1 x3 => by
      rw [hbounds.1]
      simp [InBounds]
    constructor
    · rintro ⟨hb, hc⟩
      obtain ⟨x1, x3, rfl, -⟩ := forall₂_two (by rw [← hbounds.1]; exact hb)
      exact ⟨(x1, x3), ⟨(hin _ _).mp hb, (C59_feasible_set S g T Nxx Nyy Nxy pen prob hp x1 x3 hb).mp hc⟩, rfl⟩
    · rintro ⟨q, ⟨hb, hc⟩, rfl⟩
      have hb' := (hin _ _).mpr hb
      exact ⟨hb', (C59_feasible_set S g T Nxx Nyy Nxy pen prob hp _ _ hb').mpr hc⟩
  have hstart : ((0 : ℝ), (0 : ℝ)) ∈ MaxSet pen := by
    cases pen <;> simp [MaxSet] <;> norm_num
  obtain ⟨Ks, KG, hKs, -⟩ := hsound x y s M hn 0 0 ((hfeas _).mpr ⟨_, hstart, rfl⟩)
  have hG : KG.IsSymm := (C48_symmetric _ _ (panelPlate g x y s) hg.2.2.2.2.2.2.1 hg.2.2.2.2.2.2.2 Ks KG hKs).2
  obtain ⟨K0, K1, K3, hform⟩ := panel_form g hg x y s T 0 0 Ks KG hKs
  have hval : ∀ q : ℝ × ℝ, q ∈ MaxSet pen → ∃ lam, ncrFromLp S g T q.1 q.2 x y s = .ok (.fin lam) ∧ 1 ≤ lam ∧
      (T ^ 3 • (K0 + q.1 • K1 + q.2 • K3)).PosDef ∧ PosMult (T ^ 3 • (K0 + q.1 • K1 + q.2 • K3)) KG lam ∧
      Carries (T ^ 3 • (K0 + q.1 • K1 + q.2 • K3)) KG lam := by
    intro q hq
    obtain ⟨K', KG', hK', hpd, hex, hc⟩ := hsound x y s M hn q.1 q.2 ((hfeas _).mpr ⟨q, hq, rfl⟩)
    obtain ⟨rfl, rfl⟩ := Prod.mk.inj (Except.ok.inj ((hform T q.1 q.2).symm.trans hK'))
    obtain ⟨lam, h1, hm, hl⟩ := ncr_sound S hS g hg h2 T q.1 q.2 x y s _ _ hK' hpd hex hc
    exact ⟨lam, h1, hc _ hm, hpd, hm, hl⟩
  classical
  let val : ℝ × ℝ → ℝ := fun q => if hq : q ∈ MaxSet pen then (hval q hq).choose else 0
  have hv : ∀ q ∈ MaxSet pen, ncrFromLp S g T q.1 q.2 x y s = .ok (.fin (val q)) ∧ 1 ≤ val q ∧
      (T ^ 3 • (K0 + q.1 • K1 + q.2 • K3)).PosDef ∧ PosMult (T ^ 3 • (K0 + q.1 • K1 + q.2 • K3)) KG (val q) ∧
      Carries (T ^ 3 • (K0 + q.1 • K1 + q.2 • K3)) KG (val q) := by
    intro q hq
    simp only [val, dif_pos hq]
    exact (hval q hq).choose_spec
  clear_value val
  have hconc : ∀ p ∈ MaxSet pen, ∀ q ∈ MaxSet pen, ∀ s t : ℝ, 0 ≤ s → 0 ≤ t → s + t = 1 →
      s * val p + t * val q ≤ val (s * p.1 + t * q.1, s * p.2 + t * q.2) := by
    intro p hp' q hq s t hs ht hst
    obtain ⟨-, p1, pd, -, pc⟩ := hv p hp'
    obtain ⟨-, q1, qd, -, qc⟩ := hv q hq
    obtain ⟨-, r1, rd, rm, -⟩ := hv _ (maxSet_mix pen hp' hq hs ht hst)
    refine (carries_iff rd hG (l := s * val p + t * val q) (by positivity)).mpr (fun c => ?_) _ rm
    have e1 := mul_nonneg hs ((carries_iff pd hG (by linarith)).mp pc c)
    have e2 := mul_nonneg ht ((carries_iff qd hG (by linarith)).mp qc c)
    rw [design_form] at e1 e2 ⊢
    obtain rfl : t = 1 - s := by linarith
    linarith
  have hglob : ∀ q : ℝ × ℝ, GlobalMinOn prob Set.univ [q.1, q.2] ↔ q ∈ MaxSet pen ∧ ∀ r ∈ MaxSet pen, val r ≤ val q := by
    intro q
    constructor
    · rintro ⟨-, hf, o, ho, hmin⟩
      obtain ⟨q', hq', he⟩ := (hfeas _).mp hf
      obtain rfl : q = q' := by
        simp only [List.cons.injEq, and_true] at he
        exact Prod.ext he.1 he.2
      refine ⟨hq', fun r hr => ?_⟩
      have h3 := hmin _ trivial ((hfeas _).mpr ⟨r, hr, rfl⟩) _ (hobj _ _ _ (hv r hr).1)
      have h4 := XF.fin.inj (Except.ok.inj (ho.symm.trans (hobj _ _ _ (hv q hq').1)))
      linarith
    · rintro ⟨hq, hmin⟩
      refine ⟨trivial, (hfeas _).mpr ⟨q, hq, rfl⟩, _, hobj _ _ _ (hv q hq).1, fun z _ hz o' ho' => ?_⟩
      obtain ⟨r, hr, rfl⟩ := (hfeas _).mp hz
      have h4 := XF.fin.inj (Except.ok.inj (ho'.symm.trans (hobj _ _ _ (hv r hr).1)))
      have := hmin r hr
      linarith
  refine ⟨fun v hf => ?_, ?_, ?_, ?_⟩
  · obtain ⟨q, hq, rfl⟩ := (hfeas v).mp hf
    exact ⟨_, hobj _ _ _ (hv q hq).1⟩
  · rintro v ⟨-, hf, o, ho, eps, heps, hmin⟩
    obtain ⟨q, hq, rfl⟩ := (hfeas v).mp hf
    refine (hglob q).mpr ⟨hq, fun r hr => ?_⟩
    by_contra hcon
    push Not at hcon
    obtain ⟨t1, ht1, k1⟩ := small_step q.1 r.1 heps
    obtain ⟨t2, ht2, k2⟩ := small_step q.2 r.2 heps
    obtain ⟨t, t0, tlt⟩ := exists_between (lt_min (lt_min ht1 ht2) one_pos)
    have h1 : t < t1 := lt_of_lt_of_le tlt ((min_le_left _ _).trans (min_le_left _ _))
    have h2' : t < t2 := lt_of_lt_of_le tlt ((min_le_left _ _).trans (min_le_right _ _))
    have h3 : t < 1 := lt_of_lt_of_le tlt (min_le_right _ _)
    have hmem := maxSet_mix pen hq hr (s := 1 - t) (t := t) (by linarith) t0.le (by ring)
    have hcc := hconc q hq r hr (1 - t) t (by linarith) t0.le (by ring)
    have hle := hmin _ trivial ((hfeas _).mpr ⟨_, hmem, rfl⟩) (.cons (k1 t t0.le h1) (.cons (k2 t t0.le h2') .nil)) _ (hobj _ _ _ (hv _ hmem).1)
    have h4 := XF.fin.inj (Except.ok.inj (ho.symm.trans (hobj _ _ _ (hv q hq).1)))
    have := mul_pos t0 (sub_pos.mpr hcon)
    linarith
  · have husc : UpperSemicontinuousOn val (MaxSet pen) := by
      intro p hp' c hc
      obtain ⟨-, p1, pd, pm, -⟩ := hv p hp'
      have hc0 : 0 ≤ c := by linarith
      have hnot : ¬ Carries (T ^ 3 • (K0 + p.1 • K1 + p.2 • K3)) KG c := fun h => absurd (h _ pm) (not_le.mpr hc)
      rw [carries_iff pd hG hc0] at hnot
      push Not at hnot
      obtain ⟨w, hw⟩ := hnot
      rw [design_form] at hw
      have hcont : Continuous fun q : ℝ × ℝ => T ^ 3 * (w ⬝ᵥ K0.mulVec w + q.1 * (w ⬝ᵥ K1.mulVec w) + q.2 * (w ⬝ᵥ K3.mulVec w))
          + c * (w ⬝ᵥ KG.mulVec w) := by fun_prop
      have hev := hcont.continuousAt.eventually_lt_const hw
      filter_upwards [nhdsWithin_le_nhds hev, self_mem_nhdsWithin] with q hq hqm
      by_contra hcon
      push Not at hcon
      obtain ⟨-, q1, qd, -, qc⟩ := hv q hqm
      have := (carries_iff qd hG hc0).mp (fun nu hnu => hcon.trans (qc nu hnu)) w
      rw [design_form] at this
      linarith
    obtain ⟨q, hq, hmax⟩ := husc.exists_isMaxOn ⟨_, hstart⟩ (maxSet_compact pen)
    exact ⟨_, (hglob q).mpr ⟨hq, fun r hr => hmax hr⟩⟩
  · intro x1 x3 y1 y3 s t hx hy hs ht hst
    obtain ⟨hxm, hx⟩ := (hglob (x1, x3)).mp hx
    obtain ⟨hym, hy⟩ := (hglob (y1, y3)).mp hy
    refine (hglob (s * x1 + t * y1, s * x3 + t * y3)).mpr ⟨maxSet_mix pen hxm hym hs ht hst, fun r hr => ?_⟩
    have h3 := hconc _ hxm _ hym s t hs ht hst
    have h4 := mul_le_mul_of_nonneg_left (hx r hr) hs
    have h5 := mul_le_mul_of_nonneg_left (hy r hr) ht
    have h6 : s * val r + t * val r = val r := by rw [← add_mul, hst, one_mul]
    linarith

/-! ## `minimize_panel_weight` -/

/-- A design whose matrices can be computed, with definite stiffness, that can buckle but only above `r` times the load. -/
def Spec.Stout (g : Panel) (T x1 x3 x y s r : ℝ) : Prop :=
  ∃ K KG : SqMat (g.m * g.n), calcKKGD shipped (panelD g T x1 x3) g.c (panelPlate g x y s) = .ok (K, KG) ∧ K.PosDef ∧
    (∃ nu, PosMult K KG nu) ∧ ∀ nu, PosMult K KG nu → r < nu

/-- The designs of `minimize_panel_weight` within the bounds and the last two constraints. -/
def Spec.WtSet (q : ℝ × ℝ × ℝ) : Prop :=
  ((0.001 ≤ q.1 ∧ q.1 ≤ 1000000) ∧ (-1 ≤ q.2.1 ∧ q.2.1 ≤ 1) ∧ -1 ≤ q.2.2 ∧ q.2.2 ≤ 1) ∧
    -0.0001 ≤ q.2.2 + 2 * q.2.1 + 1 ∧ -0.0001 ≤ q.2.2 - 2 * q.2.1 + 1

/-- What it means to be feasible for `minimize_panel_weight`. -/
theorem weight_feas (S : EigSolver) (g : Panel) (Nxx Nyy Nxy : ℝ) (x0 : List ℝ) (prob : MinProblem)
    (hp : (minimizePanelWeight S g Nxx Nyy Nxy x0).2 = .ok prob) (x y s M : ℝ) (hn : normalizeCriticalLoad Nxx Nyy Nxy = .ok (x, y, s, M)) (v : List ℝ) :
    Feas prob v ↔ ∃ q, v = [q.1, q.2.1, q.2.2] ∧ WtSet q ∧ ∃ e, ncrFromLp S g q.1 q.2.1 q.2.2 x y s = .ok (.fin e) ∧ M ≤ e := by
  obtain ⟨hM, -⟩ := C55_normalised _ _ _ _ _ _ _ hn
  simp only [minimizePanelWeight, hn, ok_bind, pure_eq_ok, Except.ok.injEq] at hp
  have hcons : ∀ T x1 x3, (∀ c ∈ prob.cons, Satisfied c [T, x1, x3]) ↔
      (∃ e, ncrFromLp S g T x1 x3 x y s = .ok (.fin e) ∧ M ≤ e) ∧
      (-0.0001 ≤ x3 + 2 * x1 + 1 ∧ x3 + 2 * x1 + 1 ≤ 10000) ∧ -0.0001 ≤ x3 - 2 * x1 + 1 ∧ x3 - 2 * x1 + 1 ≤ 10000 := by
    intro T x1 x3
    rw [← hp]
    simp only [List.forall_mem_cons, List.not_mem_nil, false_imp_iff, implies_true, and_true]
    refine and_congr ?_ (and_congr ?_ ?_)
    · constructor
      · rintro ⟨v, hv, hval⟩
        simp only [minCriticalLoad] at hv
        rcases hN : ncrFromLp S g T x1 x3 x y s with e | w
        · rw [hN] at hv
          cases e <;> simp [guardedNcr] at hv
          subst hv
          rcases hval with ⟨r, hr, h1, -⟩ | ⟨hr, -⟩
          · have := XF.fin.inj hr
            simp only at h1
            linarith
          · cases hr
        · rw [hN] at hv
          simp only [guardedNcr, Except.ok.injEq] at hv
          subst hv
          rcases hval with ⟨r, rfl, h1, -⟩ | ⟨rfl, -⟩
          · exact ⟨r, rfl, h1⟩
          · exact absurd hN ncr_not_pinf
      · rintro ⟨e, he, h1⟩
        exact ⟨.fin e, by simp [minCriticalLoad, he, guardedNcr], Or.inl ⟨e, rfl, h1, Or.inl rfl⟩⟩
    · simp [Satisfied, penaltyG1, unpackXi, Except.map]
    · simp [Satisfied, penaltyG2, unpackXi, Except.map]
  have hin : ∀ T x1 x3 : ℝ, InBounds prob.bounds [T, x1, x3] ↔ (0.001 ≤ T ∧ T ≤ 1000000) ∧ (-1 ≤ x1 ∧ x1 ≤ 1) ∧ -1 ≤ x3 ∧ x3 ≤ 1 := by
    intro T x1 x3
    rw [← hp]
    simp [InBounds]
  constructor
  · rintro ⟨hb, hc⟩
    obtain ⟨T, x1, x3, rfl, -⟩ := forall₂_three (show List.Forall₂ _ [_, _, _] v by rw [← hp] at hb; exact hb)
    obtain ⟨h1, ⟨h2, -⟩, h3, -⟩ := (hcons T x1 x3).mp hc
    exact ⟨(T, x1, x3), rfl, ⟨(hin _ _ _).mp hb, h2, h3⟩, h1⟩
  · rintro ⟨⟨T, x1, x3⟩, rfl, ⟨hb, h2, h3⟩, h1⟩
    simp only at hb h1 h2 h3 ⊢
    refine ⟨(hin _ _ _).mpr hb, (hcons T x1 x3).mpr ⟨h1, ⟨h2, ?_⟩, h3, ?_⟩⟩ <;> linarith [hb.2.1.1, hb.2.1.2, hb.2.2.2]

theorem inv_cube_mix {s t a b : ℝ} (hs : 0 ≤ s) (ht : 0 ≤ t) (hst : s + t = 1) (ha : 0 < a) (hb : 0 < b) :
    1 / (s * a + t * b) ^ 3 ≤ s * (1 / a ^ 3) + t * (1 / b ^ 3) := by
  have := (convexOn_zpow (𝕜 := ℝ) (-3)).2 (Set.mem_Ioi.mpr ha) (Set.mem_Ioi.mpr hb) hs ht hst
  simpa [_root_.zpow_neg, one_div] using this

/-- **C104** `minimize_panel_weight`: if the designs with thickness at least `T0` within the bounds buckle only above `1/M` of the normalised
load, where `M ≥ 1` is the largest load, then among them every local minimum is a global one, the feasible ones form a convex set, and
there is a minimum as soon as one of the designs is feasible. -/
theorem C104_weight (S : EigSolver) (hS : GoodSolver S) (g : Panel) (hg : PanelOk g) (h2 : 2 < g.m * g.n) (Nxx Nyy Nxy : ℝ) (x0 : List ℝ)
    (prob : MinProblem) (hp : (minimizePanelWeight S g Nxx Nyy Nxy x0).2 = .ok prob) (x y s M : ℝ)
    (hn : normalizeCriticalLoad Nxx Nyy Nxy = .ok (x, y, s, M)) (hM : 1 ≤ M) (T0 : ℝ)
    (hst : ∀ q, WtSet q → T0 ≤ q.1 → Stout g q.1 q.2.1 q.2.2 x y s (1 / M)) :
    (∀ v, LocalMinOn prob {w | ∃ T r, w = T :: r ∧ T0 ≤ T} v → GlobalMinOn prob {w | ∃ T r, w = T :: r ∧ T0 ≤ T} v) ∧
    ((∃ v ∈ {w : List ℝ | ∃ T r, w = T :: r ∧ T0 ≤ T}, Feas prob v) → ∃ v, GlobalMinOn prob {w | ∃ T r, w = T :: r ∧ T0 ≤ T} v) ∧
    (∀ T x1 x3 T' y1 y3 s t, Feas prob [T, x1, x3] → Feas prob [T', y1, y3] → T0 ≤ T → T0 ≤ T' → 0 ≤ s → 0 ≤ t → s + t = 1 →
      Feas prob [s * T + t * T', s * x1 + t * y1, s * x3 + t * y3]) := by
  have hobj : ∀ T x1 x3, prob.obj [T, x1, x3] = .ok (.fin (T ^ 3)) := by
    intro T x1 x3
    simp only [minimizePanelWeight, hn, ok_bind, pure_eq_ok, Except.ok.injEq] at hp
    rw [← hp]
    rfl
  have hfe := weight_feas S g Nxx Nyy Nxy x0 prob hp x y s M hn
  -- nothing to show if there is no design
  by_cases hne : ∃ q, WtSet q ∧ T0 ≤ q.1
  swap
  · push Not at hne
    have hno : ∀ v ∈ {w : List ℝ | ∃ T r, w = T :: r ∧ T0 ≤ T}, ¬ Feas prob v := by
      rintro v ⟨T, r, rfl, hT⟩ hf
      obtain ⟨q, he, hq, -⟩ := (hfe _).mp hf
      simp only [List.cons.injEq] at he
      exact absurd (hne q hq) (not_lt.mpr (he.1 ▸ hT))
    refine ⟨fun v hv => absurd hv.2.1 (hno v hv.1), fun ⟨v, hv, hf⟩ => absurd hf (hno v hv), fun T x1 x3 T' y1 y3 s t hf _ hT => ?_⟩
    exact absurd hf (hno _ ⟨_, _, rfl, hT⟩)
  obtain ⟨qs, hqs, hqT⟩ := hne
  obtain ⟨Ks, KG, hKs, -⟩ := hst qs hqs hqT
  have hG : KG.IsSymm := (C48_symmetric _ _ (panelPlate g x y s) hg.2.2.2.2.2.2.1 hg.2.2.2.2.2.2.2 Ks KG hKs).2
  obtain ⟨K0, K1, K3, hform⟩ := panel_form g hg x y s qs.1 qs.2.1 qs.2.2 Ks KG hKs
  let E : ℝ × ℝ × ℝ → (Fin (g.m * g.n) → ℝ) → ℝ := fun q w => w ⬝ᵥ K0.mulVec w + q.2.1 * (w ⬝ᵥ K1.mulVec w) + q.2.2 * (w ⬝ᵥ K3.mulVec w)
  let W : (Fin (g.m * g.n) → ℝ) → ℝ := fun w => w ⬝ᵥ KG.mulVec w
  have hpdE : ∀ q, WtSet q → T0 ≤ q.1 → ∀ w, 0 ≤ E q w := by
    intro q hq hT w
    obtain ⟨K', KG', hK', hpd, -⟩ := hst q hq hT
    obtain ⟨rfl, rfl⟩ := Prod.mk.inj (Except.ok.inj ((hform q.1 q.2.1 q.2.2).symm.trans hK'))
    have h1 : 0 ≤ w ⬝ᵥ (q.1 ^ 3 • (K0 + q.2.1 • K1 + q.2.2 • K3)).mulVec w := by simpa using hpd.posSemidef.dotProduct_mulVec_nonneg w
    rw [design_form] at h1
    have : 0 < q.1 ^ 3 := pow_pos (lt_of_lt_of_le (by norm_num) hq.1.1.1) 3
    exact nonneg_of_mul_nonneg_right h1 this
  have hchar : ∀ q, T0 ≤ q.1 → (Feas prob [q.1, q.2.1, q.2.2] ↔ WtSet q ∧ ∀ w, 0 ≤ q.1 ^ 3 * E q w + M * W w) := by
    intro q hT
    rw [hfe]
    constructor
    · rintro ⟨q', he, hq', e, hne, hMe⟩
      simp only [List.cons.injEq, and_true] at he
      obtain rfl : q = q' := Prod.ext he.1 (Prod.ext he.2.1 he.2.2)
      refine ⟨hq', ?_⟩
      obtain ⟨K', KG', hK', hpd, -, hlow⟩ := hst q hq' hT
      obtain ⟨rfl, rfl⟩ := Prod.mk.inj (Except.ok.inj ((hform q.1 q.2.1 q.2.2).symm.trans hK'))
      obtain ⟨vals, vecs, e', hrun, he', hne', -, s1, s2⟩ := ncr_first S hS g hg h2 q.1 q.2.1 q.2.2 x y s _ _ hK' hpd
      obtain rfl := Except.ok.inj (hne.symm.trans hne')
      have hc : Carries (q.1 ^ 3 • (K0 + q.2.1 • K1 + q.2.2 • K3)) KG M := by
        intro nu hnu
        refine hMe.trans (head_le hrun hK' s1 s2 he' (hM.trans hMe) hnu ?_)
        have h3 := hlow nu hnu
        rw [div_lt_iff₀ (by linarith)] at h3
        have h4 := mul_le_mul_of_nonneg_right hMe hnu.1.le
        linarith
      intro w
      have := (carries_iff hpd hG (by linarith)).mp hc w
      rw [design_form] at this
      exact this
    · rintro ⟨hq, hw⟩
      refine ⟨q, rfl, hq, ?_⟩
      obtain ⟨K', KG', hK', hpd, hex, -⟩ := hst q hq hT
      obtain ⟨rfl, rfl⟩ := Prod.mk.inj (Except.ok.inj ((hform q.1 q.2.1 q.2.2).symm.trans hK'))
      have hc : Carries (q.1 ^ 3 • (K0 + q.2.1 • K1 + q.2.2 • K3)) KG M :=
        (carries_iff hpd hG (by linarith)).mpr fun w => by rw [design_form]; exact hw w
      obtain ⟨lam, h1, hm, -⟩ := ncr_sound S hS g hg h2 q.1 q.2.1 q.2.2 x y s _ _ hK' hpd hex (fun nu hnu => hM.trans (hc nu hnu))
      exact ⟨lam, h1, hc _ hm⟩
  have hmix : ∀ q r : ℝ × ℝ × ℝ, T0 ≤ q.1 → T0 ≤ r.1 → Feas prob [q.1, q.2.1, q.2.2] → Feas prob [r.1, r.2.1, r.2.2] → ∀ s t : ℝ, 0 ≤ s → 0 ≤ t →
      s + t = 1 → T0 ≤ s * q.1 + t * r.1 ∧ Feas prob [s * q.1 + t * r.1, s * q.2.1 + t * r.2.1, s * q.2.2 + t * r.2.2] := by
    intro q r hq hr fq fr s t hs ht hst1
    obtain ⟨wq, cq⟩ := (hchar q hq).mp fq
    obtain ⟨wr, cr⟩ := (hchar r hr).mp fr
    have pq : 0 < q.1 := lt_of_lt_of_le (by norm_num) wq.1.1.1
    have pr : 0 < r.1 := lt_of_lt_of_le (by norm_num) wr.1.1.1
    have hinv := inv_cube_mix hs ht hst1 pq pr
    obtain rfl : t = 1 - s := by linarith
    have m : ∀ {u v w : ℝ}, w ≤ u → w ≤ v → w ≤ s * u + (1 - s) * v := fun {u v w} hu hv => by
      have := mul_le_mul_of_nonneg_left hu hs
      have := mul_le_mul_of_nonneg_left hv ht
      linarith
    have m' : ∀ {u v w : ℝ}, u ≤ w → v ≤ w → s * u + (1 - s) * v ≤ w := fun {u v w} hu hv => by
      have := mul_le_mul_of_nonneg_left hu hs
      have := mul_le_mul_of_nonneg_left hv ht
      linarith
    have hset : WtSet (s * q.1 + (1 - s) * r.1, s * q.2.1 + (1 - s) * r.2.1, s * q.2.2 + (1 - s) * r.2.2) := by
      obtain ⟨⟨⟨a1, a2⟩, ⟨a3, a4⟩, a5, a6⟩, a7, a8⟩ := wq
      obtain ⟨⟨⟨b1, b2⟩, ⟨b3, b4⟩, b5, b6⟩, b7, b8⟩ := wr
      refine ⟨⟨⟨m a1 b1, m' a2 b2⟩, ⟨m a3 b3, m' a4 b4⟩, m a5 b5, m' a6 b6⟩, ?_, ?_⟩
      · have := m a7 b7
        simp only
        linarith
      · have := m a8 b8
        simp only
        linarith
    have hT : T0 ≤ s * q.1 + (1 - s) * r.1 := m hq hr
    refine ⟨hT, (hchar (_, _, _) hT).mpr ⟨hset, fun w => ?_⟩⟩
    have hEm : E (s * q.1 + (1 - s) * r.1, s * q.2.1 + (1 - s) * r.2.1, s * q.2.2 + (1 - s) * r.2.2) w = s * E q w + (1 - s) * E r w := by
      simp only [E]
      ring
    have hE0 := hpdE _ hset hT w
    have pm : 0 < (s * q.1 + (1 - s) * r.1) ^ 3 := pow_pos (lt_of_lt_of_le (by norm_num) hset.1.1.1) 3
    show 0 ≤ (s * q.1 + (1 - s) * r.1) ^ 3 * _ + M * W w
    rcases le_or_gt 0 (W w) with hW | hW
    · have := mul_nonneg pm.le hE0
      have := mul_nonneg (by linarith : (0 : ℝ) ≤ M) hW
      linarith
    · have dq : M * -W w * (1 / q.1 ^ 3) ≤ E q w := by
        rw [mul_one_div, div_le_iff₀ (pow_pos pq 3)]
        linarith [cq w]
      have dr : M * -W w * (1 / r.1 ^ 3) ≤ E r w := by
        rw [mul_one_div, div_le_iff₀ (pow_pos pr 3)]
        linarith [cr w]
      have d1 := mul_le_mul_of_nonneg_left dq hs
      have d2 := mul_le_mul_of_nonneg_left dr ht
      have hMW : 0 ≤ M * -W w := mul_nonneg (by linarith) (by linarith)
      have d3 := mul_le_mul_of_nonneg_left hinv hMW
      have d4 : M * -W w * (1 / (s * q.1 + (1 - s) * r.1) ^ 3) ≤ s * E q w + (1 - s) * E r w := by linarith
      rw [mul_one_div, div_le_iff₀ pm] at d4
      rw [hEm]
      linarith
  have hform3 : ∀ v ∈ {w : List ℝ | ∃ T r, w = T :: r ∧ T0 ≤ T}, Feas prob v → ∃ q : ℝ × ℝ × ℝ, v = [q.1, q.2.1, q.2.2] ∧ T0 ≤ q.1 := by
    rintro v ⟨T, r, rfl, hT⟩ hf
    obtain ⟨q, he, -⟩ := (hfe _).mp hf
    refine ⟨q, he, ?_⟩
    simp only [List.cons.injEq] at he
    exact he.1 ▸ hT
  refine ⟨?_, ?_, fun T x1 x3 T' y1 y3 s t f1 f2 h1 h2' hs ht hst1 => (hmix (T, x1, x3) (T', y1, y3) h1 h2' f1 f2 s t hs ht hst1).2⟩
  · rintro v ⟨hv, hf, o, ho, eps, heps, hmin⟩
    obtain ⟨q, rfl, hq⟩ := hform3 v hv hf
    refine ⟨hv, hf, o, ho, fun z hz hzf o' ho' => ?_⟩
    obtain ⟨r, rfl, hr⟩ := hform3 z hz hzf
    have h4 := XF.fin.inj (Except.ok.inj (ho.symm.trans (hobj _ _ _)))
    have h5 := XF.fin.inj (Except.ok.inj (ho'.symm.trans (hobj _ _ _)))
    by_contra hcon
    push Not at hcon
    rw [h4, h5] at hcon
    have hlt : r.1 < q.1 := (Odd.strictMono_pow (by decide : Odd 3)).lt_iff_lt.mp hcon
    obtain ⟨t1, ht1, k1⟩ := small_step q.1 r.1 heps
    obtain ⟨t2, ht2, k2⟩ := small_step q.2.1 r.2.1 heps
    obtain ⟨t3, ht3, k3⟩ := small_step q.2.2 r.2.2 heps
    obtain ⟨t, t0, tlt⟩ := exists_between (lt_min (lt_min (lt_min ht1 ht2) ht3) one_pos)
    simp only [lt_min_iff] at tlt
    obtain ⟨⟨⟨l1, l2⟩, l3⟩, l4⟩ := tlt
    obtain ⟨hT, hF⟩ := hmix q r hq hr hf hzf (1 - t) t (by linarith) t0.le (by ring)
    have hle := hmin _ ⟨_, _, rfl, hT⟩ hF (.cons (k1 t t0.le l1) (.cons (k2 t t0.le l2) (.cons (k3 t t0.le l3) .nil))) _ (hobj _ _ _)
    rw [h4] at hle
    have := (Odd.strictMono_pow (by decide : Odd 3)).le_iff_le.mp hle
    have := mul_pos t0 (sub_pos.mpr hlt)
    linarith
  · rintro ⟨v, hv, hf⟩
    obtain ⟨q, rfl, hq⟩ := hform3 v hv hf
    let F : Set (ℝ × ℝ × ℝ) := {q | T0 ≤ q.1 ∧ WtSet q ∧ ∀ w, 0 ≤ q.1 ^ 3 * E q w + M * W w}
    have hcomp : IsCompact F := by
      refine IsCompact.of_isClosed_subset (isCompact_Icc (a := ((0.001 : ℝ), (-1 : ℝ), (-1 : ℝ))) (b := (1000000, 1, 1))) ?_ ?_
      · simp only [F, WtSet, Set.ofPred_and]
        refine (isClosed_le ?_ ?_).inter (((((isClosed_le ?_ ?_).inter (isClosed_le ?_ ?_)).inter (((isClosed_le ?_ ?_).inter (isClosed_le ?_ ?_)).inter
          ((isClosed_le ?_ ?_).inter (isClosed_le ?_ ?_)))).inter ((isClosed_le ?_ ?_).inter (isClosed_le ?_ ?_))).inter ?_)
        all_goals try fun_prop
        rw [Set.ofPred_forall]
        exact isClosed_iInter fun w => isClosed_le (by fun_prop) (by fun_prop)
      · rintro q ⟨-, ⟨⟨⟨a1, a2⟩, ⟨a3, a4⟩, a5, a6⟩, -⟩, -⟩
        exact ⟨⟨a1, a3, a5⟩, a2, a4, a6⟩
    obtain ⟨r, hr, hmin⟩ := hcomp.exists_isMinOn ⟨q, hq, (hchar q hq).mp hf⟩ (f := fun q : ℝ × ℝ × ℝ => q.1 ^ 3) (by fun_prop)
    refine ⟨[r.1, r.2.1, r.2.2], ⟨_, _, rfl, hr.1⟩, (hchar r hr.1).mpr hr.2, _, hobj _ _ _, fun z hz hzf o' ho' => ?_⟩
    obtain ⟨p, rfl, hp'⟩ := hform3 z hz hzf
    have h5 := XF.fin.inj (Except.ok.inj (ho'.symm.trans (hobj _ _ _)))
    rw [h5]
    exact hmin (show p ∈ F from ⟨hp', (hchar p hp').mp hzf⟩)

theorem max_sound {x1 x3 : ℝ} (b3 : -1 ≤ x3) (b3' : x3 ≤ 1) (g1 : -0.0001 ≤ x3 + 2 * x1 + 1) (g2 : -0.0001 ≤ x3 - 2 * x1 + 1) :
    Sound maxPanel 3.048 x1 x3 (-1) 0 0 := by
  obtain ⟨S, hS⟩ := exists_goodSolver
  obtain ⟨lam, -, h1, -, -, K, KG, hK, hpd, hm, hl⟩ := max_value S hS b3 b3' g1 g2
  exact ⟨K, KG, hK, hpd, ⟨lam, hm⟩, fun nu hnu => h1.trans (hl hnu)⟩

theorem maxPanel_ok : PanelOk maxPanel := by norm_num [PanelOk, maxPanel, abs_le]

theorem wtPanel_ok : PanelOk wtPanel := by norm_num [PanelOk, wtPanel, abs_le]

/-- **C104** `tests/optimization_test/maximize_buckling_load_test.py`: there is a local minimum, and every local minimum is close to the
reference in the sense of the test, and so is its objective. -/
theorem C104_test_maximize (S : EigSolver) (hS : GoodSolver S) :
    ∃ prob, (maximizeBucklingLoad S maxPanel 3.048 (-1) 0 0).2 = .ok prob ∧ (∃ v, LocalMinOn prob Set.univ v) ∧
      ∀ x1 x3 o, LocalMinOn prob Set.univ [x1, x3] → prob.obj [x1, x3] = .ok (.fin o) →
        NpClose 0.1 0.1 x1 5e-5 ∧ NpClose 0.1 0.1 x3 (-1) ∧ NpClose 0.1 0.1 o (-102.73893) := by
  obtain ⟨prob, hp, -, hmain⟩ := C103_test_maximize S hS
  have hnorm : normalizeCriticalLoad (-1) 0 0 = .ok (-1, 0, 0, 1) := by
    have := normalize_eq (-1) 0 0 (by norm_num)
    norm_num at this
    exact this
  obtain ⟨-, h2, ⟨v, hv⟩, -⟩ := C104_maximize S hS maxPanel maxPanel_ok (by norm_num [maxPanel]) 3.048 (-1) 0 0 true prob hp (by
    intro x y s M hn x1 x3 ⟨hb, hc⟩
    rw [hnorm] at hn
    cases hn
    have hc' := (C59_feasible_set S maxPanel 3.048 (-1) 0 0 true prob hp x1 x3 hb).mp hc
    simp only [if_true] at hc'
    have hb' : InBounds [(-1, 1), (-1, 1)] [x1, x3] := by
      simp only [maximizeBucklingLoad, hnorm, ok_bind, pure_eq_ok, Except.ok.injEq] at hp
      rw [← hp] at hb
      exact hb
    simp only [InBounds, List.forall₂_cons, List.Forall₂.nil, and_true] at hb'
    exact max_sound hb'.2.1 hb'.2.2 hc'.1 hc'.2)
  refine ⟨prob, hp, ⟨v, ?_⟩, fun x1 x3 o hl ho => ?_⟩
  · obtain ⟨hA, hf, o, ho, hmin⟩ := hv
    exact ⟨hA, hf, o, ho, 1, one_pos, fun z hz hzf _ => hmin z hz hzf⟩
  · obtain ⟨-, hf, o', ho', hmin⟩ := h2 _ hl
    obtain rfl := XF.fin.inj (Except.ok.inj (ho.symm.trans ho'))
    exact hmain x1 x3 o hf.1 hf.2 ho fun y1 y3 o' hb hc ho' => hmin _ trivial ⟨hb, hc⟩ o' ho'

theorem wt_stout {T x1 x3 : ℝ} (hT : 0.35 ≤ T) (b3 : -1 ≤ x3) (b3' : x3 ≤ 1) (g1 : -0.0001 ≤ x3 + 2 * x1 + 1) (g2 : -0.0001 ≤ x3 - 2 * x1 + 1) :
    Stout wtPanel T x1 x3 (-1) (-907 / 3100) (59 / 775) (1 / 3100) := by
  obtain ⟨S, hS⟩ := exists_goodSolver
  have hT3 : (0.35 : ℝ) ^ 3 ≤ T ^ 3 := pow_le_pow_left₀ (by norm_num) hT 3
  have hk : (0.003 : ℝ) ≤ T ^ 3 / 12 := by norm_num at hT3 ⊢; linarith
  have hk0 : 0 < T ^ 3 / 12 := lt_of_lt_of_le (by norm_num) hk
  have hbt := wt_between hk0 b3 b3' g1 g2
  have hD := panelD_eq wtPanel wtU wtU_eq T x1 x3
  obtain ⟨K, KG, vals, vecs, e, hK, hpd, -⟩ := panel_first S hS wtPanel wtPanel_ok rfl (by norm_num [wtPanel])
    (by norm_num [wtPanel]) (by norm_num [wtPanel]) (by norm_num [wtPanel]) (by norm_num [wtPanel]) T x1 x3 (-1) (-907 / 3100) (59 / 775)
    _ hD _ _ hbt (by rw [(wt_err hk0).1]; norm_num)
  obtain ⟨l, -, hl⟩ := wt_upper hk0 b3 b3' g1 g2 K KG hK
  exact ⟨K, KG, by rw [hD]; exact hK, hpd, ⟨l, hl⟩, wt_small hk b3 b3' g1 g2 K KG hK⟩

/-- **C104** `tests/optimization_test/minimize_panel_weight_test.py`: there is a local minimum, and the thickness of every local minimum that is
at least 0.35 is close to the reference in the sense of the test. -/
theorem C104_test_weight (S : EigSolver) (hS : GoodSolver S) (x0 : List ℝ) :
    ∃ prob, (minimizePanelWeight S wtPanel (-3100) (-907) 236 x0).2 = .ok prob ∧ (∃ v, LocalMinOn prob Set.univ v) ∧
      ∀ T x1 x3, 0.35 ≤ T → LocalMinOn prob Set.univ [T, x1, x3] → NpClose 0.1 0.1 T 22.09 := by
  obtain ⟨prob, hp, hgood, hthin, hmain⟩ := C103_test_weight S hS x0
  have hnorm : normalizeCriticalLoad (-3100) (-907) 236 = .ok (-1, -907 / 3100, 59 / 775, 3100) := by
    have := normalize_eq (-3100) (-907) 236 (by norm_num)
    norm_num at this
    rw [this]
    norm_num
  obtain ⟨h1, h2, -⟩ := C104_weight S hS wtPanel wtPanel_ok (by norm_num [wtPanel]) (-3100) (-907) 236 x0 prob hp _ _ _ _ hnorm (by norm_num) 0.35
    (fun q hq hT => wt_stout hT hq.1.2.2.1 hq.1.2.2.2 hq.2.1 hq.2.2)
  refine ⟨prob, hp, ?_, fun T x1 x3 hT hl => ?_⟩
  · obtain ⟨v, ⟨T, r, rfl, hT⟩, hf, o, ho, hmin⟩ := h2 ⟨_, ⟨_, _, rfl, by norm_num⟩, hgood⟩
    obtain ⟨q, he, -⟩ := (weight_feas S wtPanel _ _ _ x0 prob hp _ _ _ _ hnorm _).mp hf
    have hT22 : 22.06 ≤ T := by
      simp only [List.cons.injEq] at he
      obtain ⟨rfl, rfl⟩ := he
      exact hthin _ _ _ hT hf.1 hf.2
    refine ⟨_, trivial, hf, o, ho, 1, one_pos, fun z _ hzf hz o' ho' => ?_⟩
    cases hz with
    | cons hz1 hz2 =>
      refine hmin _ ⟨_, _, rfl, ?_⟩ hzf o' ho'
      have := (abs_lt.mp hz1).2
      norm_num at hT22 ⊢
      linarith
  · obtain ⟨-, hf, o, ho, eps, heps, hmin⟩ := hl
    obtain ⟨-, -, o', ho', hglob⟩ := h1 [T, x1, x3] ⟨⟨_, _, rfl, hT⟩, hf, o, ho, eps, heps, fun z _ => hmin z trivial⟩
    exact hmain T x1 x3 o' hT hf.1 hf.2 ho' fun T' y1 y3 o'' hT' hb hc => hglob _ ⟨_, _, rfl, hT'⟩ ⟨hb, hc⟩ o''

/-- The hypotheses of `C104_mix` and `C104_concave` are met by two designs of the test. -/
example : ∃ D1 D2 K1 K2 KG, calcKKGD shipped (.ok D1) (.str wPINNED) (panelPlate maxPanel (-1) 0 0) = .ok (K1, KG) ∧
    calcKKGD shipped (.ok D2) (.str wPINNED) (panelPlate maxPanel (-1) 0 0) = .ok (K2, KG) ∧ D1 ≠ D2 ∧ K1.PosDef ∧ K2.PosDef ∧ Carries K1 KG 1 ∧
    Carries K2 KG 1 := by
  obtain ⟨K1, KG, h1, d1, -, c1⟩ := max_sound (x1 := 0) (x3 := -1) (by norm_num) (by norm_num) (by norm_num) (by norm_num)
  obtain ⟨K2, KG2, h2, d2, -, c2⟩ := max_sound (x1 := 0) (x3 := 0) (by norm_num) (by norm_num) (by norm_num) (by norm_num)
  obtain ⟨A0, A1, A3, hf⟩ := panel_form maxPanel maxPanel_ok _ _ _ _ _ _ K1 KG h1
  obtain ⟨rfl, rfl⟩ := Prod.mk.inj (Except.ok.inj ((hf 3.048 0 0).symm.trans h2))
  rw [panelD_eq maxPanel maxU maxU_eq] at h1 h2
  refine ⟨_, _, K1, _, KG, h1, h2, fun h => ?_, d1, d2, c1, c2⟩
  have := congrFun (congrFun h 0) 0
  rw [(design_entries _ _ _ _).2.1, (design_entries _ _ _ _).2.1] at this
  norm_num [maxU] at this

end Composipy
