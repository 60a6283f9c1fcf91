import Verif.Model.Stiffness
import Verif.Props.Constraints
import Verif.Props.IntegralTables

/-!
# Closed form of the bending matrices
-/

namespace Composipy
open Spec

/-- Real-valued tables. -/
structure RTables where
  ff : ℕ → ℕ → ℝ
  fxi_f : ℕ → ℕ → ℝ
  f_fxi : ℕ → ℕ → ℝ
  fxi_fxi : ℕ → ℕ → ℝ
  fxixi_f : ℕ → ℕ → ℝ
  f_fxixi : ℕ → ℕ → ℝ
  fxixi_fxi : ℕ → ℕ → ℝ
  fxi_fxixi : ℕ → ℕ → ℝ
  fxixi_fxixi : ℕ → ℕ → ℝ

/-- The readers return the values `V` on indices satisfying `p`. -/
structure Readers.OkOn (T : Readers) (V : RTables) (p : ℕ → Prop) : Prop where
  ff : ∀ i k, p i → p k → T.ff (i, k) = .ok (V.ff i k)
  fxi_f : ∀ i k, p i → p k → T.fxi_f (i, k) = .ok (V.fxi_f i k)
  f_fxi : ∀ i k, p i → p k → T.f_fxi (i, k) = .ok (V.f_fxi i k)
  fxi_fxi : ∀ i k, p i → p k → T.fxi_fxi (i, k) = .ok (V.fxi_fxi i k)
  fxixi_f : ∀ i k, p i → p k → T.fxixi_f (i, k) = .ok (V.fxixi_f i k)
  f_fxixi : ∀ i k, p i → p k → T.f_fxixi (i, k) = .ok (V.f_fxixi i k)
  fxixi_fxi : ∀ i k, p i → p k → T.fxixi_fxi (i, k) = .ok (V.fxixi_fxi i k)
  fxi_fxixi : ∀ i k, p i → p k → T.fxi_fxixi (i, k) = .ok (V.fxi_fxixi i k)
  fxixi_fxixi : ∀ i k, p i → p k → T.fxixi_fxixi (i, k) = .ok (V.fxixi_fxixi i k)

/-- Entry of the bending matrix. -/
noncomputable def k33v (V : RTables) (a b : ℝ) (D : Matrix (Fin 3) (Fin 3) ℝ) (r c : ℕ × ℕ) : ℝ :=
  4 * (b / a ^ 3) * D 0 0 * (V.fxixi_fxixi r.1 c.1 * V.ff r.2 c.2)
    + 4 / (a * b) * D 1 0 * (V.fxixi_f r.1 c.1 * V.f_fxixi r.2 c.2 + V.f_fxixi r.1 c.1 * V.fxixi_f r.2 c.2)
    + 4 * (a / b ^ 3) * D 1 1 * (V.ff r.1 c.1 * V.fxixi_fxixi r.2 c.2)
    + 8 / a ^ 2 * D 2 0 * (V.fxixi_fxi r.1 c.1 * V.f_fxi r.2 c.2 + V.fxi_fxixi r.1 c.1 * V.fxi_f r.2 c.2)
    + 8 / b ^ 2 * D 2 1 * (V.fxi_f r.1 c.1 * V.fxi_fxixi r.2 c.2 + V.f_fxi r.1 c.1 * V.fxixi_fxi r.2 c.2)
    + 16 / (a * b) * D 2 2 * (V.fxi_fxi r.1 c.1 * V.fxi_fxi r.2 c.2)

/-- Entry of the geometric matrix. -/
noncomputable def g33v (V : RTables) (a b Nxx Nyy Nxy : ℝ) (r c : ℕ × ℕ) : ℝ :=
  Nxx * (b / a) * (V.fxi_fxi r.1 c.1 * V.ff r.2 c.2) + Nyy * (a / b) * (V.ff r.1 c.1 * V.fxi_fxi r.2 c.2)
    + Nxy * (V.f_fxi r.1 c.1 * V.fxi_f r.2 c.2 + V.fxi_f r.1 c.1 * V.f_fxi r.2 c.2)

/-- The bending matrix over a list of shapes. -/
noncomputable def kMat (V : RTables) (a b : ℝ) (D : Matrix (Fin 3) (Fin 3) ℝ) (w : List (ℕ × ℕ)) (N : ℕ) : SqMat N :=
  Matrix.of fun r c => k33v V a b D (w.getD r (0, 0)) (w.getD c (0, 0))

/-- The geometric matrix over a list of shapes. -/
noncomputable def gMat (V : RTables) (a b Nxx Nyy Nxy : ℝ) (w : List (ℕ × ℕ)) (N : ℕ) : SqMat N :=
  Matrix.of fun r c => g33v V a b Nxx Nyy Nxy (w.getD r (0, 0)) (w.getD c (0, 0))

theorem kMat_lin (V : RTables) (a b s t : ℝ) (D1 D2 : Matrix (Fin 3) (Fin 3) ℝ) (w : List (ℕ × ℕ)) (N : ℕ) :
    kMat V a b (s • D1 + t • D2) w N = s • kMat V a b D1 w N + t • kMat V a b D2 w N := by
  ext r c
  simp only [kMat, Matrix.of_apply, Matrix.add_apply, Matrix.smul_apply, smul_eq_mul, k33v]
  ring

theorem kMat_smul (V : RTables) (a b s : ℝ) (D : Matrix (Fin 3) (Fin 3) ℝ) (w : List (ℕ × ℕ)) (N : ℕ) :
    kMat V a b (s • D) w N = s • kMat V a b D w N := by
  have := kMat_lin V a b s 0 D D w N
  simpa using this

theorem gMat_lin (V : RTables) (a b s t Nx Ny Ns Mx My Ms : ℝ) (w : List (ℕ × ℕ)) (N : ℕ) :
    gMat V a b (s * Nx + t * Mx) (s * Ny + t * My) (s * Ns + t * Ms) w N
      = s • gMat V a b Nx Ny Ns w N + t • gMat V a b Mx My Ms w N := by
  ext r c
  simp only [gMat, Matrix.of_apply, Matrix.add_apply, Matrix.smul_apply, smul_eq_mul, g33v]
  ring

theorem gMat_smul (V : RTables) (a b s Nx Ny Ns : ℝ) (w : List (ℕ × ℕ)) (N : ℕ) :
    gMat V a b (s * Nx) (s * Ny) (s * Ns) w N = s • gMat V a b Nx Ny Ns w N := by
  have := gMat_lin V a b s 0 Nx Ny Ns 0 0 0 w N
  simpa using this

theorem calcK33_ok {T : Readers} {V : RTables} {p : ℕ → Prop} (h : T.OkOn V p) {a b : ℝ} (ha : a ≠ 0) (hb : b ≠ 0)
    {i j k l : ℕ} (hi : p i) (hj : p j) (hk : p k) (hl : p l) (D : Matrix (Fin 3) (Fin 3) ℝ) :
    calcK33 T a b i j k l (D 0 0) (D 1 0) (D 1 1) (D 2 0) (D 2 1) (D 2 2) = .ok (k33v V a b D (i, j) (k, l)) := by
  simp [calcK33, rmul, pyDiv, k33v, h.ff _ _ hi hk, h.ff _ _ hj hl, h.fxi_f _ _ hi hk, h.fxi_f _ _ hj hl,
    h.f_fxi _ _ hi hk, h.f_fxi _ _ hj hl, h.fxi_fxi _ _ hi hk, h.fxi_fxi _ _ hj hl, h.fxixi_f _ _ hi hk,
    h.fxixi_f _ _ hj hl, h.f_fxixi _ _ hi hk, h.f_fxixi _ _ hj hl, h.fxixi_fxi _ _ hi hk, h.fxixi_fxi _ _ hj hl,
    h.fxi_fxixi _ _ hi hk, h.fxi_fxixi _ _ hj hl, h.fxixi_fxixi _ _ hi hk, h.fxixi_fxixi _ _ hj hl, ha, hb]

theorem calcKG33_ok {T : Readers} {V : RTables} {p : ℕ → Prop} (h : T.OkOn V p) {a b : ℝ} (ha : a ≠ 0) (hb : b ≠ 0)
    {i j k l : ℕ} (hi : p i) (hj : p j) (hk : p k) (hl : p l) (Nxx Nyy Nxy : ℝ) :
    calcKG33 T a b i j k l Nxx Nyy Nxy = .ok (g33v V a b Nxx Nyy Nxy (i, j) (k, l)) := by
  simp [calcKG33, rmul, pyDiv, g33v, h.ff _ _ hi hk, h.ff _ _ hj hl, h.fxi_f _ _ hi hk, h.fxi_f _ _ hj hl,
    h.f_fxi _ _ hi hk, h.f_fxi _ _ hj hl, h.fxi_fxi _ _ hi hk, h.fxi_fxi _ _ hj hl, ha, hb]

/-! ## The index quadruples -/

theorem quads_eq (xs ys : List ℕ) :
    quads xs ys = (xs.product ys).flatMap fun p => (xs.product ys).map fun q => (p.1, p.2, q.1, q.2) := by
  simp only [quads, List.product, List.flatMap_assoc, List.flatMap_map, List.map_flatMap, List.map_map]
  rfl

theorem flatMap_map_length {α β γ : Type} (l : List α) (l' : List β) (g : α → β → γ) :
    (l.flatMap fun p => l'.map (g p)).length = l.length * l'.length := by
  induction l with
  | nil => simp
  | cons x xs ih => simp [ih, Nat.succ_mul, Nat.add_comm]

theorem flatMap_map_get {α β γ : Type} (l : List α) (l' : List β) (g : α → β → γ) (r c : ℕ)
    (hr : r < l.length) (hc : c < l'.length) :
    (l.flatMap fun p => l'.map (g p))[r * l'.length + c]? = some (g l[r] l'[c]) := by
  induction l generalizing r with
  | nil => simp at hr
  | cons x xs ih =>
    rw [List.flatMap_cons]
    cases r with
    | zero => rw [List.getElem?_append_left (by simpa using hc)]; simp [hc]
    | succ r =>
      rw [List.getElem?_append_right (by simp [Nat.succ_mul]; omega)]
      have : (r + 1) * l'.length + c - (l'.map (g x)).length = r * l'.length + c := by
        simp [Nat.succ_mul]; omega
      rw [this, ih r (by simpa using hr)]
      simp

theorem mapM_range_idx {α β : Type} (L : List α) (f : α → Except PyErr β) :
    (List.range L.length).mapM (fun i => pyIdx L i >>= f) = L.mapM f := by
  have key : ∀ (L : List α) (M : List α) (k : ℕ), (∀ j, pyIdx M (k + j) = pyIdx L j) →
      ((List.range L.length).map (k + ·)).mapM (fun i => pyIdx M i >>= f) = L.mapM f := by
    intro L
    induction L with
    | nil => intros; rfl
    | cons x xs ih =>
      intro M k hM
      rw [List.length_cons, List.range_succ_eq_map, List.map_cons, List.mapM_cons, List.mapM_cons, hM 0]
      have e : (List.map (fun x => k + x) (List.map Nat.succ (List.range xs.length)))
          = (List.range xs.length).map ((k + 1) + ·) := by
        rw [List.map_map]
        exact List.map_congr_left fun j _ => by simp; omega
      rw [e, ih M (k + 1) fun j => by
        rw [show k + 1 + j = k + (j + 1) by omega, hM (j + 1)]; simp [pyIdx]]
      rfl
  have := key L L 0 fun j => by simp
  simpa using this

theorem mapM_ok {α β : Type} (L : List α) (f : α → Except PyErr β) (v : α → β) (h : ∀ x ∈ L, f x = .ok (v x)) :
    L.mapM f = .ok (L.map v) := by
  induction L with
  | nil => rfl
  | cons x xs ih =>
    rw [List.mapM_cons, h x (by simp), ih fun y hy => h y (by simp [hy])]
    rfl

theorem mapM_err {α β : Type} (L : List α) (f : α → Except PyErr β) (e : PyErr)
    (h : ∀ x ∈ L, (∃ y, f x = .ok y) ∨ f x = .error e) (he : ∃ x ∈ L, f x = .error e) : L.mapM f = .error e := by
  induction L with
  | nil => simp at he
  | cons x xs ih =>
    rw [List.mapM_cons]
    rcases h x (by simp) with ⟨y, hy⟩ | hx
    · obtain ⟨z, hz, hze⟩ := he
      rcases List.mem_cons.mp hz with rfl | hz
      · rw [hy] at hze; cases hze
      · rw [hy, ih (fun w hw => h w (by simp [hw])) ⟨z, hz, hze⟩]; rfl
    · rw [hx]; rfl

/-- `reshape` of a doubly indexed list. -/
theorem reshape_flatMap (P : List (ℕ × ℕ)) (N : ℕ) (hN : P.length = N) (g : ℕ × ℕ → ℕ × ℕ → ℝ) :
    reshape N (P.flatMap fun p => P.map (g p)) = .ok fun r c => g (P.getD r (0, 0)) (P.getD c (0, 0)) := by
  subst hN
  unfold reshape
  rw [if_pos (flatMap_map_length P P g)]
  congr 1
  funext r c
  have := flatMap_map_get P P g r c r.2 c.2
  simp [List.getD, this]

theorem constraintQuads_eq (c : Constraints) (m n : ℕ) :
    constraintQuads c m n = (do
      let s ← computeIdx c m n
      return (s.u.flatMap fun p => s.u.map fun q => (p.1, p.2, q.1, q.2),
        s.v.flatMap fun p => s.v.map fun q => (p.1, p.2, q.1, q.2),
        s.w.flatMap fun p => s.w.map fun q => (p.1, p.2, q.1, q.2))) := by
  unfold constraintQuads computeIdx
  cases chooseEdges c with
  | error e => rfl
  | ok e =>
    cases h : idxLists e m n with
    | error e' => simp [h]
    | ok i => simp [h, quads_eq]

/-- The loop of `calc_K_KG_D` runs over all pairs of selected shapes. -/
theorem calcKKGD_eq (T : Readers) (D : Matrix (Fin 3) (Fin 3) ℝ) (c : Constraints) (p : PlateNum) (s : ShapeIdx)
    (hs : computeIdx c p.m p.n = .ok s) :
    calcKKGD T (.ok D) c p = (do
      let ks ← (s.w.flatMap fun p => s.w.map fun q => (p.1, p.2, q.1, q.2)).mapM fun q => do
        let k ← calcK33 T p.a p.b q.1 q.2.1 q.2.2.1 q.2.2.2 (D 0 0) (D 1 0) (D 1 1) (D 2 0) (D 2 1) (D 2 2)
        let g ← calcKG33 T p.a p.b q.1 q.2.1 q.2.2.1 q.2.2.2 p.Nxx p.Nyy p.Nxy
        return (k, g)
      let K ← reshape (p.m * p.n) (ks.map Prod.fst)
      let KG ← reshape (p.m * p.n) (ks.map Prod.snd)
      return (K, KG)) := by
  unfold calcKKGD
  rw [constraintQuads_eq, hs]
  simp only [ok_bind, pure_eq_ok]
  have hlen : p.m ^ 2 * p.n ^ 2 = (s.w.flatMap fun p => s.w.map fun q => (p.1, p.2, q.1, q.2)).length := by
    rw [flatMap_map_length, (C40_sizes c _ _ s hs).2.2.len]; ring
  rw [hlen, mapM_range_idx]

/-- Closed form of the result of `calc_K_KG_D`. -/
theorem calcKKGD_ok {T : Readers} {V : RTables} {P : ℕ → Prop} (h : T.OkOn V P) (D : Matrix (Fin 3) (Fin 3) ℝ)
    (c : Constraints) (p : PlateNum) (s : ShapeIdx) (hs : computeIdx c p.m p.n = .ok s) (ha : p.a ≠ 0) (hb : p.b ≠ 0)
    (hp : ∀ q ∈ s.w, P q.1 ∧ P q.2) :
    calcKKGD T (.ok D) c p = .ok (kMat V p.a p.b D s.w _, gMat V p.a p.b p.Nxx p.Nyy p.Nxy s.w _) := by
  rw [calcKKGD_eq T D c p s hs]
  rw [mapM_ok _ _ (fun q => (k33v V p.a p.b D (q.1, q.2.1) (q.2.2.1, q.2.2.2),
    g33v V p.a p.b p.Nxx p.Nyy p.Nxy (q.1, q.2.1) (q.2.2.1, q.2.2.2)))]
  · have hN := (C40_sizes c _ _ s hs).2.2.len
    simp only [ok_bind, List.map_map, List.map_flatMap]
    have e1 := reshape_flatMap s.w _ hN (k33v V p.a p.b D)
    have e2 := reshape_flatMap s.w _ hN (g33v V p.a p.b p.Nxx p.Nyy p.Nxy)
    simp only [Function.comp_def] at *
    rw [e1, e2]
    rfl
  · intro q hq
    obtain ⟨x, hx, hq⟩ := List.mem_flatMap.mp hq
    obtain ⟨y, hy, rfl⟩ := List.mem_map.mp hq
    obtain ⟨x1, x2⟩ := hp x hx
    obtain ⟨y1, y2⟩ := hp y hy
    dsimp only
    rw [calcK33_ok h ha hb x1 x2 y1 y2, calcKG33_ok h ha hb x1 x2 y1 y2]
    rfl

/-! ## The shipped tables -/

/-- The number read, 0 when reading fails. -/
noncomputable def readVal (r : Except PyErr ℝ) : ℝ :=
  match r with
  | .ok q => q
  | .error _ => 0

/-- The shipped values. -/
noncomputable def shippedV : RTables :=
  { ff := fun i k => readVal (ii_ff (i, k)), fxi_f := fun i k => readVal (ii_fxi_f (i, k)),
    f_fxi := fun i k => readVal (ii_f_fxi (i, k)), fxi_fxi := fun i k => readVal (ii_fxi_fxi (i, k)),
    fxixi_f := fun i k => readVal (ii_fxixi_f (i, k)), f_fxixi := fun i k => readVal (ii_f_fxixi (i, k)),
    fxixi_fxi := fun i k => readVal (ii_fxixi_fxi (i, k)), fxi_fxixi := fun i k => readVal (ii_fxi_fxixi (i, k)),
    fxixi_fxixi := fun i k => readVal (ii_fxixi_fxixi (i, k)) }

theorem near_ok {r : Except PyErr ℝ} {e : Prop} {I : ℝ} (h : Near r e I) : r = .ok (readVal r) := by
  obtain ⟨q, rfl, -⟩ := h
  rfl

theorem shipped_ok : shipped.OkOn shippedV (· < 30) where
  ff i k hi hk := near_ok (C47_integrals i k hi hk).1
  fxi_f i k hi hk := near_ok (C47_integrals i k hi hk).2.1
  f_fxi i k hi hk := near_ok (C47_integrals i k hi hk).2.2.1
  fxi_fxi i k hi hk := near_ok (C47_integrals i k hi hk).2.2.2.1
  fxixi_f i k hi hk := near_ok (C47_integrals i k hi hk).2.2.2.2.1
  f_fxixi i k hi hk := near_ok (C47_integrals i k hi hk).2.2.2.2.2.1
  fxixi_fxi i k hi hk := near_ok (C47_integrals i k hi hk).2.2.2.2.2.2.1
  fxi_fxixi i k hi hk := near_ok (C47_integrals i k hi hk).2.2.2.2.2.2.2.1
  fxixi_fxixi i k hi hk := near_ok (C47_integrals i k hi hk).2.2.2.2.2.2.2.2

theorem textAt_err (t : List (List ℕ)) (hl : t.length = 30 ∧ t.all (fun r => r.length = 30) = true) (i k : ℕ)
    (h : ¬ (i < 30 ∧ k < 30)) : textAt t (i, k) = .error .keyError := by
  obtain ⟨hl, hr⟩ := hl
  unfold textAt
  by_cases hi : i < 30
  · have hi' : i < t.length := by omega
    have h2 := List.all_eq_true.mp hr t[i] (List.getElem_mem hi')
    simp only [decide_eq_true_eq] at h2
    have hk' : t[i].length ≤ k := by omega
    simp only [List.getElem?_eq_getElem hi', List.getElem?_eq_none hk']
  · simp only [List.getElem?_eq_none (show t.length ≤ i by omega)]

/-- The first reading of `calc_k33_ijkl` fails with `KeyError` when an index is outside the table. -/
theorem calcK33_err {a b : ℝ} {i j k l : ℕ} (h : ¬ (i < 30 ∧ j < 30 ∧ k < 30 ∧ l < 30)) (D : Matrix (Fin 3) (Fin 3) ℝ) :
    calcK33 shipped a b i j k l (D 0 0) (D 1 0) (D 1 1) (D 2 0) (D 2 1) (D 2 2) = .error .keyError := by
  have e1 : ∀ i k, ¬ (i < 30 ∧ k < 30) → ii_fxixi_fxixi (i, k) = .error .keyError := by
    intro i k h
    unfold ii_fxixi_fxixi evalAt
    rw [textAt_err _ (by decide +kernel) i k h]
    rfl
  have e2 : ∀ i k, ¬ (i < 30 ∧ k < 30) → ii_ff (i, k) = .error .keyError := by
    intro i k h
    unfold ii_ff evalAt
    rw [textAt_err _ (by decide +kernel) i k h]
    rfl
  unfold calcK33 rmul
  by_cases hik : i < 30 ∧ k < 30
  · have hjl : ¬ (j < 30 ∧ l < 30) := fun hjl => h ⟨hik.1, hjl.1, hik.2, hjl.2⟩
    have h1 := shipped_ok.fxixi_fxixi i k hik.1 hik.2
    have h2 : shipped.ff (j, l) = .error .keyError := e2 j l hjl
    simp [h1, h2]
  · have h1 : shipped.fxixi_fxixi (i, k) = .error .keyError := e1 i k hik
    simp [h1]

/-- Symmetry of the shipped values. -/
theorem shippedV_sym (i k : ℕ) : shippedV.ff i k = shippedV.ff k i ∧ shippedV.fxi_fxi i k = shippedV.fxi_fxi k i ∧
    shippedV.fxixi_fxixi i k = shippedV.fxixi_fxixi k i ∧ shippedV.f_fxi i k = shippedV.fxi_f k i ∧
    shippedV.f_fxixi i k = shippedV.fxixi_f k i ∧ shippedV.fxi_fxixi i k = shippedV.fxixi_fxi k i := by
  obtain ⟨h1, h2, h3⟩ := C47_symmetric i k
  exact ⟨by simp only [shippedV, h1], by simp only [shippedV, h2], by simp only [shippedV, h3], rfl, rfl, rfl⟩

/-! ## Which plates can be computed -/

/-- Shapes are numbered below `m + 4`. -/
theorem isFirst_lt {m : ℕ} {a b c d : Bool} {l : List ℕ} (h : IsFirst m (Kept a b c d) l) : ∀ i ∈ l, i < m + 4 := by
  intro i hi
  by_contra hge
  have hsub : (4 :: (List.range' 5 m)).toFinset ⊆ l.toFinset := by
    intro j hj
    simp only [List.toFinset_cons, Finset.mem_insert, List.mem_toFinset, List.mem_range'_1] at hj ⊢
    have hj4 : 4 ≤ j ∧ j ≤ m + 4 := by omega
    rcases Nat.lt_or_ge j i with hlt | hge'
    · refine h.complete i hi j hlt ?_
      simp only [Kept]
      refine ⟨?_, ?_, ?_, ?_⟩ <;> omega
    · have : j = i := by omega
      exact this ▸ hi
  have hc := Finset.card_le_card hsub
  have h1 : (4 :: (List.range' 5 m)).toFinset.card = m + 1 := by
    rw [List.toFinset_card_of_nodup]
    · simp
    · rw [List.nodup_cons]
      exact ⟨by simp, List.nodup_range'⟩
  have h2 := List.toFinset_card_le l
  rw [h.len] at h2
  omega

end Composipy
