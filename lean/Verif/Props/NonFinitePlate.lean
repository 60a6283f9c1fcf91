import Verif.Model.NonFinitePlate
import Verif.Props.NonFinite
import Verif.Props.LP

/-!
# C133: NaN and infinity in the data of a plate and in lamination parameters
-/

set_option linter.unusedSimpArgs false

namespace Composipy
open Spec Matrix

/-! ## The specification -/

/-- The number, with 1 in place of NaN and infinity. -/
def Spec.orOne : PyFloat → ℝ
  | .fin r => r
  | _ => 1

/-- The plate with 1 in place of NaN and infinity. -/
def Spec.XPlate.orOne (p : XPlate) : PlateNum :=
  ⟨Spec.orOne p.a, Spec.orOne p.b, Spec.orOne p.Nxx, Spec.orOne p.Nyy, Spec.orOne p.Nxy, p.m, p.n⟩

/-- A plate with finite data. -/
def PlateNum.toX (p : PlateNum) : XPlate := ⟨.fin p.a, .fin p.b, .fin p.Nxx, .fin p.Nyy, .fin p.Nxy, p.m, p.n⟩

/-- Two computations raise the same, or both return. -/
def Spec.SameErr {α β : Type} (x : Except PyErr α) (y : Except PyErr β) : Prop := ∀ e, x = .error e ↔ y = .error e

/-! ## Binds -/

theorem bind_same {α β γ δ : Type} {x : Except PyErr α} {y : Except PyErr β} {f : α → Except PyErr γ} {g : β → Except PyErr δ}
    (h : SameErr x y) (hfg : ∀ v w, x = .ok v → y = .ok w → SameErr (f v) (g w)) : SameErr (x >>= f) (y >>= g) := by
  cases x with
  | error e =>
    have := (h e).1 rfl
    subst this
    intro e'; simp
  | ok v =>
    cases y with
    | error e => exact absurd ((h e).2 rfl) (by simp)
    | ok w => simpa using hfg v w rfl rfl

theorem bind_agree {α β γ δ : Type} {x : Except PyErr α} {k : α → β} {u : γ → δ} {f : β → Except PyErr δ} {g : α → Except PyErr γ}
    (h : ∀ v, f (k v) = (g v).map u) : (x.map k >>= f) = (x >>= g).map u := by
  cases x with
  | error e => rfl
  | ok v => simpa [Except.map] using h v

theorem bind_okE {α β : Type} {x : Except PyErr α} {f : α → Except PyErr β} {k : β} (h : (x >>= f) = .ok k) : ∃ v, x = .ok v ∧ f v = .ok k := by
  cases x with
  | error e => simp at h
  | ok v => exact ⟨v, rfl, by simpa using h⟩

theorem same_ok {α β : Type} (v : α) (w : β) : SameErr (pure v : Except PyErr α) (pure w : Except PyErr β) := by
  intro e; simp [pure_eq_ok]

theorem xRmul_eq (x y : Except PyErr ℝ) : xRmul x y = (rmul x y).map .fin := by
  unfold xRmul rmul
  cases x <;> cases y <;> rfl

theorem rmul_same (x y : Except PyErr ℝ) : SameErr (xRmul x y) (rmul x y) := by
  rw [xRmul_eq]; intro e; cases rmul x y <;> simp [Except.map]

theorem xRmul_fin {x y : Except PyErr ℝ} {v : PyFloat} (h : xRmul x y = .ok v) : v.isFin := by
  rw [xRmul_eq] at h
  cases hr : rmul x y with
  | error e => simp [hr, Except.map] at h
  | ok r => simp [hr, Except.map] at h; subst h; trivial

theorem div_same (x y : PyFloat) (u v : ℝ) (hy : y ≠ .fin 0) (hv : v ≠ 0) : SameErr (x.div y) (pyDiv u v) := by
  intro e
  obtain ⟨q, hq⟩ := XF.div_ok_of_ne x y hy
  simp [hq, pyDiv, hv]

theorem same_zde {α β : Type} {x : Except PyErr α} {y : Except PyErr β} (hx : x = .error .zeroDivisionError)
    (hy : y = .error .zeroDivisionError) : SameErr x y := by
  intro e; rw [hx, hy]; simp

theorem div_raise {α : Type} {x y : PyFloat} {f : PyFloat → Except PyErr α} (h : y = .fin 0) :
    (x.div y >>= f) = .error .zeroDivisionError := by
  rw [(XF.div_error_iff x y .zeroDivisionError).2 ⟨rfl, h⟩]; rfl

theorem div_then {α : Type} {x y : PyFloat} {f : PyFloat → Except PyErr α} (h : ∀ v, f v = .error .zeroDivisionError) :
    (x.div y >>= f) = .error .zeroDivisionError := by
  cases hd : x.div y with
  | ok v => simpa using h v
  | error e => rw [(XF.div_err hd).1]; rfl

theorem pyDiv_raise {α : Type} {x y : ℝ} {f : ℝ → Except PyErr α} (h : y = 0) : (pyDiv x y >>= f) = .error .zeroDivisionError := by
  simp [pyDiv, h]

theorem pyDiv_then {α : Type} {x y : ℝ} {f : ℝ → Except PyErr α} (h : ∀ v, f v = .error .zeroDivisionError) :
    (pyDiv x y >>= f) = .error .zeroDivisionError := by
  unfold pyDiv; split
  · rfl
  · simpa using h _

theorem orOne_ne {x : PyFloat} (h : x ≠ .fin 0) : orOne x ≠ 0 := by
  cases x <;> simp_all [orOne]

theorem pow_ne_fin_zero {x : PyFloat} (h : x ≠ .fin 0) (n : ℕ) : x.pow n ≠ .fin 0 := by
  cases x with
  | fin r => rw [XF.fin_pow]; simp only [ne_eq, XF.fin.injEq] at h ⊢; exact pow_ne_zero n h
  | _ =>
    cases n with
    | zero => simp [XF.pow]
    | succ n =>
      intro hc
      have := (XF.pow_isFin _ n).1 (by rw [hc]; trivial)
      simp [XF.isFin] at this

theorem mul_ne_fin_zero {x y : PyFloat} (hx : x ≠ .fin 0) (hy : y ≠ .fin 0) : x.mul y ≠ .fin 0 := by
  intro hc
  obtain ⟨h1, h2⟩ := (XF.mul_isFin x y).1 (by rw [hc]; trivial)
  obtain ⟨r, rfl⟩ := XF.exists_fin h1
  obtain ⟨s, rfl⟩ := XF.exists_fin h2
  simp_all [XF.mul]

/-- The divisions of one entry: with a zero side both raise, otherwise neither does. -/
macro "same_tail" a:ident b:ident : tactic => `(tactic| (
  by_cases ha : $a = .fin 0
  · subst ha
    refine same_zde ?_ ?_
    · repeat (first | (refine div_raise ?_; first | rfl | (simp [XF.fin_pow]; done)) | refine div_then fun _ => ?_)
    · repeat (first | (refine pyDiv_raise ?_; first | rfl | (simp [orOne]; done)) | refine pyDiv_then fun _ => ?_)
  by_cases hb : $b = .fin 0
  · subst hb
    refine same_zde ?_ ?_
    · repeat (first | (refine div_raise ?_; first | rfl | (simp [XF.fin_pow]; done)) | refine div_then fun _ => ?_)
    · repeat (first | (refine pyDiv_raise ?_; first | rfl | (simp [orOne]; done)) | refine pyDiv_then fun _ => ?_)
  repeat (refine bind_same (div_same _ _ _ _ (by first | assumption | exact pow_ne_fin_zero (by assumption) _ | exact mul_ne_fin_zero (by assumption) (by assumption))
      (by first | exact orOne_ne (by assumption) | exact pow_ne_zero _ (orOne_ne (by assumption)) | exact mul_ne_zero (orOne_ne (by assumption)) (orOne_ne (by assumption)))) fun _ _ _ _ => ?_)
  exact same_ok _ _))

theorem XF.fin_mul (a b : ℝ) : (XF.fin a : PyFloat).mul (.fin b) = .fin (a * b) := rfl
theorem XF.fin_add (a b : ℝ) : (XF.fin a : PyFloat).add (.fin b) = .fin (a + b) := rfl
theorem XF.fin_neg (a : ℝ) : (XF.fin a : PyFloat).neg = .fin (-a) := rfl

/-- The divisions of one entry, for entries that divide by one side only. -/
macro "same_tail1" a:ident : tactic => `(tactic| (
  by_cases ha : $a = .fin 0
  · subst ha
    refine same_zde ?_ ?_
    · exact div_raise rfl
    · exact pyDiv_raise rfl
  repeat (refine bind_same (div_same _ _ _ _ ha (orOne_ne ha)) fun _ _ _ _ => ?_)
  exact same_ok _ _))

theorem fin_iff (a : ℝ) : (XF.fin a : PyFloat).isFin ↔ True := iff_true_intro trivial
theorem pow_isFin2 (a : PyFloat) : (a.pow 2).isFin ↔ a.isFin := XF.pow_isFin a 1
theorem pow_isFin3 (a : PyFloat) : (a.pow 3).isFin ↔ a.isFin := XF.pow_isFin a 2

/-- One reading returned. -/
macro "fin_read" h:ident : tactic => `(tactic| (
  have hy := bind_okE $h
  clear $h
  obtain ⟨_, hx, $h⟩ := hy
  replace hx := xRmul_fin hx))

/-- One division returned. -/
macro "fin_div" h:ident : tactic => `(tactic| (
  have hy := bind_okE $h
  clear $h
  obtain ⟨_, hx, $h⟩ := hy
  have hx1 := XF.div_isFin hx
  replace hx := XF.div_of_isFin hx))

/-- The value of one entry. -/
macro "fin_tail" h:ident : tactic => `(tactic| (
  repeat fin_read $h
  repeat fin_div $h
  simp only [pure_eq_ok, Except.ok.injEq] at $h:ident
  subst $h
  simp only [XF.add_isFin, XF.sub_isFin, XF.neg_isFin, XF.mul_isFin, pow_isFin2, pow_isFin3, fin_iff, true_and, true_imp_iff] at *
  refine ⟨fun hr => ?_, ?_⟩
  · simp_all only [and_self, true_and, and_true]
  · intros; simp_all only [and_self, true_imp_iff]))

/-- The readings of one entry are the same. -/
macro "same_head" : tactic => `(tactic| repeat (refine bind_same (rmul_same _ _) fun _ _ _ _ => ?_))

theorem pow_isFin' (a : PyFloat) (n : ℕ) (h : a.isFin) : (a.pow n).isFin := by
  obtain ⟨r, rfl⟩ := XF.exists_fin h
  rw [XF.fin_pow]; trivial

theorem K11_same (T : Readers) (a b : PyFloat) (i j k l : ℕ) (A11 A16 A66 : PyFloat) :
    SameErr (xCalcK11 T a b i j k l A11 A16 A66) (calcK11 T (orOne a) (orOne b) i j k l (orOne A11) (orOne A16) (orOne A66)) := by
  unfold xCalcK11 calcK11
  same_head
  same_tail1 a

theorem K11_agrees (T : Readers) (a b : ℝ) (i j k l : ℕ) (A11 A16 A66 : ℝ) :
    xCalcK11 T (.fin a) (.fin b) i j k l (.fin A11) (.fin A16) (.fin A66) = (calcK11 T a b i j k l A11 A16 A66).map .fin := by
  unfold xCalcK11 calcK11
  simp only [xRmul_eq, XF.fin_pow, XF.fin_mul, XF.fin_div]
  repeat refine bind_agree fun _ => ?_
  simp only [XF.fin_mul, XF.fin_add, XF.fin_sub, XF.fin_neg]; rfl

theorem K11_fin {T : Readers} {a b : PyFloat} {i j k l : ℕ} {A11 A16 A66 r : PyFloat} (h : xCalcK11 T a b i j k l A11 A16 A66 = .ok r) :
    (r.isFin → A11.isFin ∧ A16.isFin ∧ A66.isFin) ∧
    (a.isFin → b.isFin → A11.isFin → A16.isFin → A66.isFin → r.isFin) := by
  unfold xCalcK11 at h
  fin_tail h

theorem K12_same (T : Readers) (a b : PyFloat) (i j k l : ℕ) (A12 A16 A26 A66 : PyFloat) :
    SameErr (xCalcK12 T a b i j k l A12 A16 A26 A66) (calcK12 T (orOne a) (orOne b) i j k l (orOne A12) (orOne A16) (orOne A26) (orOne A66)) := by
  unfold xCalcK12 calcK12
  same_head
  same_tail a b

theorem K12_agrees (T : Readers) (a b : ℝ) (i j k l : ℕ) (A12 A16 A26 A66 : ℝ) :
    xCalcK12 T (.fin a) (.fin b) i j k l (.fin A12) (.fin A16) (.fin A26) (.fin A66) = (calcK12 T a b i j k l A12 A16 A26 A66).map .fin := by
  unfold xCalcK12 calcK12
  simp only [xRmul_eq, XF.fin_pow, XF.fin_mul, XF.fin_div]
  repeat refine bind_agree fun _ => ?_
  simp only [XF.fin_mul, XF.fin_add, XF.fin_sub, XF.fin_neg]; rfl

theorem K12_fin {T : Readers} {a b : PyFloat} {i j k l : ℕ} {A12 A16 A26 A66 r : PyFloat} (h : xCalcK12 T a b i j k l A12 A16 A26 A66 = .ok r) :
    (r.isFin → A12.isFin ∧ A16.isFin ∧ A26.isFin ∧ A66.isFin) ∧
    (a.isFin → b.isFin → A12.isFin → A16.isFin → A26.isFin → A66.isFin → r.isFin) := by
  unfold xCalcK12 at h
  fin_tail h

theorem K13_same (T : Readers) (a b : PyFloat) (i j k l : ℕ) (B11 B12 B16 B26 B66 : PyFloat) :
    SameErr (xCalcK13 T a b i j k l B11 B12 B16 B26 B66) (calcK13 T (orOne a) (orOne b) i j k l (orOne B11) (orOne B12) (orOne B16) (orOne B26) (orOne B66)) := by
  unfold xCalcK13 calcK13
  same_head
  same_tail a b

theorem K13_agrees (T : Readers) (a b : ℝ) (i j k l : ℕ) (B11 B12 B16 B26 B66 : ℝ) :
    xCalcK13 T (.fin a) (.fin b) i j k l (.fin B11) (.fin B12) (.fin B16) (.fin B26) (.fin B66) = (calcK13 T a b i j k l B11 B12 B16 B26 B66).map .fin := by
  unfold xCalcK13 calcK13
  simp only [xRmul_eq, XF.fin_pow, XF.fin_mul, XF.fin_div]
  repeat refine bind_agree fun _ => ?_
  simp only [XF.fin_mul, XF.fin_add, XF.fin_sub, XF.fin_neg]; rfl

theorem K13_fin {T : Readers} {a b : PyFloat} {i j k l : ℕ} {B11 B12 B16 B26 B66 r : PyFloat} (h : xCalcK13 T a b i j k l B11 B12 B16 B26 B66 = .ok r) :
    (r.isFin → B11.isFin ∧ B12.isFin ∧ B16.isFin ∧ B26.isFin ∧ B66.isFin) ∧
    (a.isFin → b.isFin → B11.isFin → B12.isFin → B16.isFin → B26.isFin → B66.isFin → r.isFin) := by
  unfold xCalcK13 at h
  fin_tail h

theorem K21_same (T : Readers) (a b : PyFloat) (i j k l : ℕ) (A12 A16 A26 A66 : PyFloat) :
    SameErr (xCalcK21 T a b i j k l A12 A16 A26 A66) (calcK21 T (orOne a) (orOne b) i j k l (orOne A12) (orOne A16) (orOne A26) (orOne A66)) := by
  unfold xCalcK21 calcK21
  same_head
  same_tail1 b

theorem K21_agrees (T : Readers) (a b : ℝ) (i j k l : ℕ) (A12 A16 A26 A66 : ℝ) :
    xCalcK21 T (.fin a) (.fin b) i j k l (.fin A12) (.fin A16) (.fin A26) (.fin A66) = (calcK21 T a b i j k l A12 A16 A26 A66).map .fin := by
  unfold xCalcK21 calcK21
  simp only [xRmul_eq, XF.fin_pow, XF.fin_mul, XF.fin_div]
  repeat refine bind_agree fun _ => ?_
  simp only [XF.fin_mul, XF.fin_add, XF.fin_sub, XF.fin_neg]; rfl

theorem K21_fin {T : Readers} {a b : PyFloat} {i j k l : ℕ} {A12 A16 A26 A66 r : PyFloat} (h : xCalcK21 T a b i j k l A12 A16 A26 A66 = .ok r) :
    (r.isFin → A12.isFin ∧ A16.isFin ∧ A26.isFin ∧ A66.isFin) ∧
    (a.isFin → b.isFin → A12.isFin → A16.isFin → A26.isFin → A66.isFin → r.isFin) := by
  unfold xCalcK21 at h
  fin_tail h

theorem K22_same (T : Readers) (a b : PyFloat) (i j k l : ℕ) (A22 A26 A66 : PyFloat) :
    SameErr (xCalcK22 T a b i j k l A22 A26 A66) (calcK22 T (orOne a) (orOne b) i j k l (orOne A22) (orOne A26) (orOne A66)) := by
  unfold xCalcK22 calcK22
  same_head
  same_tail a b

theorem K22_agrees (T : Readers) (a b : ℝ) (i j k l : ℕ) (A22 A26 A66 : ℝ) :
    xCalcK22 T (.fin a) (.fin b) i j k l (.fin A22) (.fin A26) (.fin A66) = (calcK22 T a b i j k l A22 A26 A66).map .fin := by
  unfold xCalcK22 calcK22
  simp only [xRmul_eq, XF.fin_pow, XF.fin_mul, XF.fin_div]
  repeat refine bind_agree fun _ => ?_
  simp only [XF.fin_mul, XF.fin_add, XF.fin_sub, XF.fin_neg]; rfl

theorem K22_fin {T : Readers} {a b : PyFloat} {i j k l : ℕ} {A22 A26 A66 r : PyFloat} (h : xCalcK22 T a b i j k l A22 A26 A66 = .ok r) :
    (r.isFin → A22.isFin ∧ A26.isFin ∧ A66.isFin) ∧
    (a.isFin → b.isFin → A22.isFin → A26.isFin → A66.isFin → r.isFin) := by
  unfold xCalcK22 at h
  fin_tail h

theorem K23_same (T : Readers) (a b : PyFloat) (i j k l : ℕ) (B12 B16 B22 B26 B66 : PyFloat) :
    SameErr (xCalcK23 T a b i j k l B12 B16 B22 B26 B66) (calcK23 T (orOne a) (orOne b) i j k l (orOne B12) (orOne B16) (orOne B22) (orOne B26) (orOne B66)) := by
  unfold xCalcK23 calcK23
  same_head
  same_tail a b

theorem K23_agrees (T : Readers) (a b : ℝ) (i j k l : ℕ) (B12 B16 B22 B26 B66 : ℝ) :
    xCalcK23 T (.fin a) (.fin b) i j k l (.fin B12) (.fin B16) (.fin B22) (.fin B26) (.fin B66) = (calcK23 T a b i j k l B12 B16 B22 B26 B66).map .fin := by
  unfold xCalcK23 calcK23
  simp only [xRmul_eq, XF.fin_pow, XF.fin_mul, XF.fin_div]
  repeat refine bind_agree fun _ => ?_
  simp only [XF.fin_mul, XF.fin_add, XF.fin_sub, XF.fin_neg]; rfl

theorem K23_fin {T : Readers} {a b : PyFloat} {i j k l : ℕ} {B12 B16 B22 B26 B66 r : PyFloat} (h : xCalcK23 T a b i j k l B12 B16 B22 B26 B66 = .ok r) :
    (r.isFin → B12.isFin ∧ B16.isFin ∧ B22.isFin ∧ B26.isFin ∧ B66.isFin) ∧
    (a.isFin → b.isFin → B12.isFin → B16.isFin → B22.isFin → B26.isFin → B66.isFin → r.isFin) := by
  unfold xCalcK23 at h
  fin_tail h

theorem K31_same (T : Readers) (a b : PyFloat) (i j k l : ℕ) (B11 B12 B16 B26 B66 : PyFloat) :
    SameErr (xCalcK31 T a b i j k l B11 B12 B16 B26 B66) (calcK31 T (orOne a) (orOne b) i j k l (orOne B11) (orOne B12) (orOne B16) (orOne B26) (orOne B66)) := by
  unfold xCalcK31 calcK31
  same_head
  same_tail a b

theorem K31_agrees (T : Readers) (a b : ℝ) (i j k l : ℕ) (B11 B12 B16 B26 B66 : ℝ) :
    xCalcK31 T (.fin a) (.fin b) i j k l (.fin B11) (.fin B12) (.fin B16) (.fin B26) (.fin B66) = (calcK31 T a b i j k l B11 B12 B16 B26 B66).map .fin := by
  unfold xCalcK31 calcK31
  simp only [xRmul_eq, XF.fin_pow, XF.fin_mul, XF.fin_div]
  repeat refine bind_agree fun _ => ?_
  simp only [XF.fin_mul, XF.fin_add, XF.fin_sub, XF.fin_neg]; rfl

theorem K31_fin {T : Readers} {a b : PyFloat} {i j k l : ℕ} {B11 B12 B16 B26 B66 r : PyFloat} (h : xCalcK31 T a b i j k l B11 B12 B16 B26 B66 = .ok r) :
    (r.isFin → B11.isFin ∧ B12.isFin ∧ B16.isFin ∧ B26.isFin ∧ B66.isFin) ∧
    (a.isFin → b.isFin → B11.isFin → B12.isFin → B16.isFin → B26.isFin → B66.isFin → r.isFin) := by
  unfold xCalcK31 at h
  fin_tail h

theorem K32_same (T : Readers) (a b : PyFloat) (i j k l : ℕ) (B12 B16 B22 B26 B66 : PyFloat) :
    SameErr (xCalcK32 T a b i j k l B12 B16 B22 B26 B66) (calcK32 T (orOne a) (orOne b) i j k l (orOne B12) (orOne B16) (orOne B22) (orOne B26) (orOne B66)) := by
  unfold xCalcK32 calcK32
  same_head
  same_tail a b

theorem K32_agrees (T : Readers) (a b : ℝ) (i j k l : ℕ) (B12 B16 B22 B26 B66 : ℝ) :
    xCalcK32 T (.fin a) (.fin b) i j k l (.fin B12) (.fin B16) (.fin B22) (.fin B26) (.fin B66) = (calcK32 T a b i j k l B12 B16 B22 B26 B66).map .fin := by
  unfold xCalcK32 calcK32
  simp only [xRmul_eq, XF.fin_pow, XF.fin_mul, XF.fin_div]
  repeat refine bind_agree fun _ => ?_
  simp only [XF.fin_mul, XF.fin_add, XF.fin_sub, XF.fin_neg]; rfl

theorem K32_fin {T : Readers} {a b : PyFloat} {i j k l : ℕ} {B12 B16 B22 B26 B66 r : PyFloat} (h : xCalcK32 T a b i j k l B12 B16 B22 B26 B66 = .ok r) :
    (r.isFin → B12.isFin ∧ B16.isFin ∧ B22.isFin ∧ B26.isFin ∧ B66.isFin) ∧
    (a.isFin → b.isFin → B12.isFin → B16.isFin → B22.isFin → B26.isFin → B66.isFin → r.isFin) := by
  unfold xCalcK32 at h
  fin_tail h

theorem K33_same (T : Readers) (a b : PyFloat) (i j k l : ℕ) (D11 D12 D22 D16 D26 D66 : PyFloat) :
    SameErr (xCalcK33 T a b i j k l D11 D12 D22 D16 D26 D66) (calcK33 T (orOne a) (orOne b) i j k l (orOne D11) (orOne D12) (orOne D22) (orOne D16) (orOne D26) (orOne D66)) := by
  unfold xCalcK33 calcK33
  same_head
  same_tail a b

theorem K33_agrees (T : Readers) (a b : ℝ) (i j k l : ℕ) (D11 D12 D22 D16 D26 D66 : ℝ) :
    xCalcK33 T (.fin a) (.fin b) i j k l (.fin D11) (.fin D12) (.fin D22) (.fin D16) (.fin D26) (.fin D66) = (calcK33 T a b i j k l D11 D12 D22 D16 D26 D66).map .fin := by
  unfold xCalcK33 calcK33
  simp only [xRmul_eq, XF.fin_pow, XF.fin_mul, XF.fin_div]
  repeat refine bind_agree fun _ => ?_
  simp only [XF.fin_mul, XF.fin_add, XF.fin_sub, XF.fin_neg]; rfl

theorem K33_fin {T : Readers} {a b : PyFloat} {i j k l : ℕ} {D11 D12 D22 D16 D26 D66 r : PyFloat} (h : xCalcK33 T a b i j k l D11 D12 D22 D16 D26 D66 = .ok r) :
    (r.isFin → D11.isFin ∧ D12.isFin ∧ D22.isFin ∧ D16.isFin ∧ D26.isFin ∧ D66.isFin ∧ a.isFin ∧ b.isFin) ∧
    (a.isFin → b.isFin → D11.isFin → D12.isFin → D22.isFin → D16.isFin → D26.isFin → D66.isFin → r.isFin) := by
  unfold xCalcK33 at h
  fin_tail h

theorem KG33_same (T : Readers) (a b : PyFloat) (i j k l : ℕ) (Nxx Nyy Nxy : PyFloat) :
    SameErr (xCalcKG33 T a b i j k l Nxx Nyy Nxy) (calcKG33 T (orOne a) (orOne b) i j k l (orOne Nxx) (orOne Nyy) (orOne Nxy)) := by
  unfold xCalcKG33 calcKG33
  same_head
  same_tail a b

theorem KG33_agrees (T : Readers) (a b : ℝ) (i j k l : ℕ) (Nxx Nyy Nxy : ℝ) :
    xCalcKG33 T (.fin a) (.fin b) i j k l (.fin Nxx) (.fin Nyy) (.fin Nxy) = (calcKG33 T a b i j k l Nxx Nyy Nxy).map .fin := by
  unfold xCalcKG33 calcKG33
  simp only [xRmul_eq, XF.fin_pow, XF.fin_mul, XF.fin_div]
  repeat refine bind_agree fun _ => ?_
  simp only [XF.fin_mul, XF.fin_add, XF.fin_sub, XF.fin_neg]; rfl

theorem KG33_fin {T : Readers} {a b : PyFloat} {i j k l : ℕ} {Nxx Nyy Nxy r : PyFloat} (h : xCalcKG33 T a b i j k l Nxx Nyy Nxy = .ok r) :
    (r.isFin → Nxx.isFin ∧ Nyy.isFin ∧ Nxy.isFin ∧ a.isFin ∧ b.isFin) ∧
    (a.isFin → b.isFin → Nxx.isFin → Nyy.isFin → Nxy.isFin → r.isFin) := by
  unfold xCalcKG33 at h
  fin_tail h


/-! ## Matrices -/

theorem mapM_same {α β γ : Type} {f : α → Except PyErr β} {g : α → Except PyErr γ} (L : List α) (h : ∀ x ∈ L, SameErr (f x) (g x)) :
    SameErr (L.mapM f) (L.mapM g) := by
  induction L with
  | nil => intro e; simp [pure_eq_ok]
  | cons x L ih =>
    simp only [List.mapM_cons]
    refine bind_same (h x List.mem_cons_self) fun _ _ _ _ => bind_same (ih fun y hy => h y (List.mem_cons_of_mem _ hy)) fun _ _ _ _ => same_ok _ _

theorem same_refl {α : Type} (x : Except PyErr α) : SameErr x x := fun _ => Iff.rfl

theorem mapM_len {α β : Type} {f : α → Except PyErr β} {L : List α} {ys : List β} (h : L.mapM f = .ok ys) : ys.length = L.length :=
  (mapM_forall₂ f L ys h).length_eq.symm

theorem reshape_same (N : ℕ) (l : List PyFloat) (l' : List ℝ) (h : l.length = l'.length) : SameErr (xReshape N l) (reshape N l') := by
  intro e
  unfold xReshape reshape
  rw [h]
  by_cases hc : l'.length = N * N <;> simp [hc]

/-- **C133 (exceptions).** NaN and infinity never make `calc_K_KG_D` raise: with any `a`, `b`, loads and `D` it raises what it raises with 1
in place of every NaN and infinity, and returns when that returns. -/
theorem C133_raise (T : Readers) (D : Except PyErr X3) (c : Constraints) (p : XPlate) :
    SameErr (xCalcKKGD T D c p) (calcKKGD T (D.map fun M => fun i j => orOne (M i j)) c (XPlate.orOne p)) := by
  unfold xCalcKKGD calcKKGD
  refine bind_same (by intro e; cases D <;> simp [Except.map]) fun M M' hM hM' => ?_
  subst hM
  cases hM'
  refine bind_same (same_refl _) fun q q' hq hq' => ?_
  have hqq : q = q' := by
    have := hq.symm.trans hq'
    simpa using this
  subst hqq
  refine bind_same (mapM_same _ fun i _ => bind_same (same_refl _) fun v v' hv hv' => ?_) fun ks ks' hks hks' => ?_
  · have hvv : v = v' := by
      have := hv.symm.trans hv'
      simpa using this
    subst hvv
    exact bind_same (K33_same _ _ _ _ _ _ _ _ _ _ _ _ _) fun _ _ _ _ => bind_same (KG33_same _ _ _ _ _ _ _ _ _ _) fun _ _ _ _ => same_ok _ _
  · have hl : ks.length = ks'.length := (mapM_len hks).trans (mapM_len hks').symm
    exact bind_same (reshape_same _ _ _ (by simpa using hl)) fun _ _ _ _ => bind_same (reshape_same _ _ _ (by simpa using hl)) fun _ _ _ _ =>
      same_ok _ _

theorem mapM_agree {α β γ : Type} {f : α → Except PyErr β} {g : α → Except PyErr γ} {k : γ → β} (L : List α) (h : ∀ x ∈ L, f x = (g x).map k) :
    L.mapM f = (L.mapM g).map (List.map k) := by
  induction L with
  | nil => rfl
  | cons x L ih =>
    simp only [List.mapM_cons]
    rw [h x List.mem_cons_self, ih fun y hy => h y (List.mem_cons_of_mem _ hy)]
    cases g x <;> cases L.mapM g <;> rfl

/-- An array of finite numbers. -/
def toXSq {N : ℕ} (M : SqMat N) : XSq N := fun i j => .fin (M i j)

theorem reshape_agrees (N : ℕ) (l : List ℝ) : xReshape N (l.map .fin) = (reshape N l).map toXSq := by
  unfold xReshape reshape
  rw [List.length_map]
  by_cases h : l.length = N * N
  · simp only [h, if_true, Except.map, Except.ok.injEq]
    funext r c
    have hlt : (r : ℕ) * N + c < l.length := by
      rw [h]
      calc (r : ℕ) * N + c < r * N + N := by omega
        _ = (r + 1) * N := by ring
        _ ≤ N * N := Nat.mul_le_mul_right N r.2
    simp [toXSq, List.getD_eq_getElem?_getD, hlt]
  · simp [h, Except.map]

/-- **C133 (finite data).** For numbers the matrices are those of the other properties. -/
theorem C133_agrees (T : Readers) (D : Except PyErr M3) (c : Constraints) (p : PlateNum) :
    xCalcKKGD T (D.map toX3) c p.toX = (calcKKGD T D c p).map fun r => (toXSq r.1, toXSq r.2) := by
  unfold xCalcKKGD calcKKGD
  refine bind_agree fun M => ?_
  cases hq : constraintQuads c p.m p.n with
  | error e => simp [PlateNum.toX, hq, Except.map]
  | ok q =>
    simp only [PlateNum.toX, hq, ok_bind, toX3]
    rw [mapM_agree (k := fun r : ℝ × ℝ => (XF.fin r.1, XF.fin r.2)) (g := fun i => do
      let (wi, wj, wk, wl) ← pyIdx q.2.2 i
      let k ← calcK33 T p.a p.b wi wj wk wl (M 0 0) (M 1 0) (M 1 1) (M 2 0) (M 2 1) (M 2 2)
      let g ← calcKG33 T p.a p.b wi wj wk wl p.Nxx p.Nyy p.Nxy
      return (k, g)) _ fun i _ => ?_]
    · refine bind_agree fun ks => ?_
      have h1 : (List.map (fun r : ℝ × ℝ => ((XF.fin r.1, XF.fin r.2) : PyFloat × PyFloat)) ks).map Prod.fst = (ks.map Prod.fst).map .fin := by simp
      have h2 : (List.map (fun r : ℝ × ℝ => ((XF.fin r.1, XF.fin r.2) : PyFloat × PyFloat)) ks).map Prod.snd = (ks.map Prod.snd).map .fin := by simp
      rw [h1, h2, reshape_agrees, reshape_agrees]
      exact bind_agree fun K => bind_agree fun KG => rfl
    · cases pyIdx q.2.2 i with
      | error e => rfl
      | ok v =>
        simp only [ok_bind]
        rw [K33_agrees, KG33_agrees]
        exact bind_agree fun K => bind_agree fun KG => rfl

theorem mapM_mem {α β : Type} {f : α → Except PyErr β} {L : List α} {ys : List β} (h : L.mapM f = .ok ys) (y : β) (hy : y ∈ ys) :
    ∃ x ∈ L, f x = .ok y := forall₂_mem (mapM_forall₂ f L ys h) y hy

theorem xReshape_mem {N : ℕ} {l : List PyFloat} {K : XSq N} (h : xReshape N l = .ok K) (r c : Fin N) : K r c ∈ l := by
  unfold xReshape at h
  by_cases hl : l.length = N * N
  · simp only [hl, if_true, Except.ok.injEq] at h
    subst h
    have hlt : (r : ℕ) * N + c < l.length := by
      rw [hl]
      calc (r : ℕ) * N + c < r * N + N := by omega
        _ = (r + 1) * N := by ring
        _ ≤ N * N := Nat.mul_le_mul_right N r.2
    simp only [List.getD_eq_getElem?_getD, List.getElem?_eq_getElem hlt, Option.getD_some]
    exact List.getElem_mem hlt
  · simp [hl] at h

theorem xCalcKKGD_entries {T : Readers} {D : Except PyErr X3} {c : Constraints} {p : XPlate} {K KG : XSq (p.m * p.n)}
    (h : xCalcKKGD T D c p = .ok (K, KG)) : ∃ M, D = .ok M ∧ ∀ r s,
      (∃ i j k l, xCalcK33 T p.a p.b i j k l (M 0 0) (M 1 0) (M 1 1) (M 2 0) (M 2 1) (M 2 2) = .ok (K r s)) ∧
      (∃ i j k l, xCalcKG33 T p.a p.b i j k l p.Nxx p.Nyy p.Nxy = .ok (KG r s)) := by
  unfold xCalcKKGD at h
  obtain ⟨M, hM, h⟩ := bind_okE h
  obtain ⟨q, hq, h⟩ := bind_okE h
  obtain ⟨ks, hks, h⟩ := bind_okE h
  obtain ⟨K', hK, h⟩ := bind_okE h
  obtain ⟨KG', hKG, h⟩ := bind_okE h
  simp only [pure_eq_ok, Except.ok.injEq, Prod.mk.injEq] at h
  obtain ⟨rfl, rfl⟩ := h
  refine ⟨M, hM, fun r s => ⟨?_, ?_⟩⟩
  · obtain ⟨y, hy, he⟩ := List.mem_map.1 (xReshape_mem hK r s)
    obtain ⟨i, -, hi⟩ := mapM_mem hks y hy
    obtain ⟨v, -, hi⟩ := bind_okE hi
    obtain ⟨k, hk, hi⟩ := bind_okE hi
    obtain ⟨g, hg, hi⟩ := bind_okE hi
    simp only [pure_eq_ok, Except.ok.injEq] at hi
    subst hi
    exact ⟨_, _, _, _, by rw [hk, ← he]⟩
  · obtain ⟨y, hy, he⟩ := List.mem_map.1 (xReshape_mem hKG r s)
    obtain ⟨i, -, hi⟩ := mapM_mem hks y hy
    obtain ⟨v, -, hi⟩ := bind_okE hi
    obtain ⟨k, hk, hi⟩ := bind_okE hi
    obtain ⟨g, hg, hi⟩ := bind_okE hi
    simp only [pure_eq_ok, Except.ok.injEq] at hi
    subst hi
    exact ⟨_, _, _, _, by rw [hg, ← he]⟩

/-- **C133 (plates).** Every single entry of `K` is a number iff `a`, `b` and the entries of `D` on and below the diagonal are; every single
entry of `KG` is a number iff `a`, `b` and the three loads are. -/
theorem C133_plate (T : Readers) (M : X3) (c : Constraints) (p : XPlate) (K KG : XSq (p.m * p.n))
    (h : xCalcKKGD T (.ok M) c p = .ok (K, KG)) (r s : Fin (p.m * p.n)) :
    ((K r s).isFin ↔ p.a.isFin ∧ p.b.isFin ∧ ∀ i j : Fin 3, j ≤ i → (M i j).isFin) ∧
    ((KG r s).isFin ↔ p.a.isFin ∧ p.b.isFin ∧ p.Nxx.isFin ∧ p.Nyy.isFin ∧ p.Nxy.isFin) := by
  obtain ⟨M', hM, he⟩ := xCalcKKGD_entries h
  cases hM
  obtain ⟨⟨i, j, k, l, hK⟩, ⟨i', j', k', l', hG⟩⟩ := he r s
  have h1 := K33_fin hK
  have h2 := KG33_fin hG
  constructor
  · constructor
    · intro hf
      obtain ⟨a, b, c, d, e, f, g, h⟩ := h1.1 hf
      refine ⟨g, h, fun i j hij => ?_⟩
      fin_cases i <;> fin_cases j <;> first | assumption | (simp at hij)
    · rintro ⟨ha, hb, hD⟩
      exact h1.2 ha hb (hD _ _ (by decide)) (hD _ _ (by decide)) (hD _ _ (by decide)) (hD _ _ (by decide)) (hD _ _ (by decide)) (hD _ _ (by decide))
  · constructor
    · intro hf
      obtain ⟨a, b, c, d, e⟩ := h2.1 hf
      exact ⟨d, e, a, b, c⟩
    · rintro ⟨ha, hb, hx, hy, hs⟩
      exact h2.2 ha hb hx hy hs

/-- **C133 (plates of stacks).** Every single entry of `K` is a number iff `a`, `b` and all angles, thicknesses and elastic constants of all
plies are. -/
theorem C133_stack (T : Readers) (L : List (PyFloat × XMat)) (c : Constraints) (p : XPlate) (K KG : XSq (p.m * p.n))
    (h : xCalcKKGD T (xD L) c p = .ok (K, KG)) (r s : Fin (p.m * p.n)) :
    (K r s).isFin ↔ p.a.isFin ∧ p.b.isFin ∧ ∀ q ∈ L, FinitePly q := by
  obtain ⟨M, hM, -⟩ := xCalcKKGD_entries h
  rw [hM] at h
  rw [(C133_plate T M c p K KG h r s).1]
  have hs := fun i j => (C132_stack L i j).2.2 M hM
  constructor
  · rintro ⟨ha, hb, hD⟩
    exact ⟨ha, hb, (hs 0 0).1 (hD 0 0 le_rfl)⟩
  · rintro ⟨ha, hb, hL⟩
    exact ⟨ha, hb, fun i j _ => (hs i j).2 hL⟩

/-! ## The 18 stiffness numbers of `calc_K_KG_ABD` -/

/-- The places of `A11, A12, A22, A16, A26, A66, B11, ..., D66` in the 6x6 matrix `ABD`. -/
def Spec.abdPlaces : List (Fin 6 × Fin 6) :=
  [(0, 0), (1, 0), (1, 1), (2, 0), (2, 1), (2, 2), (3, 0), (4, 0), (4, 1), (5, 0), (5, 1), (5, 2), (3, 3), (4, 3), (4, 4), (5, 3), (5, 4), (5, 5)]

/-- **C133 (exceptions).** NaN and infinity never make `calc_K_KG_ABD` raise. -/
theorem C133_raise_ABD (T : Readers) (M : Except PyErr (Fin 6 → Fin 6 → PyFloat)) (c : Constraints) (p : XPlate) :
    SameErr (xCalcKKGABD T M c p) (calcKKGABD T (M.map fun M => fun i j => orOne (M i j)) c (XPlate.orOne p)) := by
  unfold xCalcKKGABD calcKKGABD
  refine bind_same (by intro e; cases M <;> simp [Except.map]) fun M M' hM hM' => ?_
  subst hM
  cases hM'
  refine bind_same (same_refl _) fun q q' hq hq' => ?_
  have hqq : q = q' := by
    have := hq.symm.trans hq'
    simpa using this
  subst hqq
  refine bind_same (mapM_same _ fun i _ => ?_) fun ks ks' hks hks' => ?_
  · cases pyIdx q.1 i with
    | error e => intro e'; simp
    | ok u =>
    cases pyIdx q.2.1 i with
    | error e => intro e'; simp
    | ok v =>
    cases pyIdx q.2.2 i with
    | error e => intro e'; simp
    | ok w =>
    simp only [ok_bind]
    refine bind_same (K11_same _ _ _ _ _ _ _ _ _ _) fun _ _ _ _ => ?_
    refine bind_same (K12_same _ _ _ _ _ _ _ _ _ _ _) fun _ _ _ _ => ?_
    refine bind_same (K13_same _ _ _ _ _ _ _ _ _ _ _ _) fun _ _ _ _ => ?_
    refine bind_same (K21_same _ _ _ _ _ _ _ _ _ _ _) fun _ _ _ _ => ?_
    refine bind_same (K22_same _ _ _ _ _ _ _ _ _ _) fun _ _ _ _ => ?_
    refine bind_same (K23_same _ _ _ _ _ _ _ _ _ _ _ _) fun _ _ _ _ => ?_
    refine bind_same (K31_same _ _ _ _ _ _ _ _ _ _ _ _) fun _ _ _ _ => ?_
    refine bind_same (K32_same _ _ _ _ _ _ _ _ _ _ _ _) fun _ _ _ _ => ?_
    refine bind_same (K33_same _ _ _ _ _ _ _ _ _ _ _ _ _) fun _ _ _ _ => ?_
    refine bind_same (KG33_same _ _ _ _ _ _ _ _ _ _) fun _ _ _ _ => ?_
    exact same_ok _ _
  · have hl : ks.length = ks'.length := (mapM_len hks).trans (mapM_len hks').symm
    iterate 10 refine bind_same (reshape_same _ _ _ (by simpa using hl)) fun _ _ _ _ => ?_
    exact same_ok _ _

theorem xStack3_fin {N : ℕ} (k : Fin 3 → Fin 3 → XSq N) : (∀ r c, (xStack3 k r c).isFin) ↔ ∀ i j r c, (k i j r c).isFin := by
  constructor
  · intro h i j r c
    fin_cases i <;> fin_cases j
    · exact h (.inl r) (.inl c)
    · exact h (.inl r) (.inr (.inl c))
    · exact h (.inl r) (.inr (.inr c))
    · exact h (.inr (.inl r)) (.inl c)
    · exact h (.inr (.inl r)) (.inr (.inl c))
    · exact h (.inr (.inl r)) (.inr (.inr c))
    · exact h (.inr (.inr r)) (.inl c)
    · exact h (.inr (.inr r)) (.inr (.inl c))
    · exact h (.inr (.inr r)) (.inr (.inr c))
  · rintro h (r | r | r) (c | c | c) <;> exact h _ _ r c

theorem xCalcKKGABD_blocks {T : Readers} {M : Fin 6 → Fin 6 → PyFloat} {c : Constraints} {p : XPlate}
    {K KG : I3 (p.m * p.n) → I3 (p.m * p.n) → PyFloat} (h : xCalcKKGABD T (.ok M) c p = .ok (K, KG)) :
    ∃ k11 k12 k13 k21 k22 k31 k32 k33 g33 : XSq (p.m * p.n),
      K = xStack3 ![![k11, k12, k13], ![k21, k22, k31], ![k31, k32, k33]] ∧
      KG = xStack3 ![![fun _ _ => .fin 0, fun _ _ => .fin 0, fun _ _ => .fin 0], ![fun _ _ => .fin 0, fun _ _ => .fin 0, fun _ _ => .fin 0],
        ![fun _ _ => .fin 0, fun _ _ => .fin 0, g33]] ∧ ∀ r s,
      (∃ i j k l, xCalcK11 T p.a p.b i j k l (M 0 0) (M 2 0) (M 2 2) = .ok (k11 r s)) ∧
      (∃ i j k l, xCalcK12 T p.a p.b i j k l (M 1 0) (M 2 0) (M 2 1) (M 2 2) = .ok (k12 r s)) ∧
      (∃ i j k l, xCalcK13 T p.a p.b i j k l (M 3 0) (M 4 0) (M 5 0) (M 5 1) (M 5 2) = .ok (k13 r s)) ∧
      (∃ i j k l, xCalcK21 T p.a p.b i j k l (M 1 0) (M 2 0) (M 2 1) (M 2 2) = .ok (k21 r s)) ∧
      (∃ i j k l, xCalcK22 T p.a p.b i j k l (M 1 1) (M 2 1) (M 2 2) = .ok (k22 r s)) ∧
      (∃ i j k l, xCalcK31 T p.a p.b i j k l (M 3 0) (M 4 0) (M 5 0) (M 5 1) (M 5 2) = .ok (k31 r s)) ∧
      (∃ i j k l, xCalcK32 T p.a p.b i j k l (M 4 0) (M 5 0) (M 4 1) (M 5 1) (M 5 2) = .ok (k32 r s)) ∧
      (∃ i j k l, xCalcK33 T p.a p.b i j k l (M 3 3) (M 4 3) (M 4 4) (M 5 3) (M 5 4) (M 5 5) = .ok (k33 r s)) ∧
      (∃ i j k l, xCalcKG33 T p.a p.b i j k l p.Nxx p.Nyy p.Nxy = .ok (g33 r s)) := by
  unfold xCalcKKGABD at h
  rw [ok_bind] at h
  obtain ⟨q, hq, h⟩ := bind_okE h
  obtain ⟨ks, hks, h⟩ := bind_okE h
  obtain ⟨k11, hk11, h⟩ := bind_okE h
  obtain ⟨k12, hk12, h⟩ := bind_okE h
  obtain ⟨k13, hk13, h⟩ := bind_okE h
  obtain ⟨k21, hk21, h⟩ := bind_okE h
  obtain ⟨k22, hk22, h⟩ := bind_okE h
  obtain ⟨k23, hk23, h⟩ := bind_okE h
  obtain ⟨k31, hk31, h⟩ := bind_okE h
  obtain ⟨k32, hk32, h⟩ := bind_okE h
  obtain ⟨k33, hk33, h⟩ := bind_okE h
  obtain ⟨g33, hg33, h⟩ := bind_okE h
  simp only [pure_eq_ok, Except.ok.injEq, Prod.mk.injEq] at h
  obtain ⟨rfl, rfl⟩ := h
  have hent : ∀ y ∈ ks,
      (∃ i j k l, xCalcK11 T p.a p.b i j k l (M 0 0) (M 2 0) (M 2 2) = .ok y.k11) ∧
      (∃ i j k l, xCalcK12 T p.a p.b i j k l (M 1 0) (M 2 0) (M 2 1) (M 2 2) = .ok y.k12) ∧
      (∃ i j k l, xCalcK13 T p.a p.b i j k l (M 3 0) (M 4 0) (M 5 0) (M 5 1) (M 5 2) = .ok y.k13) ∧
      (∃ i j k l, xCalcK21 T p.a p.b i j k l (M 1 0) (M 2 0) (M 2 1) (M 2 2) = .ok y.k21) ∧
      (∃ i j k l, xCalcK22 T p.a p.b i j k l (M 1 1) (M 2 1) (M 2 2) = .ok y.k22) ∧
      (∃ i j k l, xCalcK31 T p.a p.b i j k l (M 3 0) (M 4 0) (M 5 0) (M 5 1) (M 5 2) = .ok y.k31) ∧
      (∃ i j k l, xCalcK32 T p.a p.b i j k l (M 4 0) (M 5 0) (M 4 1) (M 5 1) (M 5 2) = .ok y.k32) ∧
      (∃ i j k l, xCalcK33 T p.a p.b i j k l (M 3 3) (M 4 3) (M 4 4) (M 5 3) (M 5 4) (M 5 5) = .ok y.k33) ∧
      (∃ i j k l, xCalcKG33 T p.a p.b i j k l p.Nxx p.Nyy p.Nxy = .ok y.g33) := by
    intro y hy
    obtain ⟨i, -, hi⟩ := mapM_mem hks y hy
    obtain ⟨u, -, hi⟩ := bind_okE hi
    obtain ⟨v, -, hi⟩ := bind_okE hi
    obtain ⟨w, -, hi⟩ := bind_okE hi
    obtain ⟨xk11, yk11, hi⟩ := bind_okE hi
    obtain ⟨xk12, yk12, hi⟩ := bind_okE hi
    obtain ⟨xk13, yk13, hi⟩ := bind_okE hi
    obtain ⟨xk21, yk21, hi⟩ := bind_okE hi
    obtain ⟨xk22, yk22, hi⟩ := bind_okE hi
    obtain ⟨xk23, yk23, hi⟩ := bind_okE hi
    obtain ⟨xk31, yk31, hi⟩ := bind_okE hi
    obtain ⟨xk32, yk32, hi⟩ := bind_okE hi
    obtain ⟨xk33, yk33, hi⟩ := bind_okE hi
    obtain ⟨xg33, yg33, hi⟩ := bind_okE hi
    simp only [pure_eq_ok, Except.ok.injEq] at hi
    subst hi
    exact ⟨⟨_, _, _, _, yk11⟩, ⟨_, _, _, _, yk12⟩, ⟨_, _, _, _, yk13⟩, ⟨_, _, _, _, yk21⟩, ⟨_, _, _, _, yk22⟩, ⟨_, _, _, _, yk31⟩, ⟨_, _, _, _, yk32⟩, ⟨_, _, _, _, yk33⟩, ⟨_, _, _, _, yg33⟩⟩
  refine ⟨k11, k12, k13, k21, k22, k31, k32, k33, g33, rfl, rfl, fun r s => ⟨?_, ?_, ?_, ?_, ?_, ?_, ?_, ?_, ?_⟩⟩
  · obtain ⟨y, hy, he⟩ := List.mem_map.1 (xReshape_mem hk11 r s)
    rw [← he]; exact (hent y hy).1
  · obtain ⟨y, hy, he⟩ := List.mem_map.1 (xReshape_mem hk12 r s)
    rw [← he]; exact (hent y hy).2.1
  · obtain ⟨y, hy, he⟩ := List.mem_map.1 (xReshape_mem hk13 r s)
    rw [← he]; exact (hent y hy).2.2.1
  · obtain ⟨y, hy, he⟩ := List.mem_map.1 (xReshape_mem hk21 r s)
    rw [← he]; exact (hent y hy).2.2.2.1
  · obtain ⟨y, hy, he⟩ := List.mem_map.1 (xReshape_mem hk22 r s)
    rw [← he]; exact (hent y hy).2.2.2.2.1
  · obtain ⟨y, hy, he⟩ := List.mem_map.1 (xReshape_mem hk31 r s)
    rw [← he]; exact (hent y hy).2.2.2.2.2.1
  · obtain ⟨y, hy, he⟩ := List.mem_map.1 (xReshape_mem hk32 r s)
    rw [← he]; exact (hent y hy).2.2.2.2.2.2.1
  · obtain ⟨y, hy, he⟩ := List.mem_map.1 (xReshape_mem hk33 r s)
    rw [← he]; exact (hent y hy).2.2.2.2.2.2.2.1
  · obtain ⟨y, hy, he⟩ := List.mem_map.1 (xReshape_mem hg33 r s)
    rw [← he]; exact (hent y hy).2.2.2.2.2.2.2.2

/-- **C133 (plates, all of `ABD`).** With at least one term, `K` of `calc_K_KG_ABD` consists of numbers iff `a`, `b` and the 18 stiffness
numbers are; every entry of the last block of `KG` is a number iff `a`, `b` and the loads are, the other entries are 0. -/
theorem C133_plate_ABD (T : Readers) (M : Fin 6 → Fin 6 → PyFloat) (c : Constraints) (p : XPlate) (hmn : 0 < p.m * p.n)
    (K KG : I3 (p.m * p.n) → I3 (p.m * p.n) → PyFloat) (h : xCalcKKGABD T (.ok M) c p = .ok (K, KG)) :
    ((∀ r s, (K r s).isFin) ↔ p.a.isFin ∧ p.b.isFin ∧ ∀ q ∈ abdPlaces, (M q.1 q.2).isFin) ∧
    (∀ r s, (KG (.inr (.inr r)) (.inr (.inr s))).isFin ↔ p.a.isFin ∧ p.b.isFin ∧ p.Nxx.isFin ∧ p.Nyy.isFin ∧ p.Nxy.isFin) ∧
    ∀ r s, (∀ i, r ≠ .inr (.inr i)) ∨ (∀ i, s ≠ .inr (.inr i)) → KG r s = .fin 0 := by
  obtain ⟨k11, k12, k13, k21, k22, k31, k32, k33, g33, rfl, rfl, hb⟩ := xCalcKKGABD_blocks h
  refine ⟨?_, fun r s => ?_, ?_⟩
  · rw [xStack3_fin]
    constructor
    · intro hf
      have z : Fin (p.m * p.n) := ⟨0, hmn⟩
      obtain ⟨⟨_, _, _, _, hk11⟩, ⟨_, _, _, _, hk12⟩, ⟨_, _, _, _, hk13⟩, ⟨_, _, _, _, hk21⟩, ⟨_, _, _, _, hk22⟩, ⟨_, _, _, _, hk31⟩, ⟨_, _, _, _, hk32⟩, ⟨_, _, _, _, hk33⟩, ⟨_, _, _, _, hg33⟩⟩ := hb z z
      have fk11 := (K11_fin hk11).1 (hf 0 0 z z)
      have fk12 := (K12_fin hk12).1 (hf 0 1 z z)
      have fk13 := (K13_fin hk13).1 (hf 0 2 z z)
      have fk21 := (K21_fin hk21).1 (hf 1 0 z z)
      have fk22 := (K22_fin hk22).1 (hf 1 1 z z)
      have fk31 := (K31_fin hk31).1 (hf 2 0 z z)
      have fk32 := (K32_fin hk32).1 (hf 2 1 z z)
      have fk33 := (K33_fin hk33).1 (hf 2 2 z z)
      refine ⟨fk33.2.2.2.2.2.2.1, fk33.2.2.2.2.2.2.2, ?_⟩
      simp only [abdPlaces, List.forall_mem_cons, List.not_mem_nil, false_imp_iff, implies_true, and_true]
      exact ⟨fk11.1, fk12.1, fk22.1, fk11.2.1, fk22.2.1, fk22.2.2, fk13.1, fk13.2.1, fk32.2.2.1, fk13.2.2.1, fk13.2.2.2.1, fk13.2.2.2.2,
        fk33.1, fk33.2.1, fk33.2.2.1, fk33.2.2.2.1, fk33.2.2.2.2.1, fk33.2.2.2.2.2.1⟩
    · rintro ⟨ha, hbb, hM⟩ i j r s
      obtain ⟨⟨_, _, _, _, hk11⟩, ⟨_, _, _, _, hk12⟩, ⟨_, _, _, _, hk13⟩, ⟨_, _, _, _, hk21⟩, ⟨_, _, _, _, hk22⟩, ⟨_, _, _, _, hk31⟩, ⟨_, _, _, _, hk32⟩, ⟨_, _, _, _, hk33⟩, ⟨_, _, _, _, hg33⟩⟩ := hb r s
      simp only [abdPlaces, List.forall_mem_cons, List.not_mem_nil, false_imp_iff, implies_true, and_true] at hM
      obtain ⟨zA11, zA12, zA22, zA16, zA26, zA66, zB11, zB12, zB22, zB16, zB26, zB66, zD11, zD12, zD22, zD16, zD26, zD66⟩ := hM
      have fk11 := (K11_fin hk11).2 ha hbb zA11 zA16 zA66
      have fk12 := (K12_fin hk12).2 ha hbb zA12 zA16 zA26 zA66
      have fk13 := (K13_fin hk13).2 ha hbb zB11 zB12 zB16 zB26 zB66
      have fk21 := (K21_fin hk21).2 ha hbb zA12 zA16 zA26 zA66
      have fk22 := (K22_fin hk22).2 ha hbb zA22 zA26 zA66
      have fk31 := (K31_fin hk31).2 ha hbb zB11 zB12 zB16 zB26 zB66
      have fk32 := (K32_fin hk32).2 ha hbb zB12 zB16 zB22 zB26 zB66
      have fk33 := (K33_fin hk33).2 ha hbb zD11 zD12 zD22 zD16 zD26 zD66
      fin_cases i <;> fin_cases j <;> assumption
  · obtain ⟨-, -, -, -, -, -, -, -, ⟨_, _, _, _, hg⟩⟩ := hb r s
    have h2 := KG33_fin hg
    constructor
    · intro hf
      obtain ⟨a, b, c, d, e⟩ := h2.1 hf
      exact ⟨d, e, a, b, c⟩
    · rintro ⟨ha, hb, hx, hy, hs⟩
      exact h2.2 ha hb hx hy hs
  · rintro (r | r | r) (s | s | s) hrs <;> first | rfl | (rcases hrs with hh | hh <;> exact absurd rfl (hh _))

/-- Both arrays consist of numbers. -/
def toXI3 {N : ℕ} (M : Matrix (I3 N) (I3 N) ℝ) : I3 N → I3 N → PyFloat := fun r c => .fin (M r c)

/-- **C133 (finite data).** For numbers the matrices of `calc_K_KG_ABD` are those of the other properties. -/
theorem C133_agrees_ABD (T : Readers) (M : Except PyErr (Matrix (Fin 6) (Fin 6) ℝ)) (c : Constraints) (p : PlateNum) :
    xCalcKKGABD T (M.map fun M => fun i j => .fin (M i j)) c p.toX = (calcKKGABD T M c p).map fun r => (toXI3 r.1, toXI3 r.2) := by
  unfold xCalcKKGABD calcKKGABD
  refine bind_agree fun M => ?_
  cases hq : constraintQuads c p.m p.n with
  | error e => simp [PlateNum.toX, hq, Except.map]
  | ok q =>
    simp only [PlateNum.toX, hq, ok_bind]
    rw [mapM_agree (k := fun r : Ten => XTen.mk (.fin r.k11) (.fin r.k12) (.fin r.k13) (.fin r.k21) (.fin r.k22) (.fin r.k23) (.fin r.k31) (.fin r.k32) (.fin r.k33) (.fin r.g33)) (g := fun i => do
      let (ui, uj, uk, ul) ← pyIdx q.1 i
      let (vi, vj, vk, vl) ← pyIdx q.2.1 i
      let (wi, wj, wk, wl) ← pyIdx q.2.2 i
      let k11 ← calcK11 T p.a p.b ui uj uk ul (M 0 0) (M 2 0) (M 2 2)
      let k12 ← calcK12 T p.a p.b ui uj vk vl (M 1 0) (M 2 0) (M 2 1) (M 2 2)
      let k13 ← calcK13 T p.a p.b ui uj wk wl (M 3 0) (M 4 0) (M 5 0) (M 5 1) (M 5 2)
      let k21 ← calcK21 T p.a p.b vi vj uk ul (M 1 0) (M 2 0) (M 2 1) (M 2 2)
      let k22 ← calcK22 T p.a p.b vi vj vk vl (M 1 1) (M 2 1) (M 2 2)
      let k23 ← calcK23 T p.a p.b vi vj wk wl (M 4 0) (M 5 0) (M 4 1) (M 5 1) (M 5 2)
      let k31 ← calcK31 T p.a p.b wi wj uk ul (M 3 0) (M 4 0) (M 5 0) (M 5 1) (M 5 2)
      let k32 ← calcK32 T p.a p.b wi wj vk vl (M 4 0) (M 5 0) (M 4 1) (M 5 1) (M 5 2)
      let k33 ← calcK33 T p.a p.b wi wj wk wl (M 3 3) (M 4 3) (M 4 4) (M 5 3) (M 5 4) (M 5 5)
      let g33 ← calcKG33 T p.a p.b wi wj wk wl p.Nxx p.Nyy p.Nxy
      return ({ k11, k12, k13, k21, k22, k23, k31, k32, k33, g33 } : Ten)) _ fun i _ => ?_]
    · refine bind_agree fun ks => ?_
      simp only [List.map_map]
      rw [show List.map (XTen.k11 ∘ fun r : Ten => XTen.mk (.fin r.k11) (.fin r.k12) (.fin r.k13) (.fin r.k21) (.fin r.k22) (.fin r.k23) (.fin r.k31) (.fin r.k32) (.fin r.k33) (.fin r.g33)) ks = (ks.map Ten.k11).map XF.fin by simp, reshape_agrees]
      refine bind_agree fun k11 => ?_
      rw [show List.map (XTen.k12 ∘ fun r : Ten => XTen.mk (.fin r.k11) (.fin r.k12) (.fin r.k13) (.fin r.k21) (.fin r.k22) (.fin r.k23) (.fin r.k31) (.fin r.k32) (.fin r.k33) (.fin r.g33)) ks = (ks.map Ten.k12).map XF.fin by simp, reshape_agrees]
      refine bind_agree fun k12 => ?_
      rw [show List.map (XTen.k13 ∘ fun r : Ten => XTen.mk (.fin r.k11) (.fin r.k12) (.fin r.k13) (.fin r.k21) (.fin r.k22) (.fin r.k23) (.fin r.k31) (.fin r.k32) (.fin r.k33) (.fin r.g33)) ks = (ks.map Ten.k13).map XF.fin by simp, reshape_agrees]
      refine bind_agree fun k13 => ?_
      rw [show List.map (XTen.k21 ∘ fun r : Ten => XTen.mk (.fin r.k11) (.fin r.k12) (.fin r.k13) (.fin r.k21) (.fin r.k22) (.fin r.k23) (.fin r.k31) (.fin r.k32) (.fin r.k33) (.fin r.g33)) ks = (ks.map Ten.k21).map XF.fin by simp, reshape_agrees]
      refine bind_agree fun k21 => ?_
      rw [show List.map (XTen.k22 ∘ fun r : Ten => XTen.mk (.fin r.k11) (.fin r.k12) (.fin r.k13) (.fin r.k21) (.fin r.k22) (.fin r.k23) (.fin r.k31) (.fin r.k32) (.fin r.k33) (.fin r.g33)) ks = (ks.map Ten.k22).map XF.fin by simp, reshape_agrees]
      refine bind_agree fun k22 => ?_
      rw [show List.map (XTen.k23 ∘ fun r : Ten => XTen.mk (.fin r.k11) (.fin r.k12) (.fin r.k13) (.fin r.k21) (.fin r.k22) (.fin r.k23) (.fin r.k31) (.fin r.k32) (.fin r.k33) (.fin r.g33)) ks = (ks.map Ten.k23).map XF.fin by simp, reshape_agrees]
      refine bind_agree fun k23 => ?_
      rw [show List.map (XTen.k31 ∘ fun r : Ten => XTen.mk (.fin r.k11) (.fin r.k12) (.fin r.k13) (.fin r.k21) (.fin r.k22) (.fin r.k23) (.fin r.k31) (.fin r.k32) (.fin r.k33) (.fin r.g33)) ks = (ks.map Ten.k31).map XF.fin by simp, reshape_agrees]
      refine bind_agree fun k31 => ?_
      rw [show List.map (XTen.k32 ∘ fun r : Ten => XTen.mk (.fin r.k11) (.fin r.k12) (.fin r.k13) (.fin r.k21) (.fin r.k22) (.fin r.k23) (.fin r.k31) (.fin r.k32) (.fin r.k33) (.fin r.g33)) ks = (ks.map Ten.k32).map XF.fin by simp, reshape_agrees]
      refine bind_agree fun k32 => ?_
      rw [show List.map (XTen.k33 ∘ fun r : Ten => XTen.mk (.fin r.k11) (.fin r.k12) (.fin r.k13) (.fin r.k21) (.fin r.k22) (.fin r.k23) (.fin r.k31) (.fin r.k32) (.fin r.k33) (.fin r.g33)) ks = (ks.map Ten.k33).map XF.fin by simp, reshape_agrees]
      refine bind_agree fun k33 => ?_
      rw [show List.map (XTen.g33 ∘ fun r : Ten => XTen.mk (.fin r.k11) (.fin r.k12) (.fin r.k13) (.fin r.k21) (.fin r.k22) (.fin r.k23) (.fin r.k31) (.fin r.k32) (.fin r.k33) (.fin r.g33)) ks = (ks.map Ten.g33).map XF.fin by simp, reshape_agrees]
      refine bind_agree fun g33 => ?_
      simp only [pure_eq_ok, Except.map, Except.ok.injEq, Prod.mk.injEq]
      constructor <;> funext r s <;> rcases r with r | r | r <;> rcases s with s | s | s <;> rfl
    · cases pyIdx q.1 i with
      | error e => rfl
      | ok u =>
      cases pyIdx q.2.1 i with
      | error e => rfl
      | ok v =>
      cases pyIdx q.2.2 i with
      | error e => rfl
      | ok w =>
        simp only [ok_bind]
        rw [K11_agrees]; refine bind_agree fun _ => ?_
        rw [K12_agrees]; refine bind_agree fun _ => ?_
        rw [K13_agrees]; refine bind_agree fun _ => ?_
        rw [K21_agrees]; refine bind_agree fun _ => ?_
        rw [K22_agrees]; refine bind_agree fun _ => ?_
        rw [K23_agrees]; refine bind_agree fun _ => ?_
        rw [K31_agrees]; refine bind_agree fun _ => ?_
        rw [K32_agrees]; refine bind_agree fun _ => ?_
        rw [K33_agrees]; refine bind_agree fun _ => ?_
        rw [KG33_agrees]; refine bind_agree fun _ => ?_
        rfl

/-! ## Laminates given by lamination parameters -/

/-- The parameters that an entry of `A` or `D` depends on. -/
def Spec.lpUses : Fin 3 → Fin 3 → List (Fin 4) :=
  ![![[0, 2], [2], [1, 3]], ![[2], [0, 2], [1, 3]], ![[1, 3], [1, 3], [2]]]

theorem U1_fin {m : XMat} {Q : X3} (h : m.Q0 = .ok Q) (he : FiniteElastic m) : (xInvariants Q 1).isFin := by
  have := (C132_Q0 m Q h).2 he
  simp only [xInvariants, Matrix.cons_val_one, Matrix.cons_val_zero, XF.mul_isFin, XF.sub_isFin]
  exact ⟨trivial, this 0 0, this 1 1⟩

/-- **C133 (parameters).** Every single entry of `A` and of `D` of a laminate given by lamination parameters is a number iff the thickness, the
elastic constants and the parameters it depends on are; they are returned iff `Q_0` is. -/
theorem C133_lp (m : OrthoMat PyFloat) (xi : Fin 4 → PyFloat) (T : PyFloat) :
    ((∃ A, xLpA m xi T = .ok A) ↔ ∃ Q, m.xQ0 = .ok Q) ∧ ((∃ D, xLpD m xi T = .ok D) ↔ ∃ Q, m.xQ0 = .ok Q) ∧
    (∀ A, xLpA m xi T = .ok A → ∀ i j, (A i j).isFin ↔ T.isFin ∧ FiniteElastic (.ortho m) ∧ ∀ k ∈ lpUses i j, (xi k).isFin) ∧
    (∀ D, xLpD m xi T = .ok D → ∀ i j, (D i j).isFin ↔ T.isFin ∧ FiniteElastic (.ortho m) ∧ ∀ k ∈ lpUses i j, (xi k).isFin) := by
  cases hQ : m.xQ0 with
  | error e => simp [xLpA, xLpD, hQ]
  | ok Q =>
    have u0 := C132_invariants (.ortho m) Q hQ 0 (by decide)
    have u2 := C132_invariants (.ortho m) Q hQ 2 (by decide)
    have u3 := C132_invariants (.ortho m) Q hQ 3 (by decide)
    have u4 := C132_invariants (.ortho m) Q hQ 4 (by decide)
    have u1 : FiniteElastic (.ortho m) → (xInvariants Q 1).isFin := U1_fin (m := .ortho m) hQ
    refine ⟨?_, ?_, ?_, ?_⟩
    · simp [xLpA, hQ, pure_eq_ok]
    · simp [xLpD, hQ, pure_eq_ok]
    · intro A hA i j
      simp only [xLpA, hQ, ok_bind, pure_eq_ok, Except.ok.injEq] at hA
      subst hA
      fin_cases i <;> fin_cases j
      all_goals
        simp only [lpUses, Fin.zero_eta, Fin.mk_one, Fin.reduceFinMk, Matrix.cons_val, Matrix.cons_val_zero, Matrix.cons_val_one, XF.mul_isFin,
          XF.add_isFin, XF.sub_isFin, XF.neg_isFin, fin_iff, u0, u2, u3, u4, List.forall_mem_cons, List.not_mem_nil, false_imp_iff,
          implies_true, and_true]
        by_cases hE : FiniteElastic (.ortho m)
        · simp only [hE, u1 hE, true_and, and_true]
        · simp only [hE, false_and, and_false]
    · intro D hD i j
      simp only [xLpD, hQ, ok_bind, pure_eq_ok, Except.ok.injEq] at hD
      subst hD
      fin_cases i <;> fin_cases j
      all_goals
        simp only [lpUses, Fin.zero_eta, Fin.mk_one, Fin.reduceFinMk, Matrix.cons_val, Matrix.cons_val_zero, Matrix.cons_val_one, XF.mul_isFin,
          XF.add_isFin, XF.sub_isFin, XF.neg_isFin, fin_iff, pow_isFin3, u0, u2, u3, u4, List.forall_mem_cons, List.not_mem_nil, false_imp_iff,
          implies_true, and_true]
        by_cases hE : FiniteElastic (.ortho m)
        · simp only [hE, u1 hE, true_and, and_true]
        · simp only [hE, false_and, and_false]

/-- **C133 (finite parameters).** For numbers these are the matrices of the other properties. -/
theorem C133_agrees_lp (m : OrthoMat ℝ) (hm : m.e1 ≠ 0) (m' : OrthoMat PyFloat) (hm' : (Mat.ortho m).toX = .ortho m') (xi : Fin 4 → ℝ) (T : ℝ) :
    xLpA m' (fun k => .fin (xi k)) (.fin T) = (lpA (.single (.ortho m)) (.vec [xi 0, xi 1, xi 2, xi 3]) (.num T)).map toX3 ∧
    xLpD m' (fun k => .fin (xi k)) (.fin T) = (lpD (.single (.ortho m)) (.vec [xi 0, xi 1, xi 2, xi 3]) (.num T)).map toX3 := by
  have hQ : m'.xQ0 = m.Q0.map toX3 := by
    have := C132_agrees_Q0 (.ortho m) hm
    rw [hm'] at this
    exact this
  unfold xLpA xLpD lpA lpD
  simp only [hQ, Plies.invariants, Mat.invariants, OrthoMat.invariants, LPVal.unpack4, LPVal.asNum]
  cases m.Q0 with
  | error e => exact ⟨rfl, rfl⟩
  | ok Q =>
    simp only [Except.map, ok_bind, pure_eq_ok, C132_agrees_invariants, Except.ok.injEq]
    constructor <;> funext i j <;> fin_cases i <;> fin_cases j <;>
      simp [toX3, XF.fin_mul, XF.fin_add, XF.fin_sub, XF.fin_neg, XF.fin_pow, -mul_eq_mul_left_iff] <;> ring

/-! ## Lamination parameters of a stack -/

/-- The sum over plies that the loop of `xiA` and `xiD` computes. -/
noncomputable def xXiSum (w : PyFloat → PyFloat → PyFloat) (c : PyFloat) (acc : Fin 4 → PyFloat) : List (PyFloat × XMat) → Fin 4 → PyFloat
  | [] => acc
  | p :: r => xXiSum w (c.add p.2.thickness) (fun i => (acc i).add ((w c (c.add p.2.thickness)).mul (xXiTrig p.1 i))) r

theorem xXiLoop_eq (w : PyFloat → PyFloat → PyFloat) (L : List (PyFloat × XMat)) (c : PyFloat) (pre : List PyFloat) (acc : Fin 4 → PyFloat) :
    ((L.map Prod.fst).zipIdx pre.length).foldlM (fun acc (a : PyFloat × Nat) => do
      let zk1 ← pyIdx (pre ++ c :: xzs c L) (a.2 + 1)
      let zk0 ← pyIdx (pre ++ c :: xzs c L) a.2
      return fun i => XF.add (acc i) (XF.mul (w zk0 zk1) (xXiTrig a.1 i))) acc = Except.ok (xXiSum w c acc L) := by
  induction L generalizing c pre acc with
  | nil => simp [xXiSum, pure_eq_ok]
  | cons p L ih =>
    simp only [List.map_cons, List.zipIdx_cons, List.foldlM_cons]
    have h0 : pyIdx (pre ++ c :: xzs c (p :: L)) pre.length = .ok c := by
      simp [pyIdx]
    have h1 : pyIdx (pre ++ c :: xzs c (p :: L)) (pre.length + 1) = .ok (c.add p.2.thickness) := by
      rw [pyIdx_append]
      simp [xzs, pyIdx]
    simp only [h0, h1, ok_bind, pure_eq_ok]
    have h2 := ih (c.add p.2.thickness) (pre ++ [c]) (fun i => (acc i).add ((w c (c.add p.2.thickness)).mul (xXiTrig p.1 i)))
    simp only [List.append_assoc, List.singleton_append, List.length_append, List.length_singleton] at h2
    simp only [xzs, xXiSum]
    exact h2

theorem xXiTrig_fin (a : PyFloat) (i : Fin 4) : (xXiTrig a i).isFin ↔ a.isFin := by
  cases a <;> simp [xXiTrig, XF.isFin]

theorem xXiSum_fin (w : PyFloat → PyFloat → PyFloat) (hw : ∀ a b, (w a b).isFin ↔ a.isFin ∧ b.isFin) (L : List (PyFloat × XMat))
    (c : PyFloat) (acc : Fin 4 → PyFloat) (i : Fin 4) (hc : L ≠ [] ∨ c.isFin) :
    (xXiSum w c acc L i).isFin ↔ (acc i).isFin ∧ c.isFin ∧ ∀ p ∈ L, p.1.isFin ∧ p.2.thickness.isFin := by
  induction L generalizing c acc with
  | nil =>
    have : c.isFin := hc.resolve_left (by simp)
    simp [xXiSum, this]
  | cons p L ih =>
    simp only [xXiSum, List.forall_mem_cons]
    by_cases hL : L = []
    · subst hL
      simp only [xXiSum, XF.add_isFin, XF.mul_isFin, hw, xXiTrig_fin, List.not_mem_nil, false_imp_iff, implies_true, and_true]
      tauto
    · rw [ih _ _ (Or.inl hL)]
      simp only [XF.add_isFin, XF.mul_isFin, hw, xXiTrig_fin]
      tauto

theorem xXi_read (w : PyFloat → PyFloat → PyFloat) (L : List (PyFloat × XMat)) : ∃ z0, xZPosition L = .ok (z0 :: xzs z0 L) ∧
    xXiLoop w (z0 :: xzs z0 L) (L.map Prod.fst) = .ok (xXiSum w z0 (fun _ => .fin 0) L) ∧ (z0.isFin ↔ ∀ p ∈ L, p.2.thickness.isFin) := by
  obtain ⟨z0, hz, -, hf⟩ := xZPosition_ok L
  refine ⟨z0, hz, ?_, hf⟩
  have := xXiLoop_eq w L z0 [] (fun _ => .fin 0)
  simpa [xXiLoop] using this

theorem xNpDiv_fin (a b : PyFloat) (hb : b.isFin) : (xNpDiv a b).isFin ↔ a.isFin ∧ b ≠ .fin 0 := by
  obtain ⟨r, rfl⟩ := XF.exists_fin hb
  cases a with
  | fin s =>
    simp only [xNpDiv, npDiv]
    by_cases hr : r = 0
    · simp only [hr]; split_ifs <;> simp_all [XF.isFin]
    · simp [hr, XF.isFin]
  | nan => simp [xNpDiv, XF.isFin]
  | pinf => simp only [xNpDiv]; split_ifs <;> simp [XF.isFin]
  | ninf => simp only [xNpDiv]; split_ifs <;> simp [XF.isFin]

theorem xi_fin (w : PyFloat → PyFloat → PyFloat) (hw : ∀ a b, (w a b).isFin ↔ a.isFin ∧ b.isFin) (L : List (PyFloat × XMat)) (z0 : PyFloat)
    (hf : z0.isFin ↔ ∀ p ∈ L, p.2.thickness.isFin) (i : Fin 4) :
    (xXiSum w z0 (fun _ => .fin 0) L i).isFin ↔ ∀ p ∈ L, p.1.isFin ∧ p.2.thickness.isFin := by
  rw [xXiSum_fin w hw L z0 _ i (by
    by_cases hL : L = []
    · right; rw [hf, hL]; simp
    · exact Or.inl hL), hf]
  constructor
  · exact fun h => h.2.2
  · exact fun h => ⟨trivial, fun p hp => (h p hp).2, h⟩

theorem npDiv_inf_fin {a b : PyFloat} (h : (xNpDiv a b).isFin) : a.isFin := by
  cases a <;> cases b <;> simp_all [xNpDiv, XF.isFin] <;> split_ifs at h <;> simp_all

/-- **C133 (lamination parameters of stacks).** `xiA` and `xiD` are returned for every stack; every single parameter is a number iff all
angles and thicknesses are and the total thickness is not 0. -/
theorem C133_xi (L : List (PyFloat × XMat)) : ∃ a d, xXiA L = .ok a ∧ xXiD L = .ok d ∧ ∀ i,
    ((a i).isFin ↔ (∀ p ∈ L, p.1.isFin ∧ p.2.thickness.isFin) ∧ xSumThickness L ≠ .fin 0) ∧
    ((d i).isFin ↔ (∀ p ∈ L, p.1.isFin ∧ p.2.thickness.isFin) ∧ xSumThickness L ≠ .fin 0) := by
  obtain ⟨z0, hz, hA, hf⟩ := xXi_read (fun zk0 zk1 => zk1.sub zk0) L
  obtain ⟨z1, hz', hD, hf'⟩ := xXi_read (fun zk0 zk1 => (zk1.pow 3).sub (zk0.pow 3)) L
  have hz01 : z1 = z0 := by
    have := hz'.symm.trans hz
    simp only [Except.ok.injEq, List.cons.injEq] at this
    exact this.1
  subst hz01
  have hT : (xSumThickness L).isFin ↔ ∀ p ∈ L, p.2.thickness.isFin := by
    unfold xSumThickness
    rw [xTotal_isFin]; simp [XF.isFin]
  refine ⟨fun i => xNpDiv (xXiSum (fun zk0 zk1 => zk1.sub zk0) z1 (fun _ => .fin 0) L i) (xSumThickness L),
    fun i => xNpDiv ((XF.fin 4).mul (xXiSum (fun zk0 zk1 => (zk1.pow 3).sub (zk0.pow 3)) z1 (fun _ => .fin 0) L i)) ((xSumThickness L).pow 3),
    by simp only [xXiA, hz, ok_bind, hA, pure_eq_ok], by simp only [xXiD, hz, ok_bind, hD, pure_eq_ok], fun i => ⟨?_, ?_⟩⟩
  · have hs := xi_fin (fun zk0 zk1 => zk1.sub zk0) (fun a b => by rw [XF.sub_isFin]; tauto) L z1 hf i
    constructor
    · intro h
      have h1 := hs.1 (npDiv_inf_fin h)
      exact ⟨h1, ((xNpDiv_fin _ _ (hT.2 fun p hp => (h1 p hp).2)).1 h).2⟩
    · rintro ⟨h1, h2⟩
      exact (xNpDiv_fin _ _ (hT.2 fun p hp => (h1 p hp).2)).2 ⟨hs.2 h1, h2⟩
  · have hs := xi_fin (fun zk0 zk1 => (zk1.pow 3).sub (zk0.pow 3)) (fun a b => by rw [XF.sub_isFin, pow_isFin3, pow_isFin3]; tauto) L z1 hf i
    have hp : (xSumThickness L).isFin → ((xSumThickness L).pow 3 ≠ .fin 0 ↔ xSumThickness L ≠ .fin 0) := by
      intro h
      obtain ⟨r, hr⟩ := XF.exists_fin h
      rw [hr, XF.fin_pow]; simp
    constructor
    · intro h
      have h1 := hs.1 ((XF.mul_isFin _ _).1 (npDiv_inf_fin h)).2
      have hTf := hT.2 fun p hp => (h1 p hp).2
      exact ⟨h1, (hp hTf).1 ((xNpDiv_fin _ _ ((pow_isFin3 _).2 hTf)).1 h).2⟩
    · rintro ⟨h1, h2⟩
      have hTf := hT.2 fun p hp => (h1 p hp).2
      exact (xNpDiv_fin _ _ ((pow_isFin3 _).2 hTf)).2 ⟨(XF.mul_isFin _ _).2 ⟨trivial, hs.2 h1⟩, (hp hTf).2 h2⟩

theorem xiLoop_agrees (w : PyFloat → PyFloat → PyFloat) (v : ℝ → ℝ → ℝ) (hw : ∀ a b, w (.fin a) (.fin b) = .fin (v a b)) (z angles : List ℝ) :
    xXiLoop w (z.map .fin) (angles.map .fin) = (xiLoop v z angles).map fun u i => .fin (u i) := by
  have idx : ∀ k : ℕ, pyIdx (z.map XF.fin) k = (pyIdx z k).map XF.fin := by
    intro k
    simp only [pyIdx, List.getElem?_map]
    cases z[k]? <;> rfl
  unfold xXiLoop xiLoop
  rw [List.zipIdx_map]
  generalize angles.zipIdx = Q
  rw [show (fun _ : Fin 4 => (XF.fin 0 : PyFloat)) = fun i => .fin ((0 : V4) i) from rfl]
  generalize (0 : V4) = acc
  induction Q generalizing acc with
  | nil => rfl
  | cons q Q ih =>
    simp only [List.map_cons, List.foldlM_cons, idx, Prod.map_fst, Prod.map_snd, id]
    cases pyIdx z (q.2 + 1) with
    | error e => rfl
    | ok z1 =>
      cases pyIdx z q.2 with
      | error e => rfl
      | ok z0 =>
        simp only [Except.map, ok_bind, pure_eq_ok, hw]
        rw [show (fun i => XF.add (.fin (acc i)) (XF.mul (.fin (v z0 z1)) (xXiTrig (.fin q.1) i)) : Fin 4 → PyFloat) =
          fun i => .fin ((acc + v z0 z1 • xiTerm q.1) i) from rfl]
        have := ih (acc + v z0 z1 • xiTerm q.1)
        simpa only [idx, Except.map, pure_eq_ok] using this

/-- **C133 (finite stacks).** For numbers these are the lamination parameters of the other properties. -/
theorem C133_agrees_xi (s : List ℝ) (ps : Plies) (l : Lam) (h : Lam.init (.angles s) ps = .ok l) :
    xXiA (l.layup.map toXPly) = l.xiAread ∧ xXiD (l.layup.map toXPly) = l.xiDread := by
  have hs : IsStack l := ⟨s, ps, h⟩
  have hang : (l.layup.map toXPly).map Prod.fst = (l.layup.map Prod.fst).map .fin := by
    simp [toXPly]
  have hT : xSumThickness (l.layup.map toXPly) = .fin ((l.layup.map Prod.snd).map Mat.thickness).sum := by
    unfold xSumThickness
    rw [xTotal_agrees]
    congr 1
    have : ∀ (L : List (ℝ × Mat)) (c : ℝ), L.foldl (fun tot p => tot + p.2.thickness) c = c + ((L.map Prod.snd).map Mat.thickness).sum := by
      intro L
      induction L with
      | nil => simp
      | cons p L ih => intro c; simp only [List.foldl_cons, ih, List.map_cons, List.sum_cons]; ring
    rw [this, zero_add]
  unfold xXiA xXiD Lam.xiAread Lam.xiDread
  rw [C132_agrees_z, hs.fields.1, hs.fields.2, hang, hT]
  simp only [ok_bind, Plies.sumThickness, Stacking.toAngles, Lam.zPosition]
  rw [xiLoop_agrees _ (fun a b => b - a) (fun a b => XF.fin_sub b a), xiLoop_agrees _ (fun a b => b ^ 3 - a ^ 3) (fun a b => by
    simp only [XF.fin_pow, XF.fin_sub])]
  constructor
  · cases xiLoop (fun a b => b - a) (zPositionOf l.layup) (l.layup.map Prod.fst) <;> rfl
  · cases xiLoop (fun a b => b ^ 3 - a ^ 3) (zPositionOf l.layup) (l.layup.map Prod.fst) <;>
      simp [Except.map, XF.fin_pow, xNpDiv, XF.fin_mul, pure_eq_ok]

/-- **C133 (accepted plates).** Every plate that can be constructed can be constructed with NaN or infinity in place of either side and
with NaN or either infinity in place of any load. -/
theorem C133_accepted (q : PlateArgs) (d : PlateData) (h : q.init = .ok d) :
    (∀ x : PyFloat, x = .nan ∨ x = .pinf → { q with a := .num x }.init = .ok { d with a := x } ∧
      { q with b := .num x }.init = .ok { d with b := x }) ∧
    (∀ x : PyFloat, ¬ x.isFin → { q with Nxx := .num x }.init = .ok { d with Nxx := x } ∧
      { q with Nyy := .num x }.init = .ok { d with Nyy := x } ∧ { q with Nxy := .num x }.init = .ok { d with Nxy := x }) := by
  unfold PlateArgs.init at h
  obtain ⟨i, hi, h⟩ := bind_okE h
  obtain ⟨a, ha, h⟩ := bind_okE h
  obtain ⟨b, hb, h⟩ := bind_okE h
  obtain ⟨x, hx, h⟩ := bind_okE h
  obtain ⟨y, hy, h⟩ := bind_okE h
  obtain ⟨s, hs, h⟩ := bind_okE h
  obtain ⟨m, hm, h⟩ := bind_okE h
  obtain ⟨n, hn, h⟩ := bind_okE h
  simp only [pure_eq_ok, Except.ok.injEq] at h
  subst h
  have hside : ∀ x : PyFloat, x = .nan ∨ x = .pinf → floatNumber (.num x) (some 0) none = .ok x := by
    rintro x (rfl | rfl) <;> simp [floatNumber, PyVal.toFloat, belowMin, aboveMax, XF.lt]
  have hload : ∀ x : PyFloat, floatNumber (.num x) none none = .ok x := by
    intro x; simp [floatNumber, PyVal.toFloat, belowMin, aboveMax]
  refine ⟨fun z hz => ⟨?_, ?_⟩, fun z hz => ⟨?_, ?_, ?_⟩⟩ <;>
    simp only [PlateArgs.init, hi, ha, hb, hx, hy, hs, hm, hn, hside z, hz, hload z, ok_bind, pure_eq_ok]

/-! ## Concrete cases -/

/-- A constant reader. -/
def constReaders : Readers :=
  ⟨fun _ => .ok 1, fun _ => .ok 1, fun _ => .ok 1, fun _ => .ok 1, fun _ => .ok 1, fun _ => .ok 1, fun _ => .ok 1, fun _ => .ok 1, fun _ => .ok 1⟩

/-- An infinite side: one term is 0 times a number, another is infinite, so the entry is not a number. -/
example : ∃ r, xCalcK33 constReaders .pinf (.fin 1) 1 1 1 1 (.fin 1) (.fin 1) (.fin 1) (.fin 1) (.fin 1) (.fin 1) = .ok r ∧ ¬ r.isFin := by
  cases h : xCalcK33 constReaders .pinf (.fin 1) 1 1 1 1 (.fin 1) (.fin 1) (.fin 1) (.fin 1) (.fin 1) (.fin 1) with
  | error e =>
    have := (K33_same constReaders .pinf (.fin 1) 1 1 1 1 (.fin 1) (.fin 1) (.fin 1) (.fin 1) (.fin 1) (.fin 1) e).1 h
    simp [calcK33, constReaders, rmul, orOne, pyDiv, pure_eq_ok] at this
  | ok r => exact ⟨r, rfl, fun hf => (K33_fin h).1 hf |>.2.2.2.2.2.2.1⟩

/-- A NaN angle in one of two plies: no lamination parameter is a number. -/
example : ∃ a d, xXiA [(.fin 0, xSteel (.fin 1) (.fin 1)), (.nan, xSteel (.fin 1) (.fin 1))] = .ok a ∧
    xXiD [(.fin 0, xSteel (.fin 1) (.fin 1)), (.nan, xSteel (.fin 1) (.fin 1))] = .ok d ∧ ∀ i, ¬ (a i).isFin ∧ ¬ (d i).isFin := by
  obtain ⟨a, d, ha, hd, h⟩ := C133_xi [(.fin 0, xSteel (.fin 1) (.fin 1)), (.nan, xSteel (.fin 1) (.fin 1))]
  refine ⟨a, d, ha, hd, fun i => ⟨fun hf => ?_, fun hf => ?_⟩⟩
  · exact (((h i).1.1 hf).1 _ (List.mem_cons_of_mem _ List.mem_cons_self)).1
  · exact (((h i).2.1 hf).1 _ (List.mem_cons_of_mem _ List.mem_cons_self)).1

end Composipy
