import Verif.Props.Strength
import Verif.Props.Invariants
import Verif.Props.Validation

/-!
# Statements extended to all laminates
-/

namespace Composipy
open Spec Matrix

theorem loopMatrix_not_linAlg (l : Lam) (w : ℝ → ℝ → ℝ) : l.loopMatrix w ≠ .error .linAlgError := by
  by_cases hall : AllOk l.layup
  · simp [l.loopMatrix_ok _ hall]
  · simp [l.loopMatrix_err _ hall]

theorem invariants_not_linAlg (p : Plies) : p.invariants ≠ .error .linAlgError := by
  cases p with
  | list ps => simp [Plies.invariants]
  | single m =>
    cases m with
    | iso m => simp [Plies.invariants, Mat.invariants]
    | ortho m =>
      simp only [Plies.invariants, Mat.invariants, OrthoMat.invariants]
      intro h
      cases hq : m.Q0 with
      | ok Q => simp [hq, pure_eq_ok] at h
      | error e =>
        simp only [hq, error_bind, Except.error.injEq] at h
        subst h
        simp only [OrthoMat.Q0, pyDiv] at hq
        split_ifs at hq <;> simp [pure_eq_ok] at hq

theorem unpack4_not_linAlg (v : LPVal) : v.unpack4 ≠ .error .linAlgError := by
  unfold LPVal.unpack4; split <;> simp

theorem asNum_not_linAlg (v : LPVal) : v.asNum ≠ .error .linAlgError := by
  unfold LPVal.asNum; split <;> simp

theorem lpA_not_linAlg (p : Plies) (xi T : LPVal) : lpA p xi T ≠ .error .linAlgError := by
  have h1 := invariants_not_linAlg p
  have h2 := unpack4_not_linAlg xi
  have h3 := asNum_not_linAlg T
  unfold lpA
  cases hp : p.invariants <;> cases hx : xi.unpack4 <;> cases hT : T.asNum <;> simp_all [pure_eq_ok]

theorem lpD_not_linAlg (p : Plies) (xi T : LPVal) : lpD p xi T ≠ .error .linAlgError := by
  have h1 := invariants_not_linAlg p
  have h2 := unpack4_not_linAlg xi
  have h3 := asNum_not_linAlg T
  unfold lpD
  cases hp : p.invariants <;> cases hx : xi.unpack4 <;> cases hT : T.asNum <;> simp_all [pure_eq_ok]

/-- **C29 (every laminate).** Whatever the laminate is, given by angles or by lamination parameters, `epsilon0` raises `LinAlgError` exactly
when `ABD` can be read and is singular, and every other exception is one of reading `ABD`. -/
theorem C29_singular_all (l : Lam) (N : V6) :
    (epsilon0 l N = .error .linAlgError ↔ ∃ M, l.ABD = .ok M ∧ M.det = 0) ∧
    ∀ e, e ≠ .linAlgError → (epsilon0 l N = .error e ↔ l.ABD = .error e) := by
  have hA : l.A ≠ .error .linAlgError := by
    unfold Lam.A; split
    · exact loopMatrix_not_linAlg _ _
    · exact lpA_not_linAlg _ _ _
  have hB : l.B ≠ .error .linAlgError := loopMatrix_not_linAlg _ _
  have hD : l.D ≠ .error .linAlgError := by
    unfold Lam.D; split
    · exact loopMatrix_not_linAlg _ _
    · exact lpD_not_linAlg _ _ _
  have hABD : l.ABD ≠ .error .linAlgError := by
    unfold Lam.ABD
    cases h1 : l.A <;> cases h2 : l.B <;> cases h3 : l.D <;> simp_all [pure_eq_ok]
  unfold epsilon0
  cases hM : l.ABD with
  | error e =>
    rw [hM] at hABD
    constructor
    · simpa using hABD
    · intro e' _; simp
  | ok M =>
    simp only [ok_bind, npInv]
    by_cases h : M.det = 0
    · simp [h]; exact fun e he => fun hc => he hc.symm
    · simp [h]

/-- **C74** turning the plies does not change whether `B` can be read, and `A`, `B`, `D` of a stack can only be read together. -/
theorem C74_readable_B (l l' : Lam) (hs : IsStack l) (h : l'.layup.map Prod.snd = l.layup.map Prod.snd) :
    ((∃ X, l.B = .ok X) ↔ ∃ X, l'.B = .ok X) ∧ ((∃ X, l.A = .ok X) ↔ ∃ X, l.B = .ok X) ∧ ((∃ X, l.B = .ok X) ↔ ∃ X, l.D = .ok X) := by
  have hok : AllOk l.layup ↔ AllOk l'.layup := by
    have : ∀ L : List (ℝ × Mat), AllOk L ↔ ∀ m ∈ L.map Prod.snd, ∃ Q, m.Q0 = .ok Q := by
      intro L
      simp only [AllOk, plyQ_ok_iff, List.mem_map]
      exact ⟨fun h m ⟨p, hp, hm⟩ => hm ▸ h p hp, fun h p hp => h _ ⟨p, hp, rfl⟩⟩
    rw [this, this, h]
  have key : ∀ (l : Lam) w, (∃ X, l.loopMatrix w = .ok X) ↔ AllOk l.layup := by
    intro l w
    by_cases hall : AllOk l.layup
    · rw [l.loopMatrix_ok w hall]; simp [hall]
    · rw [l.loopMatrix_err w hall]; simp [hall]
  rw [hs.A_eq, hs.D_eq]
  unfold Lam.B
  simp only [key]
  exact ⟨hok, trivial, trivial⟩

/-- NaN, infinity, or a number that is not negative. -/
def Spec.Loose (x : PyFloat) : Prop := x = .nan ∨ x = .pinf ∨ ∃ r, 0 ≤ r ∧ x = .fin r

/-- NaN or a number between -1/2 and 1/2. -/
def Spec.LoosePoisson (x : PyFloat) : Prop := x = .nan ∨ ∃ r, |r| ≤ 1 / 2 ∧ x = .fin r

theorem loose_iff (x : PyFloat) : Loose x ↔ InRange 0 none x := by
  cases x <;> simp [Loose, InRange]

theorem loosePoisson_iff (x : PyFloat) : LoosePoisson x ↔ InRange (-(1/2)) (some (1/2)) x := by
  cases x <;> simp [LoosePoisson, InRange, abs_le]

/-- **C132 (accepted materials).** From floats both constructors accept exactly NaN, infinity and numbers that are not negative, in all places together, and NaN and the
documented range for the Poisson ratio; `E1 = 0` alone raises `ZeroDivisionError`, all else `ValueError`. -/
theorem C132_accepted_all :
    (∀ m : OrthoMat PyFloat,
      let ok := Loose m.e1 ∧ Loose m.e2 ∧ LoosePoisson m.v12 ∧ Loose m.g12 ∧ Loose m.thickness ∧ Loose m.t1 ∧ Loose m.c1 ∧ Loose m.t2 ∧ Loose m.c2 ∧ Loose m.s
      let r := OrthoMat.init ⟨.num m.e1, .num m.e2, .num m.v12, .num m.g12, .num m.thickness, .num m.t1, .num m.c1, .num m.t2, .num m.c2, .num m.s⟩
      (ok → m.e1 ≠ .fin 0 → r = .ok m) ∧ (ok → m.e1 = .fin 0 → r = .error .zeroDivisionError) ∧ (¬ ok → r = .error .valueError)) ∧
    ∀ m : IsoMat PyFloat,
      let ok := Loose m.e ∧ LoosePoisson m.v ∧ Loose m.g ∧ Loose m.thickness ∧ Loose m.t ∧ Loose m.c ∧ Loose m.s
      let r := IsoMat.init ⟨.num m.e, .num m.v, .num m.g, .num m.thickness, .num m.t, .num m.c, .num m.s⟩
      (ok → r = .ok m) ∧ (¬ ok → r = .error .valueError) := by
  refine ⟨fun m => ?_, fun m => ?_⟩
  · simp only [loose_iff, loosePoisson_iff]
    have hc : OrthoConverts ⟨.num m.e1, .num m.e2, .num m.v12, .num m.g12, .num m.thickness, .num m.t1, .num m.c1, .num m.t2, .num m.c2, .num m.s⟩ m :=
      ⟨rfl, rfl, rfl, rfl, rfl, rfl, rfl, rfl, rfl, rfl⟩
    refine ⟨fun h h0 => (C01_ortho_ok _ _).mpr ⟨hc, h, h0⟩, fun h h0 => (C01_ortho_zeroDiv _).mpr ⟨m, hc, h, h0⟩, fun h => (C01_ortho_valueError _).mpr ?_⟩
    rintro ⟨m', hc', hr⟩
    rw [OrthoConverts.unique hc' hc] at hr
    exact h hr
  · simp only [loose_iff, loosePoisson_iff]
    have hc : IsoConverts ⟨.num m.e, .num m.v, .num m.g, .num m.thickness, .num m.t, .num m.c, .num m.s⟩ m := ⟨rfl, rfl, rfl, rfl, rfl, rfl, rfl⟩
    refine ⟨fun h => (C02_iso_ok _ _).mpr ⟨hc, h⟩, fun h => (C02_iso_valueError _ _).mpr ⟨rfl, ?_⟩⟩
    rintro ⟨m', hc', hr⟩
    rw [IsoConverts.unique hc' hc] at hr
    exact h hr

/-- Non-vacuity for C132_accepted_all: a material of infinities and NaN. -/
example : OrthoMat.init ⟨.num .pinf, .num .nan, .num .nan, .num .pinf, .num .nan, .num .pinf, .num (.fin 0), .num (.fin 0), .num .nan, .num .pinf⟩ =
    .ok ⟨.pinf, .nan, .nan, .pinf, .nan, .pinf, .fin 0, .fin 0, .nan, .pinf⟩ :=
  (C132_accepted_all.1 ⟨.pinf, .nan, .nan, .pinf, .nan, .pinf, .fin 0, .fin 0, .nan, .pinf⟩).1 (by simp [Loose, LoosePoisson]) (by simp)

end Composipy
