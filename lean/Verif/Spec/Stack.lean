import Verif.Model.Laminate

/-!
# Specification: stacks of plies
-/

namespace Composipy.Spec

/-- Total thickness of a layup. -/
noncomputable def height (L : List (ℝ × Mat)) : ℝ := (L.map fun p => p.2.thickness).sum

/-- No ply has negative thickness. -/
def NonnegThick (L : List (ℝ × Mat)) : Prop := ∀ p ∈ L, 0 ≤ p.2.thickness

/-- The same material with another thickness. -/
def withThickness (m : Mat) (t : ℝ) : Mat :=
  match m with
  | .ortho o => .ortho { o with thickness := t }
  | .iso o => .iso { o with thickness := t }

/-- All thicknesses multiplied by `k`. -/
def scaleLayup (k : ℝ) (L : List (ℝ × Mat)) : List (ℝ × Mat) :=
  L.map fun p => (p.1, withThickness p.2 (k * p.2.thickness))

/-- Every angle with the opposite sign. -/
def negLayup (L : List (ℝ × Mat)) : List (ℝ × Mat) := L.map fun p => (-p.1, p.2)

/-- `f` has the value `q_k` strictly between interface `k` and interface `k+1`. -/
def IsField {V : Type} (f : ℝ → V) (interfaces : List ℝ) (values : List V) : Prop :=
  ∀ (k : Nat) (a b : ℝ) (q : V), interfaces[k]? = some a → interfaces[k + 1]? = some b →
    values[k]? = some q → ∀ z, a < z → z < b → f z = q

end Composipy.Spec
