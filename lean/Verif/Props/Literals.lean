import Verif.Props.Constraints
import Verif.Props.Validation
import Verif.Props.Pcomp

/-!
# Texts and default arguments spelt out (C03, C41, C64)

The other theorems on these properties use the names of the model for the words of the code; here the words are written out.
-/

namespace Composipy
open Spec

/-- A dictionary with the same value on all four edges. -/
def Spec.allEdges (e : Edge) : Constraints := .dict (some e) (some e) (some e) (some e)

/-- A list of flags written as texts. -/
def Spec.flagList (l : List String) : Edge := .flags (l.map String.toList)

/-- **C41** the words and flags, spelt out: what each word of the interface stands for. -/
theorem C41_spelling (m n : ℕ) :
    computeIdx (.str "PINNED".toList) m n = computeIdx (allEdges (flagList ["TX", "TY", "TZ"])) m n ∧
    computeIdx (.str "CLAMPED".toList) m n = computeIdx (allEdges (flagList ["TX", "TY", "TZ", "RX", "RY", "RZ"])) m n ∧
    defaultConstraints = allEdges (flagList ["TX", "TY", "TZ"]) ∧
    computeIdx (allEdges (.word "free".toList)) m n = computeIdx (allEdges (flagList [])) m n ∧
    (∀ w ∈ ["pinned", "simply_supported", "Pinned", "PINNED", "SIMPLY_SUPPORTED"],
      computeIdx (allEdges (.word w.toList)) m n = computeIdx (allEdges (flagList ["TX", "TY", "TZ"])) m n) ∧
    (∀ w ∈ ["fixed", "clamped", "Fixed", "CLAMPED"],
      computeIdx (allEdges (.word w.toList)) m n = computeIdx (allEdges (flagList ["TX", "TY", "TZ", "RX", "RY", "RZ"])) m n) ∧
    (∀ w ∈ ["simply supported", "clamp", "", "TX"], computeIdx (allEdges (.word w.toList)) m n = .error .keyError) ∧
    computeIdx (.str "pinned".toList) m n = .error .typeError := by
  have key (w : String) (l : List String) (h : boundaryConditions (strLower w.toList) = .ok (l.map String.toList)) :
      computeIdx (allEdges (.word w.toList)) m n = computeIdx (allEdges (flagList l)) m n := by
    simp only [allEdges, computeIdx, word_dict, h, ok_bind, pure_eq_ok]
    rfl
  have bad (w : String) (h : boundaryConditions (strLower w.toList) = .error .keyError) :
      computeIdx (allEdges (.word w.toList)) m n = .error .keyError := by
    simp only [allEdges, computeIdx, word_dict, h, error_bind]
  refine ⟨rfl, rfl, rfl, key _ _ (by decide +kernel), fun w hw => key _ _ ?_, fun w hw => key _ _ ?_, fun w hw => bad _ ?_, rfl⟩ <;>
    (revert w; decide +kernel)

/-- **C41** which function each flag removes: index 0 and 1 at the first edge, 2 and 3 at the second, of the displacement named by the flag;
the lists along `y` of `v` and `w` are those of `u`. -/
theorem C41_flags : ∀ x0 ∈ [[], ["TX"], ["TY"], ["TZ"], ["RX"], ["RY"], ["RZ"]], ∀ xa ∈ [[], ["TX"], ["TY"], ["TZ"], ["RX"], ["RY"], ["RZ"]],
    computeIdx (.dict (some (flagList x0)) (some (flagList xa)) (some (flagList [])) (some (flagList []))) 4 1 =
      .ok ⟨((List.range 8).filter fun i => ¬ (i = 0 ∧ "TX" ∈ x0 ∨ i = 1 ∧ "RX" ∈ x0 ∨ i = 2 ∧ "TX" ∈ xa ∨ i = 3 ∧ "RX" ∈ xa)).take 4 |>.map fun i => (i, 0),
        ((List.range 8).filter fun i => ¬ (i = 0 ∧ "TY" ∈ x0 ∨ i = 1 ∧ "RY" ∈ x0 ∨ i = 2 ∧ "TY" ∈ xa ∨ i = 3 ∧ "RY" ∈ xa)).take 4 |>.map fun i => (i, 0),
        ((List.range 8).filter fun i => ¬ (i = 0 ∧ "TZ" ∈ x0 ∨ i = 1 ∧ "RZ" ∈ x0 ∨ i = 2 ∧ "TZ" ∈ xa ∨ i = 3 ∧ "RZ" ∈ xa)).take 4 |>.map fun i => (i, 0)⟩ := by
  decide +kernel

/-- **C03** omitted arguments: no loads and ten terms in each direction. -/
theorem C03_defaults (isProp : Bool) (a b : PyVal) :
    PlateArgs.args isProp a b = ⟨isProp, a, b, .num (.fin 0), .num (.fin 0), .num (.fin 0), .num (.fin 10), .num (.fin 10)⟩ := rfl

/-- **C64** the output requests, spelt out. -/
theorem C64_spelling (n : ℕ) :
    convertSout (.text "NO".toList) n = .ok (List.replicate n "NO".toList) ∧ convertSout (.text "YES".toList) n = .ok (List.replicate n "YES".toList) ∧
    (1 ≤ n → ∃ out, convertSout (.text "FIBER".toList) n = .ok out ∧ out.length = n ∧
      ∀ i (h : i < out.length), out[i] = if i = 0 ∨ i + 1 = n then "YES".toList else "NO".toList) ∧
    convertSout (.text "no".toList) 2 = .ok ["n".toList, "o".toList] ∧ convertSout (.text "FIBRE".toList) 3 = .error .valueError := by
  refine ⟨?_, ?_, fun hn => ?_, by decide, by decide⟩
  · exact (C64_all n).2
  · exact (C64_all n).1
  · exact C64_fiber n (by omega)

end Composipy
