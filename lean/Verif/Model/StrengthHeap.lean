import Verif.Model.Strength

/-!
# `calculate_strain` with arrays as mutable objects  [strength.py:69-148, 202-266]

The heap is a list of 3-arrays; an address is a position.  Every NumPy expression that builds an array
allocates a new one; `a[2] /= 2` writes through the address.
-/

namespace Composipy
open Matrix

/-- The heap of NumPy 3-arrays. -/
abbrev Heap := List V3

/-- A new array. -/
def alloc (v : V3) (h : Heap) : Nat × Heap := (h.length, h ++ [v])

/-- The array at an address (0 for a dangling address; none occurs). -/
def Heap.get (h : Heap) (a : Nat) : V3 := h.getD a 0

/-- In-place update of the array at an address. -/
def Heap.modify (h : Heap) (a : Nat) (f : V3 → V3) : Heap := h.set a (f (h.get a))

/-- The loop of `_epsilonk`: `epsilon + htop*kappa` and `epsilon + hbot*kappa` are new arrays
[strength.py:91-97] -/
noncomputable def hEpsLoop (eps kap : V3) : List (ℝ × ℝ) → Heap → List (Nat × Nat) × Heap
  | [], h => ([], h)
  | (zt, zb) :: rest, h =>
    let (a, h) := alloc (eps + zt • kap) h
    let (b, h) := alloc (eps + zb • kap) h
    let (r, h) := hEpsLoop eps kap rest h
    ((a, b) :: r, h)

/-- `_epsilonk` returning addresses  [strength.py:69-97] -/
noncomputable def hEpsilonk (l : Lam) (N : V6) (h : Heap) : Except PyErr (List (Nat × Nat)) × Heap :=
  match zPairs l.zPosition l.stacking.len with
  | .error e => (.error e, h)
  | .ok zmid =>
    match epsilon0 l N with
    | .error e => (.error e, h)
    | .ok e => let (r, h) := hEpsLoop (membrane e) (curvature e) zmid h; (.ok r, h)

/-- The loop of `_epsilonk_123`: the two strain arrays are halved in place, their rotations are new
arrays, doubled in place  [strength.py:129-146] -/
noncomputable def h123Loop : List (ℝ × (Nat × Nat)) → Heap → List (Nat × Nat) × Heap
  | [], h => ([], h)
  | (theta, (t, b)) :: rest, h =>
    let h := h.modify t halveShear
    let h := h.modify b halveShear
    let (ct, h) := alloc (Treal theta *ᵥ h.get t) h
    let (cb, h) := alloc (Treal theta *ᵥ h.get b) h
    let h := h.modify ct doubleShear
    let h := h.modify cb doubleShear
    let (r, h) := h123Loop rest h
    ((ct, cb) :: r, h)

/-- `_epsilonk_123` returning addresses: it calls `self._epsilonk()` again  [strength.py:123-148] -/
noncomputable def hEpsilonk123 (l : Lam) (N : V6) (h : Heap) :
    Except PyErr (List (Nat × Nat)) × Heap :=
  match hEpsilonk l N h with
  | (.error e, h) => (.error e, h)
  | (.ok ek, h) =>
    match l.stacking.toAngles with
    | .error e => (.error e, h)
    | .ok angles => let (r, h) := h123Loop (angles.zip ek) h; (.ok r, h)

/-- The arrays at a list of address pairs. -/
def Heap.pairs (h : Heap) (l : List (Nat × Nat)) : List (V3 × V3) := l.map fun p => (h.get p.1, h.get p.2)

/-- `calculate_strain` on the heap: the table is filled from the arrays as they are after both
calls  [strength.py:216-264] -/
noncomputable def hCalculateStrain (l : Lam) (N : V6) (h : Heap) : Except PyErr (List Row) × Heap :=
  match hEpsilonk l N h with
  | (.error e, h) => (.error e, h)
  | (.ok ek, h) =>
    match hEpsilonk123 l N h with
    | (.error e, h) => (.error e, h)
    | (.ok ek123, h) =>
      match l.stacking.toAngles with
      | .error e => (.error e, h)
      | .ok angles => (fillRows l.zPosition (h.pairs ek) (h.pairs ek123) angles, h)

end Composipy
