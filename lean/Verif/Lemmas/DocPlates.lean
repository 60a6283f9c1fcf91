import Verif.Lemmas.PlateCert
import Verif.Props.TestLoads

/-!
# The plates of the notebooks and tests, with the indices of their shape functions
-/

namespace Composipy
open Spec

/-- Stack of `Critical_buckling_verification_study.ipynb`. -/
def studyStack : List ExactPly :=
  [1, -1, 1, -1, 0, 0, 2, 2, 2, 2, 0, 0, -1, 1, -1, 1].map fun k => (k, mat 137900 11700 (31/100) 4820 (1524/10000))

/-- `panel_SSSS`. -/
def ssssPlate : IntPlate := ⟨exactD testBuckling, 360, 360, -1, 0, 0, [1, 3, 4, 5, 6, 7, 8, 9, 10, 11], [1, 3, 4, 5, 6, 7, 8, 9, 10, 11]⟩

/-- `panel_CCCC`. -/
def ccccPlate : IntPlate := ⟨exactD testBuckling, 360, 540, 0, -1, -1, [4, 5, 6, 7, 8, 9, 10, 11, 12, 13], [4, 5, 6, 7, 8, 9, 10, 11, 12, 13]⟩

/-- `panel_SSFS`. -/
def ssfsPlate : IntPlate := ⟨exactD testBuckling, 540, 360, -1, 0, 0, [1, 3, 4, 5, 6, 7, 8, 9, 10, 11], [0, 1, 3, 4, 5, 6, 7, 8, 9, 10]⟩

/-- `panel_CCCC_nxy`. -/
def shearPlate : IntPlate := ⟨exactD testBuckling, 360, 360, 0, 0, -1, [4, 5, 6, 7, 8, 9, 10, 11, 12, 13], [4, 5, 6, 7, 8, 9, 10, 11, 12, 13]⟩

/-- The pinned plate of the verification study. -/
def kasPPlate : IntPlate := ⟨exactD studyStack, 100, 100, -1, -1/2, 0, [1, 3, 4, 5, 6, 7, 8], [1, 3, 4, 5, 6, 7, 8]⟩

/-- The clamped plate of the verification study. -/
def kasCPlate : IntPlate := ⟨exactD studyStack, 100, 100, -1, -1/2, 0, [4, 5, 6, 7, 8, 9, 10], [4, 5, 6, 7, 8, 9, 10]⟩

/-- The plate with a free edge of the verification study. -/
def kasFPlate : IntPlate :=
  ⟨exactD studyStack, 100, 100, -1, -1/2, 0, [1, 3, 4, 5, 6, 7, 8, 9, 10, 11], [0, 1, 3, 4, 5, 6, 7, 8, 9, 10]⟩

/-- The plate of `Optimization_buckling.ipynb`. -/
def optPlate : IntPlate := ⟨exactD testBuckling, 360, 360, -1, -1/2, 1/2, [1, 3, 4, 5, 6, 7, 8], [0, 1, 3, 4, 5, 6, 7]⟩

/-- The clamped plate of the tests. -/
def testCPlate : IntPlate := ⟨exactD testBuckling, 360, 360, -1, -1, 0, [4, 5, 6, 7, 8, 9, 10, 11, 12, 13], [4, 5, 6, 7, 8, 9, 10, 11, 12, 13]⟩

/-- The pinned plate of the tests. -/
def testPPlate : IntPlate := ⟨exactD testBuckling, 360, 360, -1, -1, 0, [1, 3, 4, 5, 6, 7, 8, 9, 10, 11], [1, 3, 4, 5, 6, 7, 8, 9, 10, 11]⟩

end Composipy
