import Verif.Gen.DesignBest
import Verif.Gen.DesignCorners
import Verif.Gen.DocCccc
import Verif.Gen.DocKasC
import Verif.Gen.DocKasF
import Verif.Gen.DocKasP
import Verif.Gen.DocOpt
import Verif.Gen.DocShear
import Verif.Gen.DocSsfs
import Verif.Gen.DocSsss
import Verif.Gen.DocTestC
import Verif.Gen.DocTestP
import Verif.Gen.Duals
import Verif.Gen.FF
import Verif.Gen.FXIXI_F
import Verif.Gen.FXIXI_FXI
import Verif.Gen.FXIXI_FXIXI
import Verif.Gen.FXI_F
import Verif.Gen.FXI_FXI
import Verif.Gen.Nine
import Verif.Gen.RoundPlates
import Verif.Gen.S
import Verif.Gen.ShapeInts
import Verif.Lemmas.Approx
import Verif.Lemmas.Certificate
import Verif.Lemmas.Coupled
import Verif.Lemmas.DesignPlates
import Verif.Lemmas.DocPlates
import Verif.Lemmas.DualCheck
import Verif.Lemmas.Eval
import Verif.Lemmas.Integral
import Verif.Lemmas.Moments
import Verif.Lemmas.NineCheck
import Verif.Lemmas.Packed
import Verif.Lemmas.Pencil
import Verif.Lemmas.PlateCert
import Verif.Lemmas.PlateSizes
import Verif.Lemmas.Ritz
import Verif.Lemmas.Rotation
import Verif.Lemmas.RoundedCert
import Verif.Lemmas.Rounding
import Verif.Lemmas.Scheme
import Verif.Lemmas.SineSeries
import Verif.Lemmas.Stiffness
import Verif.Lemmas.Strength
import Verif.Lemmas.TableCheck
import Verif.Lemmas.TableClose
import Verif.Lemmas.Tensor
import Verif.Lemmas.Text
import Verif.Lemmas.Validation
import Verif.Lemmas.Wirtinger
import Verif.Model.Attributes
import Verif.Model.Buckling
import Verif.Model.Constraints
import Verif.Model.Display
import Verif.Model.Effects
import Verif.Model.Generator
import Verif.Model.Idxmin
import Verif.Model.Laminate
import Verif.Model.LaminateCache
import Verif.Model.Material
import Verif.Model.Naming
import Verif.Model.NonFinite
import Verif.Model.NonFiniteOptimize
import Verif.Model.NonFinitePlate
import Verif.Model.Notebook
import Verif.Model.OptPlot
import Verif.Model.Optimize
import Verif.Model.Pcomp
import Verif.Model.PcompAny
import Verif.Model.PcompArray
import Verif.Model.Plate
import Verif.Model.Plot
import Verif.Model.Rounded
import Verif.Model.RoundedBuckling
import Verif.Model.RoundedOptimize
import Verif.Model.RoundedPlate
import Verif.Model.RoundedStrength
import Verif.Model.ShapeFunctions
import Verif.Model.SignedZero
import Verif.Model.Stiffness
import Verif.Model.Strength
import Verif.Model.StrengthHeap
import Verif.Model.StrengthState
import Verif.Model.Tables
import Verif.Model.Theoretical
import Verif.Model.Validators
import Verif.Props.Accuracy
import Verif.Props.Assembly
import Verif.Props.Attributes
import Verif.Props.Audit
import Verif.Props.Bardell
import Verif.Props.BookDesigns
import Verif.Props.BookTables
import Verif.Props.Buckling
import Verif.Props.BucklingLaws
import Verif.Props.BucklingOutcome
import Verif.Props.Cache
import Verif.Props.Constraints
import Verif.Props.Convex
import Verif.Props.Coupled
import Verif.Props.Display
import Verif.Props.Documented
import Verif.Props.DoublePrecision
import Verif.Props.EdgeConditions
import Verif.Props.Effects
import Verif.Props.Energy
import Verif.Props.EulerBound
import Verif.Props.ExactStacks
import Verif.Props.Generator
import Verif.Props.Idxmin
import Verif.Props.IntegralTables
import Verif.Props.Invariants
import Verif.Props.LP
import Verif.Props.Laminate
import Verif.Props.Literals
import Verif.Props.LongPlate
import Verif.Props.Margins
import Verif.Props.Material
import Verif.Props.Membrane
import Verif.Props.Modes
import Verif.Props.Naming
import Verif.Props.Navier
import Verif.Props.NavierLimit
import Verif.Props.NonFinite
import Verif.Props.NonFiniteOptimize
import Verif.Props.NonFinitePlate
import Verif.Props.Notebook
import Verif.Props.OptPlot
import Verif.Props.Optimize
import Verif.Props.Optimum
import Verif.Props.Ordered
import Verif.Props.Pcomp
import Verif.Props.PcompAny
import Verif.Props.PcompArray
import Verif.Props.Plot
import Verif.Props.Realize
import Verif.Props.Release
import Verif.Props.Response
import Verif.Props.RitzLimit
import Verif.Props.Rotation
import Verif.Props.Rounded
import Verif.Props.RoundedEnergy
import Verif.Props.RoundedLimit
import Verif.Props.RoundedOptimize
import Verif.Props.RoundedPlate
import Verif.Props.RoundedPly
import Verif.Props.RoundedStrength
import Verif.Props.SafeLoads
import Verif.Props.Script
import Verif.Props.Sensitivity
import Verif.Props.Sequence
import Verif.Props.SequenceErrors
import Verif.Props.ShapeTables
import Verif.Props.SignedZero
import Verif.Props.SolverError
import Verif.Props.Spectrum
import Verif.Props.Stiffness
import Verif.Props.Strength
import Verif.Props.StrengthState
import Verif.Props.Supports
import Verif.Props.Symmetry
import Verif.Props.TableError
import Verif.Props.TestLoads
import Verif.Props.Theoretical
import Verif.Props.TolerancePlate
import Verif.Props.ToleranceStrength
import Verif.Props.Validation
import Verif.Props.ZeroAllowables
import Verif.Py.Basic
import Verif.Py.Eval
import Verif.Py.Num
import Verif.Py.Val
import Verif.Spec.Card
import Verif.Spec.Linear
import Verif.Spec.Names
import Verif.Spec.Nearest
import Verif.Spec.Stack
import Verif.Spec.StackText
import Verif.Spec.Tensor
import Verif.Spec.Validation
