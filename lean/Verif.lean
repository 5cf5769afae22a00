import Verif.Py.Basic
import Verif.Py.Num
import Verif.Model.DataContainer
import Verif.Spec.Angle
import Verif.Proofs.Dict
import Verif.Proofs.Angle
import Verif.Proofs.DataInit
import Verif.Proofs.Coerce
import Verif.Proofs.DataInit2
import Verif.Props.DataInit
import Verif.Proofs.DataOps
import Verif.Spec.History
import Verif.Proofs.DataExt
import Verif.Props.DataOps
import Verif.Model.DataArith
import Verif.Spec.DataArith
import Verif.Proofs.DataArith
import Verif.Props.DataArith
import Verif.Py.Arr
import Verif.Proofs.Arr
import Verif.Model.FData
import Verif.Spec.Fourier
import Verif.Proofs.FData
import Verif.Props.FData
import Verif.Model.Heap
import Verif.Proofs.Heap
import Verif.Props.Heap
import Verif.Model.Convert
import Verif.Proofs.Convert
import Verif.Props.Convert
import Verif.Py.Expr
import Verif.Model.Form
import Verif.Spec.Form
import Verif.Proofs.Expr
import Verif.Proofs.Form
import Verif.Model.Copy
import Verif.Props.Form
import Verif.Model.LookupTable
import Verif.Model.FourierTransform
import Verif.Spec.Trig
import Verif.Proofs.Lookup
import Verif.Proofs.Integral
import Verif.Proofs.FourierTransform
import Verif.Proofs.FormToFform
import Verif.Props.FourierTransform
import Verif.Model.FormConvert
import Verif.Spec.Subs
import Verif.Proofs.FormConvert
import Verif.Proofs.FormToDat
import Verif.Props.FormConvert
import Verif.Model.SaveFform
import Verif.Props.SaveFform
import Verif.Model.Merge
import Verif.Spec.Merge
import Verif.Props.Merge
import Verif.Model.Load
import Verif.Props.Load
import Verif.Py.Nd
import Verif.Model.Tensor
import Verif.Spec.Tensor
import Verif.Proofs.Tensor
import Verif.Proofs.Transform
import Verif.Props.Tensor
import Verif.Model.Rotation
import Verif.Spec.Rotation
import Verif.Proofs.Rotation
import Verif.Props.Rotation
import Verif.Model.TensorSym
import Verif.Spec.TensorSym
import Verif.Props.TensorSym
import Verif.Model.Formgen
import Verif.Spec.Intensity
import Verif.Proofs.Formgen
import Verif.Proofs.Formgen2
import Verif.Proofs.Intensity
import Verif.Proofs.NdAll
import Verif.Proofs.Harmonics
import Verif.Proofs.Formgen3
import Verif.Props.Formgen
import Verif.Model.Fformgen
import Verif.Proofs.Fformgen
import Verif.Proofs.Fformgen2
import Verif.Proofs.Fformgen3
import Verif.Proofs.Fformgen4
import Verif.Proofs.Fformgen5
import Verif.Proofs.Fformgen6
import Verif.Proofs.TrigShape
import Verif.Props.Fformgen
import Verif.Model.TensorTable
import Verif.Spec.PointGroup
import Verif.Proofs.TableCheck
import Verif.Proofs.TableCert
import Verif.Proofs.TableMeaning
import Verif.Proofs.TableMore
import Verif.Props.TensorTable
import Verif.Model.FFormFit
import Verif.Spec.Fit
import Verif.Proofs.Fit
import Verif.Proofs.FitGrad
import Verif.Proofs.FitModel
import Verif.Proofs.FitLoad
import Verif.Proofs.FitRun
import Verif.Props.FFormFit
import Verif.Props.FFormFitCases
import Verif.Props.DataFilter
import Verif.Model.Plotter
import Verif.Spec.Plot
import Verif.Proofs.Plotter
import Verif.Props.Plotter
import Verif.Model.Pandas
import Verif.Spec.Frame
import Verif.Proofs.Pandas
import Verif.Props.Pandas
import Verif.Model.RotationSymb
import Verif.Props.RotationSymb
import Verif.Spec.Files
import Verif.Props.FFormFit2
import Verif.Props.Accessors
import Verif.Model.FitCrash
import Verif.Spec.Crash
import Verif.Proofs.FitCrash
import Verif.Props.FitCrash
import Verif.Model.FitLazy
import Verif.Spec.Process
import Verif.Props.FitLazy
import Verif.Model.FformRound
import Verif.Spec.Round
import Verif.Props.FformRound
import Verif.Spec.Selection
import Verif.Proofs.Selection
import Verif.Props.Selection
import Verif.Spec.Simulated
import Verif.Props.Simulated
import Verif.Props.Degenerate
import Verif.Model.FloatAngle
import Verif.Proofs.FloatAngle
import Verif.Props.FloatAngle
import Verif.Model.CallArgs
import Verif.Props.CallArgs
import Verif.Model.FilterWrites
import Verif.Props.FilterWrites
import Verif.Model.Iterables
import Verif.Props.Iterables
import Verif.Spec.LeastSquares
import Verif.Props.LeastSquares
import Verif.Model.FitParallel
import Verif.Spec.Parallel
import Verif.Proofs.FitParallel
import Verif.Props.FitParallel
import Verif.Model.NonFinite
import Verif.Spec.NonFinite
import Verif.Proofs.NonFinite
import Verif.Props.NonFinite
import Verif.Spec.MergeFit
import Verif.Props.MergeFit
import Verif.Props.Orientation
import Verif.Spec.DataDuplicates
import Verif.Props.DataDuplicates
import Verif.Props.DataOffset
import Verif.Model.FitLoaded
import Verif.Spec.Loaded
import Verif.Props.FitLoaded
import Verif.Props.PhaseUnits
import Verif.Spec.Linear
import Verif.Props.Linear
import Verif.Model.FloatFourier
import Verif.Spec.FloatFourier
import Verif.Props.FloatFourier
import Verif.Spec.Orientation
import Verif.Spec.Glob
import Verif.Props.Glob
import Verif.Model.FloatValue
import Verif.Props.FloatValue
import Verif.Props.FitOrientation
import Verif.Model.ModelFit
import Verif.Props.ModelFit
import Verif.Props.FourierExact
import Verif.Model.PartialFit
import Verif.Props.PartialFit
import Verif.Spec.FitCurve
import Verif.Props.FitCurve
import Verif.Spec.Particularized
import Verif.Props.Particularized
import Verif.Spec.Lowered
import Verif.Props.Lowered
import Verif.Props.Symmetrized
import Verif.Props.Face
import Verif.Props.Robust
import Verif.Props.Noise
import Verif.Props.ScaledFit
import Verif.Props.FformDict
import Verif.Props.BestFit
import Verif.Props.CText
import Verif.Props.FitExample
import Verif.Props.CostExample
import Verif.Props.GenExample
import Verif.Props.FformgenSymbols
import Verif.Props.CftExample
import Verif.Props.ModelExample
import Verif.Props.LookExample
import Verif.Props.HeapForm
import Verif.Props.GradCases
import Verif.Props.FloatSynth
import Verif.Props.MergeConvert
import Verif.Props.FloatCost
import Verif.Props.ComplexInput
import Verif.Props.FloatPipeline
import Verif.Props.RotationInt
import Verif.Props.SameMeasurement
import Verif.Props.Incidence
import Verif.Props.Nonnegative
import Verif.Props.ModelParallel
import Verif.Props.ReadParallel
import Verif.Props.Seen
import Verif.Props.FormulaFiles
import Verif.Props.Interrupt
import Verif.Props.Unequal
import Verif.Props.Threads
import Verif.Props.Cubic
import Verif.Props.Spline
import Verif.Props.Readers
import Verif.Props.Default
import Verif.Props.ReadersOther
import Verif.Props.Measured
import Verif.Props.StepInterp
import Verif.Props.FThreads
import Verif.Props.FormThreads
import Verif.Props.Completed
import Verif.Props.LinearDefault
import Verif.Props.CompletedMin
import Verif.Props.Names
import Verif.Props.CompletedDark
import Verif.Props.Agree
