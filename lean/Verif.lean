import Verif.Sanity
import Verif.Proofs.NaiveReal
import Verif.Proofs.ConvertReal
import Verif.Proofs.ConvertReal4
import Verif.Proofs.ConvertReal67
import Verif.Proofs.SplitSpec
import Verif.Proofs.ButterfliesReal
import Verif.Proofs.SplitRadixReal
import Verif.Proofs.ButterfliesRuns
import Verif.Proofs.MdctReal
import Verif.Proofs.PlannerInv
import Verif.Proofs.MadeReal
import Verif.Props.Transforms
import Verif.Props.Safety
import Verif.Props.Planner
import Verif.Lib.TrigSums
import Verif.Props.Findings
import Verif.Proofs.Inverse
import Verif.Props.Inverse
import Verif.Client
import Verif.Proofs.Tdac
import Verif.Props.Mdct
import Verif.Props.Compose
import Verif.Threads
import Verif.Props.Threads
import Verif.Props.ComplexView
import Verif.Rounding
import Verif.Float.Norm
import Verif.Float.Ap
import Verif.Float.Trans
import Verif.Float.SplitRadix
import Verif.Float.Near
import Verif.Float.Kernels
import Verif.Float.Pow2
import Verif.Float.Dft
import Verif.Float.Fft23
import Verif.Float.Fft1
import Verif.Float.Fft4
import Verif.Float.Even4
import Verif.Float.Naive
import Verif.Float.Three
import Verif.Float.Planned
import Verif.Float.Flx
import Verif.Float.DftFft
import Verif.Props.Accuracy
import Verif.Float.Mdct
import Verif.Float.Window
import Verif.Props.MdctAccuracy
import Verif.Model.Word
import Verif.Props.Word
import Verif.Soundness
import Verif.Proofs.Soundness
import Verif.Props.Soundness
import Verif.Range
import Verif.Range.Calc
import Verif.Range.Tables
import Verif.Range.Naive
import Verif.Range.Fft
import Verif.Range.Kernels
import Verif.Range.Pow2
import Verif.Range.Even4
import Verif.Range.Planned
import Verif.Range.Format
import Verif.Range.SumFft
import Verif.Props.Range
import Verif.Range.Mdct
import Verif.Range.Window
import Verif.Props.RangeMdct
import Verif.Props.Scratch
import Verif.Float.Rne
import Verif.Formula
import Verif.Param
import Verif.Param.Logic
import Verif.Param.Butterflies
import Verif.Param.Naive
import Verif.Param.SplitRadix
import Verif.Param.ConvertFft
import Verif.Param.Mdct
import Verif.Param.Instances
import Verif.Param.Planner
import Verif.Props.Formula
import Verif.Model.WordProcess
import Verif.Model.WordPlan
import Verif.Proofs.WordProcess
import Verif.WordHistory
import Verif.Proofs.WordPlan
import Verif.Proofs.WordMid
import Verif.Props.WordPlan
import Verif.WordInstances
import Verif.Props.WordProcess
import Verif.NonFinite
import Verif.Props.NonFinite
import Verif.Overflow
import Verif.Props.Overflow
import Verif.RoundingMade
import Verif.Float.Made
import Verif.Props.Constructed
import Verif.Model.WindowEffects
import Verif.WindowHistory
import Verif.Props.WindowEffects
import Verif.SignOfZero
import Verif.Props.SignOfZero
import Verif.Param.Other
import Verif.RangeMade
import Verif.Range.Made
import Verif.Range.Contract
import Verif.Props.RangeMade
import Verif.FormulaMade
import Verif.Props.FormulaMade
import Verif.Model.Counted
import Verif.Model.CountedMethods
import Verif.Counting
import Verif.Cost.Logic
import Verif.Cost.Naive
import Verif.Cost.ConvertFft
import Verif.Cost.Butterflies
import Verif.Cost.SplitRadix
import Verif.Cost.Mdct
import Verif.Cost.Made
import Verif.Cost.Lower
import Verif.Cost.Planned
import Verif.Props.Cost
import Verif.Model.SplitRadixCalls
import Verif.Proofs.InPlace
import Verif.Proofs.SoundnessCalls
import Verif.Props.InPlace
import Verif.Props.SoundnessCalls
import Verif.Props.Agreement
import Verif.Memory
import Verif.Proofs.Memory
import Verif.Props.Memory
import Verif.Depth
import Verif.Props.Depth
import Verif.Model.WordLen
import Verif.Props.WordLen
import Verif.Model.Convert
import Verif.Props.Convert
import Verif.Props.WordZero
import Verif.Props.Eager
import Verif.Props.WordMdct
import Verif.Model.FftEffects
import Verif.FftHistory
import Verif.Proofs.FftEffects
import Verif.Props.FftEffects
import Verif.Model.FftPanic
import Verif.FftPanics
import Verif.Proofs.FftPanic
import Verif.Props.FftPanic
import Verif.Model.PlanFaults
import Verif.FaultHistory
import Verif.Proofs.PlanFaults
import Verif.Props.PlanFaults
import Verif.Props.Messages
import Verif.Switching
import Verif.Props.Switching
import Verif.Codec
import Verif.Props.Codec
import Verif.Model.Reference
import Verif.Props.Reference
import Verif.Silence
import Verif.Props.Silence
import Verif.ReferenceError
import Verif.Props.ReferenceError
import Verif.Model.InnerPanic
import Verif.InnerPanics
import Verif.Proofs.InnerPanic
import Verif.Props.InnerPanic
import Verif.Props.Hungry
import Verif.FloatCodec
import Verif.Float.Codec
import Verif.Props.FloatCodec
import Verif.Images
import Verif.Props.Images
import Verif.Laplace
import Verif.Proofs.Laplace
import Verif.Props.Laplace
import Verif.Fir
import Verif.Props.Fir
import Verif.Props.FloatFilter
import Verif.Chebyshev
import Verif.Props.Chebyshev
import Verif.Props.FloatChebyshev
