import Verif.Model.AllRun
import Verif.Model.AmpFl
import Verif.Model.Args
import Verif.Model.Attributes
import Verif.Model.Calib
import Verif.Model.CalibRun
import Verif.Model.CalibWhole
import Verif.Model.Calibration
import Verif.Model.Catalog
import Verif.Model.CatalogRun
import Verif.Model.Coadd
import Verif.Model.CoaddDeltas
import Verif.Model.CoaddFl
import Verif.Model.CommandLine
import Verif.Model.ContFit
import Verif.Model.ContFitFl
import Verif.Model.CostFl
import Verif.Model.CovSquare
import Verif.Model.Created
import Verif.Model.Delta
import Verif.Model.DeltaCoaddFl
import Verif.Model.DeltaFl
import Verif.Model.DeltaIo
import Verif.Model.DlaProfile
import Verif.Model.Dof
import Verif.Model.ExposureRun
import Verif.Model.Exposures
import Verif.Model.FftSmooth
import Verif.Model.Fiducial
import Verif.Model.FitParams
import Verif.Model.FitRun
import Verif.Model.FitTail
import Verif.Model.Fitter
import Verif.Model.FitterErr
import Verif.Model.FixedRun
import Verif.Model.FullFit
import Verif.Model.InputCont
import Verif.Model.Interp
import Verif.Model.Io
import Verif.Model.Masks
import Verif.Model.MeanCont
import Verif.Model.MeanReso
import Verif.Model.Mpi
import Verif.Model.MpiCalls
import Verif.Model.MpiUtils
import Verif.Model.Pipeline
import Verif.Model.ReadImage
import Verif.Model.Save
import Verif.Model.Select
import Verif.Model.Shared
import Verif.Model.Smooth
import Verif.Model.SnrFl
import Verif.Model.Spectrum
import Verif.Model.SpectrumInit
import Verif.Model.Stack
import Verif.Model.StackFl
import Verif.Model.Subsample
import Verif.Model.TailRun
import Verif.Model.VarLss
import Verif.Model.VarLssFl
import Verif.Model.VarSmooth
import Verif.Model.VarTable
import Verif.Model.WholeRun
import Verif.Model.WrittenRun
import Verif.Np.Argmin
import Verif.Np.Dict
import Verif.Np.Err
import Verif.Np.Float
import Verif.Np.FloatArith
import Verif.Np.MedianFilter
import Verif.Np.Round
import Verif.Np.Scatter
import Verif.Np.Unique
import Verif.Proofs.Aligned
import Verif.Proofs.AllRun
import Verif.Proofs.ArmOrder
import Verif.Proofs.ArmOrderCoadd
import Verif.Proofs.ArmOrderFit
import Verif.Proofs.ArmOrderRead
import Verif.Proofs.ArmOrderWhole
import Verif.Proofs.ArmOrderWrite
import Verif.Proofs.Attributes
import Verif.Proofs.Balance
import Verif.Proofs.BalanceBound
import Verif.Proofs.Calib
import Verif.Proofs.CalibEnds
import Verif.Proofs.CalibStack
import Verif.Proofs.CalibWhole
import Verif.Proofs.Calibration
import Verif.Proofs.Catalog
import Verif.Proofs.CatalogRun
import Verif.Proofs.Coadd
import Verif.Proofs.CoaddDeltas
import Verif.Proofs.CoaddFit
import Verif.Proofs.CoaddLoop
import Verif.Proofs.CoaddReso
import Verif.Proofs.CoaddTail
import Verif.Proofs.CoaddWhen
import Verif.Proofs.CommandLine
import Verif.Proofs.ContFit
import Verif.Proofs.Cuts
import Verif.Proofs.Delta
import Verif.Proofs.DeltaFiles
import Verif.Proofs.Dict
import Verif.Proofs.DlaProfile
import Verif.Proofs.ExceptList
import Verif.Proofs.ExposureRun
import Verif.Proofs.Exposures
import Verif.Proofs.Failed
import Verif.Proofs.FftSmooth
import Verif.Proofs.FitRun
import Verif.Proofs.Fitter
import Verif.Proofs.FitterErr
import Verif.Proofs.FixedRun
import Verif.Proofs.Increment
import Verif.Proofs.InputCont
import Verif.Proofs.Interp
import Verif.Proofs.Io
import Verif.Proofs.Legendre
import Verif.Proofs.LegendreShift
import Verif.Proofs.MaskSeq
import Verif.Proofs.Masks
import Verif.Proofs.Mpi
import Verif.Proofs.NatSpline
import Verif.Proofs.Pipeline
import Verif.Proofs.RankFree
import Verif.Proofs.ReadImage
import Verif.Proofs.Readers
import Verif.Proofs.RelProg
import Verif.Proofs.Restart
import Verif.Proofs.RowOrder
import Verif.Proofs.RunEnds
import Verif.Proofs.Save
import Verif.Proofs.Select
import Verif.Proofs.SelectCoadd
import Verif.Proofs.Shared
import Verif.Proofs.Slice
import Verif.Proofs.Snr
import Verif.Proofs.Spectrum
import Verif.Proofs.SpectrumInit
import Verif.Proofs.SplQuad
import Verif.Proofs.Spline
import Verif.Proofs.Split
import Verif.Proofs.Stack
import Verif.Proofs.StackFl
import Verif.Proofs.Sync
import Verif.Proofs.TailRun
import Verif.Proofs.TwoCatalogs
import Verif.Proofs.Units
import Verif.Proofs.UnitsCoadd
import Verif.Proofs.UnitsMore
import Verif.Proofs.UnitsRun
import Verif.Proofs.UnitsWhole
import Verif.Proofs.VarLss
import Verif.Proofs.WholeRun
import Verif.Proofs.WrittenRun
import Verif.Props.Aligned
import Verif.Props.AllRun
import Verif.Props.AmpFl
import Verif.Props.Args
import Verif.Props.ArmOrder
import Verif.Props.Attributes
import Verif.Props.Balance
import Verif.Props.Calib
import Verif.Props.CalibEnds
import Verif.Props.CalibRun
import Verif.Props.CalibWhole
import Verif.Props.Calibration
import Verif.Props.Catalog
import Verif.Props.CatalogRun
import Verif.Props.ChiDeltas
import Verif.Props.Coadd
import Verif.Props.CoaddDeltas
import Verif.Props.CoaddFit
import Verif.Props.CoaddFl
import Verif.Props.CoaddLoop
import Verif.Props.CoaddTail
import Verif.Props.CoaddWhen
import Verif.Props.CommandLine
import Verif.Props.ContFit
import Verif.Props.ContFitFl
import Verif.Props.ContFixed
import Verif.Props.CostFl
import Verif.Props.CovSquare
import Verif.Props.Cuts
import Verif.Props.Delta
import Verif.Props.DeltaCoaddFl
import Verif.Props.DeltaFiles
import Verif.Props.DeltaFl
import Verif.Props.DeltaHeader
import Verif.Props.DeltaIo
import Verif.Props.DlaProfile
import Verif.Props.DlaWings
import Verif.Props.Dof
import Verif.Props.ExposureRun
import Verif.Props.ExposureWeights
import Verif.Props.Exposures
import Verif.Props.Failed
import Verif.Props.FftSmooth
import Verif.Props.Fiducial
import Verif.Props.FitParams
import Verif.Props.FitRun
import Verif.Props.FitTail
import Verif.Props.FitWeights
import Verif.Props.Fitter
import Verif.Props.FixedRun
import Verif.Props.Increment
import Verif.Props.InputCont
import Verif.Props.Interp
import Verif.Props.Legendre
import Verif.Props.Locality
import Verif.Props.Masks
import Verif.Props.MeanCont
import Verif.Props.MeanReso
import Verif.Props.MpiCalls
import Verif.Props.NormFlux
import Verif.Props.Outlier
import Verif.Props.Pipeline
import Verif.Props.QuasarFit
import Verif.Props.RankFree
import Verif.Props.ReadImage
import Verif.Props.Readers
import Verif.Props.Restart
import Verif.Props.RowOrder
import Verif.Props.RunEnds
import Verif.Props.Save
import Verif.Props.Select
import Verif.Props.Shared
import Verif.Props.SnrFl
import Verif.Props.Spectrum
import Verif.Props.SpectrumInit
import Verif.Props.Stack
import Verif.Props.StackFl
import Verif.Props.StartAmp
import Verif.Props.Subsample
import Verif.Props.TailRun
import Verif.Props.TwoCatalogs
import Verif.Props.Units
import Verif.Props.UnitsReal
import Verif.Props.VarCov
import Verif.Props.VarErrors
import Verif.Props.VarFit
import Verif.Props.VarLife
import Verif.Props.VarLss
import Verif.Props.VarLssErrFl
import Verif.Props.VarLssFl
import Verif.Props.VarSmooth
import Verif.Props.VarTable
import Verif.Props.WholeRun
import Verif.Props.WrittenRun
import Verif.Spec.AllRun
import Verif.Spec.ArmOrder
import Verif.Spec.ArmOrderRead
import Verif.Spec.Attributes
import Verif.Spec.Balance
import Verif.Spec.Calib
import Verif.Spec.CalibEnds
import Verif.Spec.CalibWhole
import Verif.Spec.Calibration
import Verif.Spec.Catalog
import Verif.Spec.CatalogRun
import Verif.Spec.ChiDeltas
import Verif.Spec.Coadd
import Verif.Spec.CoaddDeltas
import Verif.Spec.CoaddFit
import Verif.Spec.CoaddFl
import Verif.Spec.CoaddLoop
import Verif.Spec.CoaddTail
import Verif.Spec.CoaddWhen
import Verif.Spec.CommandLine
import Verif.Spec.Cuts
import Verif.Spec.Delta
import Verif.Spec.DeltaHeader
import Verif.Spec.DeltaIo
import Verif.Spec.ExposureRun
import Verif.Spec.Exposures
import Verif.Spec.Failed
import Verif.Spec.FitParams
import Verif.Spec.FitRun
import Verif.Spec.FitWeights
import Verif.Spec.Fitter
import Verif.Spec.FixedRun
import Verif.Spec.Grouping
import Verif.Spec.Increment
import Verif.Spec.Io
import Verif.Spec.Legendre
import Verif.Spec.Line
import Verif.Spec.Locality
import Verif.Spec.Masks
import Verif.Spec.NatSpline
import Verif.Spec.Outlier
import Verif.Spec.Pipeline
import Verif.Spec.QuasarFit
import Verif.Spec.ReadImage
import Verif.Spec.RowOrder
import Verif.Spec.RunEnds
import Verif.Spec.SameJob
import Verif.Spec.Select
import Verif.Spec.Shared
import Verif.Spec.Spectrum
import Verif.Spec.Stack
import Verif.Spec.StackFl
import Verif.Spec.TailRun
import Verif.Spec.Units
import Verif.Spec.VarLife
import Verif.Spec.VarLss
import Verif.Spec.VarLssFl
import Verif.Spec.VarSmooth
import Verif.Spec.WholeRun
import Verif.Spec.WrittenRun
