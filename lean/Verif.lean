import Verif.Num.XR
import Verif.Num.Np
import Verif.Model.Grid
import Verif.Lemmas.Trapz
import Verif.Props.RadialGrid
import Verif.Props.CubicGrid
import Verif.Props.FromMolecule
import Verif.Model.Gauss
import Verif.Spec.Gauss
import Verif.Lemmas.Gauss
import Verif.Props.Gauss
import Verif.Props.GaussIntegral
import Verif.Lemmas.Molecular
import Verif.Props.Molecular
import Verif.Model.Measure
import Verif.Spec.Measure
import Verif.Lemmas.Measure
import Verif.Lemmas.Weights
import Verif.Props.Measure
import Verif.Props.Gibbs
import Verif.Model.Fit
import Verif.Spec.Fit
import Verif.Lemmas.GModel
import Verif.Lemmas.Fit
import Verif.Lemmas.FPI
import Verif.Lemmas.EM
import Verif.Props.Fit
import Verif.Props.FPI
import Verif.Lemmas.DensDeriv
import Verif.Props.FPIStationary
import Verif.Props.FPIRun
import Verif.Props.FPIHistory
import Verif.Lemmas.Scipy
import Verif.Props.ScipyFit
import Verif.Model.Greedy
import Verif.Spec.Greedy
import Verif.Lemmas.Greedy
import Verif.Props.GreedyChoices
import Verif.Props.GreedyRedund
import Verif.Props.GreedyRun
import Verif.Props.GreedyExit
import Verif.Props.GreedyRepeat
import Verif.Props.GreedyStart
import Verif.Props.GreedyStartKL
import Verif.Props.Slater
import Verif.Props.SlaterHomo
import Verif.Props.SlaterIntegral
import Verif.Model.Parse
import Verif.Spec.Parse
import Verif.Lemmas.Config
import Verif.Lemmas.Table
import Verif.Props.Config
import Verif.Props.SlaterFile
import Verif.Props.Ugbs
import Verif.Lemmas.SlaterText
import Verif.Props.SlaterTable
import Verif.Props.SlaterLoad
import Verif.Props.FPIConverge
import Verif.Props.Accuracy
import Verif.Props.Norms
import Verif.Props.FPIScale
import Verif.Lemmas.Mixture
import Verif.Props.FPIOptimal
import Verif.Props.SlaterKinetic
import Verif.Model.GreedyCubic
import Verif.Props.GreedyCubic
import Verif.Props.ScipyConvex
import Verif.Props.Symmetry
import Verif.Props.FPIUnit
import Verif.Props.SlaterEnergy
import Verif.Spec.Data
import Verif.Lemmas.DataScan
import Verif.Lemmas.DataScanSound
import Verif.Lemmas.DataNum
import Verif.Lemmas.DataNumSound
import Verif.Lemmas.DataSound
import Verif.Data.Part1
import Verif.Data.Part2
import Verif.Data.Part3
import Verif.Data.Part4
import Verif.Data.Part5
import Verif.Data.Part6
import Verif.Data.Part7
import Verif.Data.Part8
import Verif.Data.Part9
import Verif.Data.Part10
import Verif.Data.Part11
import Verif.Data.Part12
import Verif.Data.Part13
import Verif.Data.Part14
import Verif.Data.All
import Verif.Props.Bundled
import Verif.Props.GreedyGuess
import Verif.Props.GreedyErr
import Verif.Props.MolFit
import Verif.Props.FPIMerge
import Verif.Props.CubicAccuracy
import Verif.Props.GreedyTotal
import Verif.Props.UgbsData
import Verif.Props.FPILimit
import Verif.Props.FPIMoment
import Verif.Model.Fits
import Verif.Spec.Fits
import Verif.Lemmas.FitsScan
import Verif.Lemmas.FitsSound
import Verif.Data.Fits1
import Verif.Data.Fits2
import Verif.Data.Fits3
import Verif.Data.Fits4
import Verif.Data.FitsAll
import Verif.Props.SlaterMoment
import Verif.Props.Fits
import Verif.Props.SlaterCusp
import Verif.Lemmas.CuspScan
import Verif.Lemmas.CuspSound
import Verif.Data.Cusp1
import Verif.Data.Cusp2
import Verif.Data.Cusp3
import Verif.Data.Cusp4
import Verif.Props.Cusp
import Verif.Props.ScipyInit
import Verif.Props.ScipyWeights
import Verif.Props.ChangeNumb
import Verif.Props.ScipyReport
import Verif.Props.MolInit
import Verif.Props.GreedyInit
import Verif.Props.SlaterCut
import Verif.Props.UgbsFault
import Verif.Props.Center
import Verif.Model.Round
import Verif.Lemmas.Round
import Verif.Lemmas.RoundQuad
import Verif.Props.Round
import Verif.Props.FitSizes
import Verif.Lemmas.RoundUnder
import Verif.Props.RoundUnder
import Verif.Props.ScipySolvable
import Verif.Props.ScipyUnique
import Verif.Props.FPICoeffLimit
import Verif.Props.FPISlsqp
import Verif.Props.GreedyCalls
import Verif.Props.ElementFit
import Verif.Props.Constructed
import Verif.Model.RoundMeas
import Verif.Props.RoundGood
import Verif.Props.RoundDescent
import Verif.Props.DensityZeros
import Verif.Model.Tables
import Verif.Props.Tables
import Verif.Props.KineticFit
import Verif.Props.ScipyTables
import Verif.Props.Atomdb
import Verif.Props.RoundSlater
import Verif.Props.RoundScipy
import Verif.Model.Notebooks
import Verif.Props.Beryllium
import Verif.Props.Notebooks
import Verif.Props.WaterNotebook
import Verif.Model.Display
import Verif.Props.Display
import Verif.Model.Memory
import Verif.Props.Memory
import Verif.Model.Readme
import Verif.Props.Readme
import Verif.Model.Npz
import Verif.Spec.Npz
import Verif.Lemmas.NpzScan
import Verif.Data.Npz1
import Verif.Data.Npz2
import Verif.Data.Npz3
import Verif.Data.Npz4
import Verif.Data.NpzAll
import Verif.Lemmas.NpzSound
import Verif.Props.Npz
import Verif.Model.PrintText
import Verif.Spec.PrintText
import Verif.Lemmas.PrintText
import Verif.Props.PrintText
import Verif.Lemmas.RoundTop
import Verif.Props.RoundSplit
import Verif.Model.ExitText
import Verif.Spec.ExitText
import Verif.Props.ExitText
import Verif.Model.Overflow
import Verif.Lemmas.Overflow
import Verif.Props.Overflow
import Verif.Props.RoundGauss
import Verif.Lemmas.FitsPeak
import Verif.Props.FitsRound
import Verif.Model.RoundDeriv
import Verif.Props.RoundDeriv
import Verif.Props.OverflowDeriv
import Verif.Props.RoundTsallis
import Verif.Model.RoundGrid
import Verif.Props.RoundGrid
import Verif.Model.RoundCubic
import Verif.Props.RoundCubic
import Verif.Model.RoundBox
import Verif.Props.RoundBox
import Verif.Model.RoundGreedy
import Verif.Props.RoundGreedy
import Verif.Model.RoundStart
import Verif.Props.RoundStart
import Verif.Model.RoundTwo
import Verif.Props.RoundTwo
