import Verif.Dec
import Verif.Arith
import Verif.Tables.Detail
import Verif.Tables.Gerg
import Verif.Composition
import Verif.Detail
import Verif.Gerg
import Verif.F64
import Verif.Lemmas.Basic
import Verif.Lemmas.DetailPure
import Verif.Lemmas.DetailFrame
import Verif.Spec.DetailApi
import Verif.RealArith
import Verif.Spec.Composition
import Verif.Spec.DetailHistory
import Verif.Spec.DensityCost
import Verif.Lemmas.DetailView
import Verif.Lemmas.DetailHist
import Verif.Lemmas.DetailEval
import Verif.Lemmas.DetailAbsent
import Verif.Props.Composition
import Verif.Props.Detail
import Verif.Lemmas.RealSum
import Verif.Lemmas.DetailReal
import Verif.Lemmas.DetailRealEval
import Verif.Lemmas.IdealReal
import Verif.Lemmas.DetailIdeal
import Verif.Lemmas.DetailTemp
import Verif.Props.DetailReal
import Verif.Lemmas.DetailParams
import Verif.Spec.Aga8Eos
import Verif.Lemmas.DetailEos
import Verif.Lemmas.DetailMethane
import Verif.Props.DetailThermo
import Verif.Lemmas.DetailDrift
import Verif.Props.DetailEos
import Verif.Spec.MolarMass
import Verif.Props.MolarMass
import Verif.Props.SetComposition
import Verif.Lemmas.GergPure
import Verif.Lemmas.GergNew
import Verif.Spec.GergApi
import Verif.Lemmas.GergFrame
import Verif.Lemmas.GergView
import Verif.Lemmas.GergHist
import Verif.Lemmas.GergEval
import Verif.Lemmas.GergExample
import Verif.Props.Gerg
import Verif.Lemmas.GergReal
import Verif.Lemmas.GergDens
import Verif.Lemmas.GergSetup
import Verif.Lemmas.GergRed
import Verif.Props.GergReal
import Verif.Lemmas.GergIdeal
import Verif.Lemmas.GergTemp
import Verif.Lemmas.GergMethane
import Verif.Props.GergDensity
import Verif.Props.GergThermo
import Verif.Spec.GergBinary
import Verif.Spec.GergTables
import Verif.Spec.GergEos
import Verif.Lemmas.GergEos
import Verif.Lemmas.GergTablesReal
import Verif.Props.GergEos
import Verif.Lemmas.GergDrift
import Verif.Lemmas.GergDriftX
import Verif.Props.GergDrift
import Verif.Spec.F64
import Verif.Lemmas.F64Nan
import Verif.Lemmas.F64Round
import Verif.Lemmas.F64Sum
import Verif.Props.F64
import Verif.Lemmas.F64Zero
import Verif.Spec.DetailNan
import Verif.Lemmas.DetailNan
import Verif.Props.DetailNan
import Verif.Props.DetailNanWitness
import Verif.Props.F64History
import Verif.Spec.F64Libm
import Verif.Lemmas.F64Fin
import Verif.Props.F64Density
import Verif.Props.Converge
import Verif.Ffi
import Verif.Spec.Ffi
import Verif.Lemmas.Ffi
import Verif.Props.Ffi
import Verif.Props.Clamp
import Verif.Spec.Aga8Tables
import Verif.Lemmas.DetailHelmholtz
import Verif.Props.DetailHelmholtz
import Verif.Lemmas.DetailNanExact
import Verif.Lemmas.HeatCapacity
import Verif.Lemmas.DetailHeat
import Verif.Lemmas.GergHeat
import Verif.Props.HeatCapacity
import Verif.Lemmas.Process
import Verif.Lemmas.DetailProcess
import Verif.Lemmas.GergProcess
import Verif.Props.Process
import Verif.Spec.SeriesLibm
import Verif.Spec.GergNan
import Verif.Lemmas.GergNan
import Verif.Lemmas.DetailLazy
import Verif.Lemmas.FastRound
import Verif.Lemmas.FastF64
import Verif.Lemmas.FastOps
import Verif.Props.GergNan
import Verif.Spec.Leak
import Verif.Lemmas.DetailLeak
import Verif.Lemmas.GergLeak
import Verif.Props.Leak
import Verif.Lemmas.Accuracy
import Verif.Props.Accuracy
import Verif.Props.Proportions
import Verif.Lemmas.IdealAgree
import Verif.Props.IdealAgree
import Verif.Lemmas.DetailCont
import Verif.Lemmas.GergCont
import Verif.Props.Continuity
import Verif.Lemmas.Virial
import Verif.Props.Virial
import Verif.Spec.F64Accuracy
import Verif.Spec.DetailError
import Verif.Lemmas.F64Sqrt
import Verif.Lemmas.F64Ap
import Verif.Lemmas.F64ApFun
import Verif.Lemmas.F64ApLit
import Verif.Lemmas.F64ApLib
import Verif.Lemmas.DetailErrTab
import Verif.Lemmas.DetailErrSetup
import Verif.Lemmas.DetailErrX
import Verif.Lemmas.DetailErrAr
import Verif.Lemmas.DetailErrFresh
import Verif.Lemmas.DetailErrMethane
import Verif.Props.DetailError
import Verif.Props.F64MolarMass
import Verif.Lemmas.F64ApLn
import Verif.Lemmas.GergErrTab
import Verif.Lemmas.GergErrRed
import Verif.Lemmas.GergErrTerm
import Verif.Lemmas.GergErrSum
import Verif.Spec.GergError
import Verif.Lemmas.GergErrEos
import Verif.Lemmas.GergErrFresh
import Verif.Lemmas.GergErrPure
import Verif.Props.GergError
import Verif.Lemmas.F64Newton
import Verif.Lemmas.AccuracyPert
import Verif.Lemmas.GergErrDens
import Verif.Lemmas.GergErrConv
import Verif.Lemmas.GergErrStart
import Verif.Lemmas.GergErrSmall
import Verif.Lemmas.GergErrLow
import Verif.Props.GergDensityError
import Verif.Lemmas.DetailErrDom
import Verif.Lemmas.DetailErrDp
import Verif.Lemmas.DetailErrDens
import Verif.Lemmas.DetailErrConv
import Verif.Lemmas.DetailErrStart
import Verif.Lemmas.DetailErrLow
import Verif.Props.DetailDensityError
import Verif.Spec.DetailEnergyError
import Verif.Lemmas.F64ApHyp
import Verif.Lemmas.DetailErrIdeal
import Verif.Lemmas.DetailErrIdealSum
import Verif.Lemmas.DetailErrAr2
import Verif.Lemmas.DetailErrTemp
import Verif.Lemmas.DetailErrEnergy
import Verif.Lemmas.DetailErrMethane2
import Verif.Props.DetailEnergyError
import Verif.Lemmas.GergErrIdeal
import Verif.Lemmas.GergErrIdealSum
import Verif.Lemmas.GergErrEnergy
import Verif.Lemmas.GergErrPure2
import Verif.Spec.GergEnergyError
import Verif.Props.GergEnergyError
import Verif.Lemmas.F64Rel
import Verif.Lemmas.F64Cond
import Verif.Lemmas.F64CondOf
import Verif.Spec.CondError
import Verif.Lemmas.DetailErrCond
import Verif.Lemmas.GergErrCond
import Verif.Lemmas.DetailErrCondLow
import Verif.Lemmas.GergErrCondLow
import Verif.Props.CondError
import Verif.Props.MethanePipeline
import Verif.Props.GergPipeline
import Verif.Props.Workflow
import Verif.Spec.GergMixture
import Verif.Lemmas.GergMixSum
import Verif.Lemmas.MixPack
import Verif.Lemmas.GergMixRow
import Verif.Lemmas.GergMixGroup
import Verif.Lemmas.GergMixBox
import Verif.Lemmas.GergMixTable
import Verif.Lemmas.GergMixTab
import Verif.Lemmas.GergMixChk
import Verif.Lemmas.GergMixCond
import Verif.Lemmas.GergMixRegion
import Verif.Props.MixProperties
import Verif.Lemmas.GergMixDens
import Verif.Props.MixDensity
import Verif.Spec.DetailCurvature
import Verif.Spec.GergCurvature
import Verif.Lemmas.DetailErrCurv
import Verif.Lemmas.GergErrCurv
import Verif.Lemmas.GergErrPure3
import Verif.Props.CurvatureError
import Verif.Lemmas.GergPanic
import Verif.Spec.NormalGas
import Verif.Lemmas.NgBox
import Verif.Lemmas.NgTab
import Verif.Lemmas.NgPair
import Verif.Lemmas.NgMix
import Verif.Lemmas.NgSum
import Verif.Lemmas.NgCurve
import Verif.Props.NaturalGas
import Verif.Lemmas.NgTab2
import Verif.Lemmas.NgIdeal
import Verif.Lemmas.NgHeat
import Verif.Lemmas.NgCond
import Verif.Props.NaturalGasHeat
import Verif.Spec.Metering
import Verif.Spec.GergMetering
import Verif.Lemmas.Metering
import Verif.Props.Metering
import Verif.Props.GergMetering
import Verif.Spec.FfiMetering
import Verif.Props.FfiMetering
import Verif.Lemmas.NgOrder
import Verif.Props.MeterOrder
import Verif.Lemmas.GergMixOrder
import Verif.Lemmas.GergMixUpper
import Verif.Props.GergMeterOrder
import Verif.Lemmas.RoundTrip
import Verif.Props.RoundTrip
import Verif.Props.PhysicalRange
import Verif.Spec.RawMetering
import Verif.Spec.GergRawMetering
import Verif.Props.RawMetering
import Verif.Props.GergRawMetering
import Verif.Spec.HeatOrder
import Verif.Lemmas.F64Order
import Verif.Props.HeatOrder
import Verif.Spec.FailedAnalyzer
import Verif.Props.FailedAnalyzer
import Verif.Spec.Estimate
import Verif.Props.Estimate
import Verif.Props.GergEstimate
import Verif.Lemmas.GergMixRange
import Verif.Props.GergRange
import Verif.Lemmas.GergMixHeat
import Verif.Props.GergHeating
import Verif.Props.NaturalGasHeating
import Verif.Props.GibbsCompression
import Verif.Props.ModelsAgree
import Verif.Props.SameComposition
