import Verif.Lemmas.Cells
import Verif.Lemmas.Chp
import Verif.Lemmas.Diffuse
import Verif.Lemmas.FlowAlpha
import Verif.Lemmas.HeunError
import Verif.Lemmas.Jensen
import Verif.Lemmas.Plug
import Verif.Lemmas.PolyPos
import Verif.Lemmas.Protocol
import Verif.Lemmas.Registry
import Verif.Lemmas.StepControl
import Verif.Lemmas.StepControlTerm
import Verif.Lemmas.TimeLoop
import Verif.Lemmas.Topology
import Verif.Lemmas.TopologyBalance
import Verif.Lemmas.TopologyExec
import Verif.Lemmas.TopologyFlow
import Verif.Lemmas.TopologyGood
import Verif.Lemmas.TopologyName
import Verif.Lemmas.TopologyNet
import Verif.Lemmas.TopologyRun
import Verif.Lemmas.TopologyVia
import Verif.Lemmas.Twin
import Verif.Lemmas.Water
import Verif.Model.Air
import Verif.Model.Assign
import Verif.Model.Attempt
import Verif.Model.BcSeries
import Verif.Model.Buffers
import Verif.Model.Buoyancy
import Verif.Model.ByName
import Verif.Model.CapLog
import Verif.Model.Cells
import Verif.Model.Chp
import Verif.Model.ChpCore
import Verif.Model.ChpPower
import Verif.Model.CondHex
import Verif.Model.Conductance
import Verif.Model.Controls
import Verif.Model.CtrlNet
import Verif.Model.Deadtime
import Verif.Model.DynBC
import Verif.Model.Fit
import Verif.Model.FlowAlpha
import Verif.Model.FlowIndex
import Verif.Model.FlowLength
import Verif.Model.FlowNet
import Verif.Model.Flows
import Verif.Model.Geometry
import Verif.Model.Heatmap
import Verif.Model.HexGeo
import Verif.Model.HexNum
import Verif.Model.Implicit
import Verif.Model.Label
import Verif.Model.Loading
import Verif.Model.Maint
import Verif.Model.MeterFlow
import Verif.Model.MeterLife
import Verif.Model.Meters
import Verif.Model.Mixing
import Verif.Model.ModelPred
import Verif.Model.ModuleCtrl
import Verif.Model.Modules
import Verif.Model.MovingAvg
import Verif.Model.NanCheck
import Verif.Model.NormErr
import Verif.Model.Outliers
import Verif.Model.Package
import Verif.Model.Perf
import Verif.Model.PidTuning
import Verif.Model.PipeSpecs
import Verif.Model.Plan
import Verif.Model.PlanRecords
import Verif.Model.PlateCount
import Verif.Model.PlateHex
import Verif.Model.PolyReg
import Verif.Model.PortCond
import Verif.Model.Ports
import Verif.Model.PredPlot
import Verif.Model.Preopt
import Verif.Model.Protocol
import Verif.Model.ReCorr
import Verif.Model.Registry
import Verif.Model.Report
import Verif.Model.Resample
import Verif.Model.Reset
import Verif.Model.RollCentered
import Verif.Model.RollOutliers
import Verif.Model.RootFind
import Verif.Model.Saving
import Verif.Model.Sensor
import Verif.Model.Stability
import Verif.Model.Stats
import Verif.Model.StepControl
import Verif.Model.StoreFiles
import Verif.Model.Tariff
import Verif.Model.TimeLoop
import Verif.Model.Timeframe
import Verif.Model.Topology
import Verif.Model.ValPlot
import Verif.Model.Valve
import Verif.Model.Water
import Verif.Props.Affine
import Verif.Props.Air
import Verif.Props.Arrival
import Verif.Props.Assign
import Verif.Props.Attempt
import Verif.Props.Band
import Verif.Props.BcSeries
import Verif.Props.Buffers
import Verif.Props.Buoyancy
import Verif.Props.ByName
import Verif.Props.CapLog
import Verif.Props.Cells
import Verif.Props.Chp
import Verif.Props.ChpCore
import Verif.Props.ChpDivide
import Verif.Props.ChpPower
import Verif.Props.ChpStarts
import Verif.Props.Compare
import Verif.Props.CondHex
import Verif.Props.Conductance
import Verif.Props.Controls
import Verif.Props.Converge
import Verif.Props.ConvergeWater
import Verif.Props.Cooling
import Verif.Props.CostShape
import Verif.Props.CtrlNet
import Verif.Props.CtrlUnits
import Verif.Props.Deadtime
import Verif.Props.Divide
import Verif.Props.DynBC
import Verif.Props.Equilibrium
import Verif.Props.Extremes
import Verif.Props.Fit
import Verif.Props.FlowAlpha
import Verif.Props.FlowIndex
import Verif.Props.FlowLength
import Verif.Props.FlowLinear
import Verif.Props.FlowNet
import Verif.Props.Flows
import Verif.Props.Forgets
import Verif.Props.Geometry
import Verif.Props.GridExact
import Verif.Props.HeaterSteady
import Verif.Props.Heatmap
import Verif.Props.Heun
import Verif.Props.HexGeo
import Verif.Props.HexLinear
import Verif.Props.HexNum
import Verif.Props.HexNumMax
import Verif.Props.HexNumStep
import Verif.Props.HexSecondLaw
import Verif.Props.HotSurface
import Verif.Props.Idle
import Verif.Props.Implicit
import Verif.Props.Insulated
import Verif.Props.InsulatedPipe
import Verif.Props.Insulation
import Verif.Props.Label
import Verif.Props.Loading
import Verif.Props.Maint
import Verif.Props.MaxPrinciple
import Verif.Props.MeterFlow
import Verif.Props.MeterHeat
import Verif.Props.MeterLife
import Verif.Props.MeterShift
import Verif.Props.MeterSums
import Verif.Props.Meters
import Verif.Props.Mirror
import Verif.Props.MixControl
import Verif.Props.MixOrder
import Verif.Props.MixPorts
import Verif.Props.Mixing
import Verif.Props.ModelPred
import Verif.Props.ModuleCtrl
import Verif.Props.Modules
import Verif.Props.MoreCold
import Verif.Props.MovingAvg
import Verif.Props.NanCheck
import Verif.Props.NormErr
import Verif.Props.Order
import Verif.Props.Outliers
import Verif.Props.Overheat
import Verif.Props.OwnUse
import Verif.Props.Package
import Verif.Props.Perf
import Verif.Props.PidLaw
import Verif.Props.PidRest
import Verif.Props.PidTuning
import Verif.Props.PipeSpecs
import Verif.Props.Plan
import Verif.Props.PlanGrid
import Verif.Props.PlanRecords
import Verif.Props.PlanShape
import Verif.Props.PlantEnergy
import Verif.Props.PlantSecondLaw
import Verif.Props.PlateCount
import Verif.Props.PlateHex
import Verif.Props.PlateLinear
import Verif.Props.PlatePower
import Verif.Props.PlateSides
import Verif.Props.PlateSize
import Verif.Props.PolyReg
import Verif.Props.PortCond
import Verif.Props.Ports
import Verif.Props.PredPlot
import Verif.Props.Preopt
import Verif.Props.PriceEffects
import Verif.Props.Protocol
import Verif.Props.ProtocolRun
import Verif.Props.ProtocolStore
import Verif.Props.ReCorr
import Verif.Props.Registry
import Verif.Props.Report
import Verif.Props.Resample
import Verif.Props.Reset
import Verif.Props.RollCentered
import Verif.Props.RollOutliers
import Verif.Props.RollUnits
import Verif.Props.RootFind
import Verif.Props.Saving
import Verif.Props.Scale
import Verif.Props.SecondLaw
import Verif.Props.Sensor
import Verif.Props.Separate
import Verif.Props.Special
import Verif.Props.Stability
import Verif.Props.StableStep
import Verif.Props.Stats
import Verif.Props.Steady
import Verif.Props.StepControl
import Verif.Props.StepFree
import Verif.Props.StorageSize
import Verif.Props.StoreFiles
import Verif.Props.Stratified
import Verif.Props.StrongerHeater
import Verif.Props.Tariff
import Verif.Props.TimeLoop
import Verif.Props.Timeframe
import Verif.Props.Tolerance
import Verif.Props.Topology
import Verif.Props.TopologyFlow
import Verif.Props.TwoLoop
import Verif.Props.ValPlot
import Verif.Props.Valve
import Verif.Props.Water
import Verif.Props.WaterFit
import Verif.Spec.Cells
import Verif.Spec.FlowNet
import Verif.Spec.Flows
import Verif.Spec.HexNum
import Verif.Spec.HexSecondLaw
import Verif.Spec.MaxPrinciple
import Verif.Spec.Mixing
import Verif.Spec.PlanRecords
import Verif.Spec.PlateHex
import Verif.Spec.Protocol
import Verif.Spec.Registry
import Verif.Spec.SecondLaw
import Verif.Spec.Stratified
import Verif.Spec.Timeframe
import Verif.Spec.Topology
