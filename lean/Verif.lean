import Verif.Py
import Verif.Model.Types
import Verif.Model.Container
import Verif.Model.Search
import Verif.Spec.Search
import Verif.Lemmas.Container
import Verif.Lemmas.SearchBasic
import Verif.Lemmas.SearchStore
import Verif.Lemmas.SearchMain
import Verif.Lemmas.SearchSolve
import Verif.Lemmas.SearchInv
import Verif.Props.Container
import Verif.Props.SearchLocal
import Verif.Props.SearchRun
import Verif.Props.SearchKeys
import Verif.Props.SearchKeysRun
import Verif.Model.BaseSearch
import Verif.Model.Solution
import Verif.Props.BaseSearch
import Verif.Props.Solution
import Verif.Model.Graph
import Verif.Lemmas.GraphNodes
import Verif.Props.Graph
import Verif.Spec.Graph
import Verif.Lemmas.GraphTree
import Verif.Props.GraphTree
import Verif.Props.GraphProfile
import Verif.Props.GraphSearch
import Verif.Model.Network
import Verif.Props.Network
import Verif.Model.Clustering
import Verif.Props.Clustering
import Verif.Model.NodeData
import Verif.Props.NodeData
import Verif.Model.Multipliers
import Verif.Props.Multipliers
import Verif.Model.MatFile
import Verif.Props.MatFile
import Verif.Model.Profiles
import Verif.Props.Profiles
import Verif.Model.Settings
import Verif.Props.Settings
import Verif.Model.Attest
import Verif.Props.Attest
import Verif.Props.AttestOptions
import Verif.Model.Screening
import Verif.Props.Screening
import Verif.Model.ScreeningLP
import Verif.Props.ScreeningLP
import Verif.Model.Verification
import Verif.Props.Verification
import Verif.Model.Energy
import Verif.Props.Energy
import Verif.Model.Renewables
import Verif.Props.Renewables
import Verif.Model.MonteCarlo
import Verif.Props.MonteCarlo
import Verif.Model.Devices
import Verif.Props.Devices
import Verif.Model.CostCurve
import Verif.Props.CostCurve
import Verif.Model.Dispatch
import Verif.Props.Dispatch
import Verif.Props.SettingsMore
import Verif.Model.Commitment
import Verif.Props.Commitment
import Verif.Model.Coupled
import Verif.Props.Coupled
import Verif.Props.UserData
import Verif.Model.Topology
import Verif.Model.Reduce
import Verif.Props.Reduction
import Verif.Props.Reduce
import Verif.Props.ReduceMore
import Verif.Props.ReduceGens
import Verif.Props.ReduceBranches
import Verif.Props.Islands
import Verif.Model.Hydrology
import Verif.Props.Hydrology
import Verif.Props.HydroNet
import Verif.Props.HydroFlow
import Verif.Props.HydroMore
import Verif.Model.HydroLink
import Verif.Props.HydroLink
import Verif.Props.HydroPump
import Verif.Model.Glpk
import Verif.Lemmas.Glpk
import Verif.Lemmas.LinProg
import Verif.Props.GlpkEnergy
import Verif.Props.GlpkNetwork
import Verif.Props.GlpkRuns
import Verif.Props.GlpkPlans
import Verif.Props.GlpkMore
import Verif.Props.GlpkCases
import Verif.Props.GlpkExamples
import Verif.Props.GlpkCoupled
import Verif.Props.GlpkWater
import Verif.Props.GlpkNames
import Verif.Props.GlpkCoupledRuns
import Verif.Props.GlpkCoupledMore
import Verif.Model.MatJson
import Verif.Model.MatWrite
import Verif.Props.MatJson
import Verif.Props.MatJsonFile
import Verif.Props.MatJsonMore
import Verif.Props.MatWrite
import Verif.Model.Report
import Verif.Props.Report
import Verif.Props.GlpkData
import Verif.Model.PlanData
import Verif.Props.PlanData
import Verif.Props.PlanSeries
import Verif.Props.PlanFactors
import Verif.Props.PlanResults
import Verif.Props.PlanOutput
import Verif.Model.Elements
import Verif.Props.Elements
import Verif.Model.GlpkResults
import Verif.Props.GlpkResults
import Verif.Model.Tables
import Verif.Lemmas.Tables
import Verif.Props.Tables
import Verif.Model.Psse
import Verif.Props.Psse
import Verif.Model.Pypsa
import Verif.Props.Pypsa
import Verif.Model.Workbook
import Verif.Model.WorkbookTime
import Verif.Props.Workbook
import Verif.Props.WorkbookTree
import Verif.Props.WorkbookProfiles
import Verif.Props.WorkbookCorrelate
import Verif.Props.MatJsonDemand
import Verif.Model.WorkbookMore
import Verif.Props.WorkbookOptions
import Verif.Props.WorkbookBlocks
import Verif.Props.WorkbookOutputs
import Verif.Props.WorkbookBook
import Verif.Model.SavedResults
import Verif.Props.SavedResults
import Verif.Props.SavedPrint
import Verif.Props.SavedExamples
import Verif.Model.SavedPyomo
import Verif.Props.SavedPyomo
import Verif.Model.EngineData
import Verif.Model.EngineCost
import Verif.Model.EngineNet
import Verif.Lemmas.Engine
import Verif.Props.EngineData
import Verif.Props.EngineCost
import Verif.Props.EngineNet
import Verif.Props.EngineOpf
import Verif.Props.EngineRun
import Verif.Props.EngineModel
import Verif.Props.EngineExamples
import Verif.Model.EngineState
import Verif.Props.EngineState
import Verif.Props.EngineEval
import Verif.Props.EngineUpdate
import Verif.Props.EngineLimits
import Verif.Props.EngineOther
import Verif.Props.EngineOutputs
import Verif.Props.EngineReturn
import Verif.Props.Cli
import Verif.Props.TimeSeries
import Verif.Props.Controls
import Verif.Props.Services
import Verif.Props.Controllers
import Verif.Props.EngineTree
import Verif.Props.FailureTimes
import Verif.Props.RunReport
import Verif.Model.NetPrint
import Verif.Props.NetPrint
import Verif.Model.HydroPrint
import Verif.Props.HydroPrint
import Verif.Model.ProfileDict
import Verif.Props.ProfileDict
import Verif.Model.FlexUnits
import Verif.Props.FlexUnits
import Verif.Model.CaseRead
import Verif.Props.CaseRead
import Verif.Props.SearchStar
import Verif.Model.ScreeningGraph
import Verif.Props.ScreeningGraph
import Verif.Model.RunSettings
import Verif.Props.RunSettings
import Verif.Model.SaveJson
import Verif.Props.SaveJson
import Verif.Props.EnergyMore
import Verif.Props.ReduceWhen
import Verif.Props.LookAhead
import Verif.Model.EngineQuery
import Verif.Props.EngineQuery
import Verif.Model.EngineLoad
import Verif.Props.EngineLoad
