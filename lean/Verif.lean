import Verif.Props.General
import Verif.Props.RT1
import Verif.Props.Fn
import Verif.Props.Phase
import Verif.Props.Defdict
import Verif.Props.Grouping
import Verif.Props.Assign
import Verif.Props.Cache
import Verif.Props.RT1Cache
import Verif.Props.Metrics
import Verif.Props.MetricKeys
import Verif.Props.Ids
import Verif.Props.Config
import Verif.Props.ConfigOverride
import Verif.Props.ConfigValues
import Verif.Props.Pipeline
import Verif.Props.PipelineLive
import Verif.Props.ResultKeys
import Verif.Props.Process
import Verif.Props.InitKwargs
import Verif.Props.Export
import Verif.Props.Worker
import Verif.Props.Log
import Verif.Props.MultiFits
import Verif.Props.Database
import Verif.Props.StartVals
import Verif.Props.Variability
import Verif.Props.FitEval
import Verif.Props.Interp
import Verif.Props.FitStore
import Verif.Props.MetricData
import Verif.Props.RunProc
import Verif.Props.FinalOut
import Verif.Props.Accessor
import Verif.Props.PipelineFair
import Verif.Props.Lazy
import Verif.Props.DumpState
import Verif.Props.SetFn
import Verif.Props.Modules
import Verif.Props.Results
import Verif.Props.PerformFit
import Verif.Props.Arrays
import Verif.Props.PoolRun
import Verif.Props.CreateIndex
import Verif.Props.Counters
import Verif.Props.CalcJac
import Verif.Props.HemReflect
import Verif.Props.SetID
import Verif.Props.HdfDict
import Verif.Props.PhaseCache
import Verif.Props.ExportTables
import Verif.Props.ModelDef
import Verif.Props.UseResults
import Verif.Props.MetricReport
import Verif.Props.FitObject
import Verif.Props.Plots
import Verif.Props.LogMessages
import Verif.Props.MultiDump
import Verif.Props.ResultDb
import Verif.Props.Intermediate
import Verif.Props.ResultPlots
import Verif.Props.InterpIndex
import Verif.Props.RT1Deriv
import Verif.Props.RT1Init
import Verif.Props.PolarPlot
import Verif.Props.SigSlider
