import Verif.Exec.FloatNum
import Verif.Exec.Main
import Verif.Model.Bubbles
import Verif.Model.CostaSingle
import Verif.Model.Cover
import Verif.Model.CrustTemp
import Verif.Model.Crystal
import Verif.Model.Csv
import Verif.Model.CsvText
import Verif.Model.EditJson
import Verif.Model.EditText
import Verif.Model.EffArray
import Verif.Model.Factory
import Verif.Model.FieldPlot
import Verif.Model.Flux
import Verif.Model.Gui
import Verif.Model.Integrator
import Verif.Model.Interp
import Verif.Model.Json
import Verif.Model.JsonText
import Verif.Model.Lava
import Verif.Model.Logger
import Verif.Model.MainScript
import Verif.Model.MainText
import Verif.Model.Melt
import Verif.Model.Num
import Verif.Model.NumpyNum
import Verif.Model.OpenFault
import Verif.Model.Plot
import Verif.Model.PlotText
import Verif.Model.Process
import Verif.Model.RealNum
import Verif.Model.RelVisc
import Verif.Model.RoundNum
import Verif.Model.Run
import Verif.Model.RunOutText
import Verif.Model.RunOuts
import Verif.Model.RunOutsDisk
import Verif.Model.RunText
import Verif.Model.Scripts
import Verif.Model.State
import Verif.Model.SweepFull
import Verif.Model.SweepFullText
import Verif.Model.SweepText
import Verif.Model.TableText
import Verif.Model.Terrain
import Verif.Model.TextFile
import Verif.Model.Threads
import Verif.Model.Vents
import Verif.Model.Vesicle
import Verif.Model.World
import Verif.Model.Yield
import Verif.Proofs.Alike
import Verif.Proofs.Base
import Verif.Proofs.CellLemmas
import Verif.Proofs.Compare
import Verif.Proofs.Compatible
import Verif.Proofs.ConfigLemmas
import Verif.Proofs.CsvLemmas
import Verif.Proofs.CutLemmas
import Verif.Proofs.CutLoop
import Verif.Proofs.Diagnosis
import Verif.Proofs.EditText
import Verif.Proofs.EulerError
import Verif.Proofs.ExampleConfig
import Verif.Proofs.ExampleFullRun
import Verif.Proofs.ExampleRun
import Verif.Proofs.Examples
import Verif.Proofs.FactoryLemmas
import Verif.Proofs.FineProfile
import Verif.Proofs.FineRun
import Verif.Proofs.FluxColumns
import Verif.Proofs.FluxLemmas
import Verif.Proofs.FluxValue
import Verif.Proofs.Footprint
import Verif.Proofs.Frame
import Verif.Proofs.FullRunLemmas
import Verif.Proofs.Harsher
import Verif.Proofs.Interleave
import Verif.Proofs.InterpLemmas
import Verif.Proofs.JsonDump
import Verif.Proofs.JsonGrammar
import Verif.Proofs.JsonLaid
import Verif.Proofs.JsonNesting
import Verif.Proofs.JsonNumber
import Verif.Proofs.JsonParse
import Verif.Proofs.JsonScan
import Verif.Proofs.LawsUpTo
import Verif.Proofs.LogLemmas
import Verif.Proofs.LogShape
import Verif.Proofs.LongRun
import Verif.Proofs.Mirror
import Verif.Proofs.NoRuntime
import Verif.Proofs.NumpyMap
import Verif.Proofs.NumpySame
import Verif.Proofs.OpenFault
import Verif.Proofs.Plausible
import Verif.Proofs.Process
import Verif.Proofs.Restart
import Verif.Proofs.Resume
import Verif.Proofs.RoundClose
import Verif.Proofs.RoundExact
import Verif.Proofs.RoundExactRun
import Verif.Proofs.RoundFlow
import Verif.Proofs.RoundFormat
import Verif.Proofs.RoundLemmas
import Verif.Proofs.RoundRun
import Verif.Proofs.RoundStops
import Verif.Proofs.RoundVelocity
import Verif.Proofs.RunOutOrder
import Verif.Proofs.RunTable
import Verif.Proofs.SameLaws
import Verif.Proofs.Saving
import Verif.Proofs.SavingSchedule
import Verif.Proofs.Schedule
import Verif.Proofs.Shift
import Verif.Proofs.StepForward
import Verif.Proofs.StepInv
import Verif.Proofs.StepReal
import Verif.Proofs.StrainFree
import Verif.Proofs.StrainKept
import Verif.Proofs.Stronger
import Verif.Proofs.Swap
import Verif.Proofs.SweepFootprint
import Verif.Proofs.TextLemmas
import Verif.Proofs.Thinner
import Verif.Proofs.Threads
import Verif.Proofs.Total
import Verif.Proofs.TotalRun
import Verif.Proofs.TotalSearch
import Verif.Proofs.TotalStep
import Verif.Proofs.Traced
import Verif.Proofs.Transfer
import Verif.Proofs.TransferConfig
import Verif.Proofs.TransferRun
import Verif.Proofs.Velocity
import Verif.Proofs.Wider
import Verif.Proofs.WindlessRun
import Verif.Props.Ahead
import Verif.Props.AheadExample
import Verif.Props.Bimodal
import Verif.Props.Bubbles
import Verif.Props.Budget
import Verif.Props.CaseStudies
import Verif.Props.CaseStudiesExample
import Verif.Props.CaseStudiesMore
import Verif.Props.Columns
import Verif.Props.Compare
import Verif.Props.CompareExample
import Verif.Props.Compat
import Verif.Props.Converge
import Verif.Props.ConvergeExample
import Verif.Props.ConvergeTwo
import Verif.Props.ConvergeTwoExample
import Verif.Props.Costa
import Verif.Props.CsvText
import Verif.Props.CutJson
import Verif.Props.CutResult
import Verif.Props.CutRun
import Verif.Props.CutSafe
import Verif.Props.Cutoff
import Verif.Props.CutoffConfig
import Verif.Props.CutoffText
import Verif.Props.Denser
import Verif.Props.DepthSearch
import Verif.Props.Diagnosis
import Verif.Props.DiagnosisExample
import Verif.Props.Duplicates
import Verif.Props.EditText
import Verif.Props.Editor
import Verif.Props.EditorExamples
import Verif.Props.EditorFields
import Verif.Props.EditorMore
import Verif.Props.Escapes
import Verif.Props.Euler
import Verif.Props.Factory
import Verif.Props.FieldPlot
import Verif.Props.FieldPlotExample
import Verif.Props.FieldPlotMore
import Verif.Props.Fresher
import Verif.Props.FresherConfig
import Verif.Props.FresherExample
import Verif.Props.FullRun
import Verif.Props.Gui
import Verif.Props.GuiExample
import Verif.Props.Harsher
import Verif.Props.HarsherConfig
import Verif.Props.HarsherExample
import Verif.Props.HarsherFluxes
import Verif.Props.HarsherSensible
import Verif.Props.Heat
import Verif.Props.Integrator
import Verif.Props.Interference
import Verif.Props.Interrupt
import Verif.Props.JsonLayout
import Verif.Props.JsonText
import Verif.Props.KinderVent
import Verif.Props.KinderVentExample
import Verif.Props.LastRow
import Verif.Props.Lifetime
import Verif.Props.LifetimeExample
import Verif.Props.LifetimeMass
import Verif.Props.LifetimeMassExample
import Verif.Props.Logger
import Verif.Props.MainScript
import Verif.Props.MainText
import Verif.Props.MassSwitch
import Verif.Props.Melt
import Verif.Props.Melts
import Verif.Props.ModelOrder
import Verif.Props.Numpy
import Verif.Props.NumpyZero
import Verif.Props.OneRegime
import Verif.Props.OneRegimeExample
import Verif.Props.OpenFault
import Verif.Props.OpenFaultExample
import Verif.Props.Origin
import Verif.Props.OriginExample
import Verif.Props.Plausible
import Verif.Props.PlausibleExample
import Verif.Props.Plot
import Verif.Props.PlotErrors
import Verif.Props.PlotExamples
import Verif.Props.PlotText
import Verif.Props.PlotTextExample
import Verif.Props.PlotTextMore
import Verif.Props.Profile
import Verif.Props.Radiance
import Verif.Props.RelVisc
import Verif.Props.Relevant
import Verif.Props.RelevantText
import Verif.Props.Renamed
import Verif.Props.RenamedExample
import Verif.Props.Reordered
import Verif.Props.ReorderedExample
import Verif.Props.Resume
import Verif.Props.ResumeConfig
import Verif.Props.ResumeExample
import Verif.Props.Rounded
import Verif.Props.RoundedConverge
import Verif.Props.RoundedConvergeExample
import Verif.Props.RoundedExample
import Verif.Props.RoundedLaws
import Verif.Props.RoundedRun
import Verif.Props.RoundedRunExample
import Verif.Props.RoundedVelocity
import Verif.Props.RoundedVelocityExample
import Verif.Props.RunConfig
import Verif.Props.RunLog
import Verif.Props.RunOutExamples
import Verif.Props.RunOutLine
import Verif.Props.RunOutText
import Verif.Props.RunOuts
import Verif.Props.RunOutsDisk
import Verif.Props.RunOutsDiskExample
import Verif.Props.RunRows
import Verif.Props.RunText
import Verif.Props.RunTextMore
import Verif.Props.Saving
import Verif.Props.SavingExample
import Verif.Props.ScheduleExamples
import Verif.Props.Schedules
import Verif.Props.Scripts
import Verif.Props.ScriptsExample
import Verif.Props.SecondRegime
import Verif.Props.SecondRegimeExample
import Verif.Props.Sensible
import Verif.Props.SensibleConfig
import Verif.Props.SensibleExample
import Verif.Props.SlopeText
import Verif.Props.SlopeTextErrors
import Verif.Props.Stable
import Verif.Props.StableExample
import Verif.Props.Steeper
import Verif.Props.StepCases
import Verif.Props.Stronger
import Verif.Props.StrongerConfig
import Verif.Props.StrongerExample
import Verif.Props.StrongerFluxes
import Verif.Props.StrongerSensible
import Verif.Props.StrongerStep
import Verif.Props.StrongerSupply
import Verif.Props.StrongerTemplate
import Verif.Props.StuckVent
import Verif.Props.Supply
import Verif.Props.SupplyConfig
import Verif.Props.SupplyExample
import Verif.Props.Sweep
import Verif.Props.SweepExample
import Verif.Props.SweepFull
import Verif.Props.SweepFullExample
import Verif.Props.SweepFullText
import Verif.Props.SweepFullTextExample
import Verif.Props.SweepOrder
import Verif.Props.SweepOrderExample
import Verif.Props.SweepOrderText
import Verif.Props.SweepOrderTextExample
import Verif.Props.SweepRange
import Verif.Props.SweepRangeExample
import Verif.Props.SweepText
import Verif.Props.SweepTextExample
import Verif.Props.Tables
import Verif.Props.Terrain
import Verif.Props.Thinner
import Verif.Props.ThinnerExample
import Verif.Props.ThinnerPacking
import Verif.Props.ThinnerWhich
import Verif.Props.Threads
import Verif.Props.ThreadsLog
import Verif.Props.ThreadsSame
import Verif.Props.Velocity
import Verif.Props.Vents
import Verif.Props.Wider
import Verif.Props.WiderExample
import Verif.Props.Wiring
import Verif.Props.Yield
import Verif.Spec.Ahead
import Verif.Spec.CaseStudies
import Verif.Spec.ColumnSpec
import Verif.Spec.Compare
import Verif.Spec.Compatible
import Verif.Spec.ConfigSpec
import Verif.Spec.Converge
import Verif.Spec.CutSpec
import Verif.Spec.DepthSpec
import Verif.Spec.Diagnosis
import Verif.Spec.EditSpec
import Verif.Spec.EditText
import Verif.Spec.Escape
import Verif.Spec.EulerSpec
import Verif.Spec.Everyday
import Verif.Spec.FactorySpec
import Verif.Spec.FieldPlot
import Verif.Spec.Fresher
import Verif.Spec.Harsher
import Verif.Spec.HeatSpec
import Verif.Spec.JsonLayout
import Verif.Spec.JsonText
import Verif.Spec.KinderVent
import Verif.Spec.Laws
import Verif.Spec.LogSpec
import Verif.Spec.MaderLaw
import Verif.Spec.MainSpec
import Verif.Spec.MainText
import Verif.Spec.OpenFault
import Verif.Spec.Origin
import Verif.Spec.Physics
import Verif.Spec.Plausible
import Verif.Spec.PlotErrorSpec
import Verif.Spec.PlotSpec
import Verif.Spec.PlotText
import Verif.Spec.ProfileSpec
import Verif.Spec.Relevant
import Verif.Spec.Renamed
import Verif.Spec.Reordered
import Verif.Spec.Resume
import Verif.Spec.Rheology
import Verif.Spec.RoundFormat
import Verif.Spec.RoundRun
import Verif.Spec.RoundSpec
import Verif.Spec.RoundVelocity
import Verif.Spec.RunConfigSpec
import Verif.Spec.RunOutSpec
import Verif.Spec.RunOutsDisk
import Verif.Spec.RunSpec
import Verif.Spec.RunText
import Verif.Spec.SameNumbers
import Verif.Spec.Saving
import Verif.Spec.Schedule
import Verif.Spec.SecondRegime
import Verif.Spec.Sensible
import Verif.Spec.Stable
import Verif.Spec.Stronger
import Verif.Spec.Surroundings
import Verif.Spec.SweepFullText
import Verif.Spec.SweepOrder
import Verif.Spec.SweepSpec
import Verif.Spec.SweepText
import Verif.Spec.Switched
import Verif.Spec.Template
import Verif.Spec.TerrainSpec
import Verif.Spec.TextSpec
import Verif.Spec.Thinner
import Verif.Spec.Threads
import Verif.Spec.Wider
import Verif.Spec.ZeroRate
