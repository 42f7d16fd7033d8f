import Verif.Base.SMap
import Verif.Config.Model
import Verif.Config.Spec
import Verif.Config.Lemmas
import Verif.Config.Steps
import Verif.Config.Refine
import Verif.Config.Typed
import Verif.Config.Props
import Verif.Machine.Model
import Verif.Machine.Spec
import Verif.Machine.Build
import Verif.Machine.Registry
import Verif.Machine.Run
import Verif.Machine.Copies
import Verif.Machine.Props
import Verif.Glps.Lex
import Verif.Glps.Syntax
import Verif.Glps.LexSpec
import Verif.Glps.LexLemmas
import Verif.Glps.LexText
import Verif.Glps.GrammarSpec
import Verif.Glps.Grammar
import Verif.Glps.Eval
import Verif.Glps.PropsText
import Verif.Glps.Inv
import Verif.Glps.EvalSpec
import Verif.Glps.Refine
import Verif.Glps.Sim
import Verif.Glps.Fill
import Verif.Glps.Stable
import Verif.Glps.PropsEval
import Verif.Glps.PropsFill
import Verif.Glps.Print
import Verif.Glps.PrintSpec
import Verif.Glps.PrintLemmas
import Verif.Glps.PrintRun
import Verif.Glps.PrintParse
import Verif.Glps.PropsPrint
import Verif.Util.NdIndex
import Verif.Util.NdSpec
import Verif.Util.NdLemmas
import Verif.Util.Array
import Verif.Util.PropsArray
import Verif.Util.Table
import Verif.Util.TableSpec
import Verif.Util.TableLemmas
import Verif.Util.PropsTable
import Verif.Util.Cache
import Verif.Util.PropsCache
import Verif.Util.PropsStamped
import Verif.Vaccel.Worker
import Verif.Vaccel.WorkerSpec
import Verif.Vaccel.WorkerLemmas
import Verif.Vaccel.PropsWorker
import Verif.Vaccel.Setting
import Verif.Vaccel.PropsSetting
import Verif.Vaccel.Link
import Verif.Vaccel.PropsLink
import Verif.Vaccel.Measure
import Verif.Vaccel.MeasureSpec
import Verif.Vaccel.MeasureLemmas
import Verif.Vaccel.PropsMeasure
import Verif.Vaccel.PropsReadback
import Verif.Vaccel.Generate
import Verif.Vaccel.GenerateSpec
import Verif.Vaccel.PropsGenerate
import Verif.Tools.H5Spec
import Verif.Tools.PropsH5
import Verif.Tools.Cli
import Verif.Tools.PropsCli
import Verif.Tools.Writer
import Verif.Tools.WriterSpec
import Verif.Tools.PropsWriter
import Verif.Tools.Record
import Verif.Tools.Loader
import Verif.Tools.LoaderSpec
import Verif.Tools.PropsLoader
import Verif.Tools.Select
import Verif.Tools.SelectSpec
import Verif.Tools.PropsSelect
import Verif.Tools.Output
import Verif.Tools.Utest
import Verif.Tools.PropsUtest
import Verif.Python.Convert
import Verif.Python.ConvertSpec
import Verif.Python.ConvertLemmas
import Verif.Python.PropsConvert
import Verif.Python.Calls
import Verif.Python.CallsSpec
import Verif.Python.PropsCalls
import Verif.Python.PropsKinds
import Verif.Linear.Model
import Verif.Linear.Spec
import Verif.Linear.Optics
import Verif.Linear.Walk
import Verif.Linear.Props
import Verif.Moment.Model
import Verif.Moment.Spec
import Verif.Moment.Stats
import Verif.Moment.Cache
import Verif.Moment.Advance
import Verif.Moment.Build
import Verif.Moment.State
import Verif.Moment.Walk
import Verif.Moment.Undo
import Verif.Moment.Kinematics
import Verif.Moment.SpecMotion
import Verif.Moment.Misalign
import Verif.Moment.Optics
import Verif.Moment.Strength
import Verif.Moment.Flight
import Verif.Moment.Bends
import Verif.Moment.Fitted
import Verif.Moment.Orbit
import Verif.Moment.Growth
import Verif.Moment.Stripper
import Verif.Moment.SpecBaron
import Verif.Moment.Baron
import Verif.Moment.Strip
import Verif.Moment.Foil
import Verif.Arrays.Model
import Verif.Arrays.Spec
import Verif.Arrays.Props
import Verif.Arrays.Run
import Verif.Cavity.Fits
import Verif.Cavity.Model
import Verif.Cavity.Spec
import Verif.Cavity.Boost
import Verif.Cavity.Optics
import Verif.Cavity.Off
import Verif.Cavity.Transit
import Verif.Cavity.Pass
import Verif.Cavity.SpecPass
import Verif.Cavity.Gain
import Verif.Cavity.Beam
import Verif.Cavity.SpecTime
import Verif.Cavity.Time
import Verif.Cavity.SpecGrowth
import Verif.Cavity.Growth
import Verif.Cavity.Regular
import Verif.Cavity.Carry
import Verif.Cavity.Rolled
import Verif.Cavity.Undo
import Verif.Cavity.Cache
import Verif.Cavity.Radius
import Verif.Cavity.Tilted
import Verif.Cavity.Ungrown
import Verif.Cavity.SpecRay
import Verif.Cavity.Ray
import Verif.Cavity.RayPass
import Verif.Cavity.SpecDrive
import Verif.Cavity.Drive
import Verif.Cavity.SpecFit
import Verif.Cavity.FitBounds
import Verif.Cavity.Fit
import Verif.Moment.SpecBend
import Verif.Moment.Sector
import Verif.Moment.Electro
import Verif.Moment.ElectroStates
import Verif.Moment.Defocus
import Verif.Lens.Model
import Verif.Lens.Spec
import Verif.Lens.Props
import Verif.Cavity.SpecSettings
import Verif.Cavity.Settings
import Verif.Cavity.SpecAlone
import Verif.Cavity.Alone
import Verif.Cavity.SpecDivide
import Verif.Cavity.Divide
import Verif.Cavity.DivideOrder
import Verif.Cavity.SpecArrive
import Verif.Cavity.Arrive
import Verif.Cavity.SpecIdeal
import Verif.Cavity.Ideal
import Verif.Cavity.SpecTotal
import Verif.Cavity.Total
import Verif.Moment.Halves
import Verif.Cavity.SpecSplit
import Verif.Cavity.Split
import Verif.Cavity.SpecInsert
import Verif.Cavity.Insert
import Verif.Cavity.SpecReuse
import Verif.Cavity.Reuse
import Verif.Cavity.Repeat
import Verif.Cavity.SpecResponse
import Verif.Cavity.Response
import Verif.Vaccel.Reuse
import Verif.Vaccel.Status
import Verif.Vaccel.PropsStatus
import Verif.Agree.Spec
import Verif.Agree.Props
import Verif.Mirror.Spec
import Verif.Mirror.Props
import Verif.Mirror.Linear
import Verif.Mirror.Example
import Verif.Scale.Spec
import Verif.Scale.Props
import Verif.Scale.Cavity
import Verif.Scale.Run
import Verif.Scale.Example
import Verif.Turn.Spec
import Verif.Turn.Props
import Verif.Turn.Cavity
import Verif.Turn.Run
import Verif.Turn.Example
import Verif.Flip.Spec
import Verif.Flip.Props
import Verif.Flip.Beam
import Verif.Flip.Cavity
import Verif.Flip.Run
import Verif.Flip.Example
import Verif.Flip.SpecSym
import Verif.Flip.Symmetric
import Verif.Level.Spec
import Verif.Level.Props
import Verif.Level.Beam
import Verif.Level.Run
import Verif.Level.Example
import Verif.Level.SpecSym
import Verif.Level.Symmetric
import Verif.Level.Cavity
import Verif.Freq.Spec
import Verif.Freq.Props
import Verif.Freq.Beam
import Verif.Freq.Cavity
import Verif.Freq.Run
import Verif.Freq.Example
import Verif.Sext.Spec
import Verif.Sext.Props
import Verif.Sext.SpecSlices
import Verif.Sext.Slices
import Verif.Whole.Model
import Verif.Whole.Spec
import Verif.Whole.Transfer
import Verif.Whole.Props
import Verif.Glps.Lines
import Verif.Glps.LinesSpec
import Verif.Glps.PropsLines
import Verif.Glps.PropsFirst
import Verif.Glps.Nested
import Verif.Glps.PropsNested
import Verif.Glps.PropsMissing
import Verif.Tools.H5file
import Verif.Python.Propagate
import Verif.Tools.Log
import Verif.Steady.Spec
import Verif.Steady.Matrices
import Verif.Steady.Elements
import Verif.Steady.Sector
import Verif.Steady.Step
import Verif.Steady.Run
import Verif.Steady.Bend
import Verif.Steady.Thick
import Verif.Steady.Example
import Verif.Steady.Back
import Verif.Tools.Loadcav
import Verif.Tools.PropsLoadcav
import Verif.Vaccel.Instances
import Verif.Tools.Plot
import Verif.Tools.PropsPlot
import Verif.Config.Show
import Verif.Config.PropsShow
import Verif.Config.ShowParsed
import Verif.Tools.PlotRun
