import Verif.Data.Props2
import Verif.Data.Commute
import Verif.Score.Props
import Verif.Score.Commute
import Verif.Score.Unit
import Verif.Rec.Props4
import Verif.Rec.Layout
import Verif.MF.Props5
import Verif.MF.Factors
import Verif.MF.Clip
import Verif.PLSA.Props5
import Verif.Fit.Props
import Verif.Fit.Layouts
import Verif.Fit.Steps
import Verif.Fit.Interrupt
import Verif.PLSA.Unit
import Verif.Split.Props3
import Verif.Split.LazyProps
import Verif.Split.LazyMore
import Verif.Metrics.Props4
import Verif.Metrics.Unit
import Verif.Metrics.Auc
import Verif.Util.Props
import Verif.Heap.Props
import Verif.Heap.Copy
import Verif.Heap.CallerProps
import Verif.Opt.Props
import Verif.Scripts.Props6
import Verif.Convert.Props8
import Verif.Convert.Part
import Verif.Convert.Script
import Verif.Convert.ScriptSpec
import Verif.Convert.ScriptLemmas
import Verif.Convert.ScriptAgree
import Verif.Convert.ScriptProps
import Verif.Convert.ScriptExamples
import Verif.Convert.Cut
import Verif.Convert.CutProps
import Verif.Scripts.Load2
import Verif.Exp.Props3
import Verif.Exp.Examples
import Verif.Exp.Props6
import Verif.Exp.Files
import Verif.Exp.WrittenExamples
import Verif.Exp.MachineProps
import Verif.Relabel.Props
import Verif.Shell.Props
import Verif.Shell.Pipeline
import Verif.Shell.Examples
import Verif.Fit.Start
import Verif.Float.Props
import Verif.Float.Sigmoid
import Verif.Float.Near
import Verif.Float.Dev
import Verif.Float.Metrics
import Verif.Float.Gamma
import Verif.Float.Split
import Verif.Float.Score
import Verif.Float.Topic
import Verif.Float.EM
import Verif.Json.Examples
import Verif.Json.Read
import Verif.Json.Plain
import Verif.Scripts.Keys
import Verif.Shell.Text
import Verif.Shell.TextExamples
import Verif.Args.Model
import Verif.Args.Spec
import Verif.Args.Classify
import Verif.Args.Items
import Verif.Args.Props
import Verif.Args.Scripts
import Verif.Args.ScriptSpec
import Verif.Args.Order
import Verif.Args.Order2
import Verif.Args.Suffix
import Verif.Args.Files
import Verif.Args.Refused
import Verif.Args.Spellings
import Verif.Args.Numbers
import Verif.Args.Examples
import Verif.Est.Model
import Verif.Est.Lemmas
import Verif.Est.Props
import Verif.Float.Loss
import Verif.Exp.Times
import Verif.Exp.Robust
import Verif.Exp.Runs
import Verif.Exp.Unit
import Verif.Exp.Counts
import Verif.Rec.Matrix
import Verif.MF.Ranking
import Verif.PLSA.Stationary
import Verif.PLSA.Limit
import Verif.PLSA.Fit
import Verif.Fit.Never
import Verif.Util.Exact
import Verif.Scripts.MergeExact
import Verif.Score.Exact
import Verif.Rec.Refused
import Verif.PLSA.Smoothing
import Verif.MF.Tolerance
import Verif.Fit.Tolerance
import Verif.Data.Convertible
import Verif.Fit.ToleranceImplicit
import Verif.PLSA.Steps
import Verif.PLSA.Interrupt
import Verif.Fit.Interrupt2
import Verif.Rec.Streams
import Verif.Rec.StreamsProps
import Verif.Fit.Streams
import Verif.Data.Steps
import Verif.Data.Interrupt
import Verif.Fit.Interrupt3
import Verif.Data.Threads
import Verif.Data.ThreadsProps
import Verif.Score.Steps
import Verif.Score.Binarize
import Verif.Fit.Threads
import Verif.Fit.ThreadsProps
import Verif.Fit.Torn
import Verif.Fit.TornProps
import Verif.Fit.ThreadsShared
import Verif.PLSA.Torn
import Verif.PLSA.TornProps
import Verif.PLSA.Threads
import Verif.PLSA.ThreadsProps
import Verif.PLSA.ThreadsSerial
import Verif.Fit.Same
import Verif.Fit.SameProps
import Verif.Fit.SameResults
import Verif.Fit.SameAlone
