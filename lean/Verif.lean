import Verif.Instances.Base
import Verif.Instances.Containers
import Verif.Instances.Epochs
import Verif.Instances.Factory
import Verif.Instances.Inference
import Verif.Instances.Numbers
import Verif.Instances.Progress
import Verif.Instances.Runs
import Verif.Instances.State
import Verif.Instances.Stored
import Verif.Instances.Training
import Verif.Instances.Twins
import Verif.Instances.Validation
import Verif.Lemmas.Additive
import Verif.Lemmas.BitOutputs
import Verif.Lemmas.Bits
import Verif.Lemmas.BitwiseClause
import Verif.Lemmas.BitwiseTrain
import Verif.Lemmas.BitwiseTrain3
import Verif.Lemmas.BitwiseUnused
import Verif.Lemmas.Calls
import Verif.Lemmas.Chance
import Verif.Lemmas.Check
import Verif.Lemmas.ClassicClause
import Verif.Lemmas.ClassicTrain
import Verif.Lemmas.Cloning
import Verif.Lemmas.Defined
import Verif.Lemmas.Direct
import Verif.Lemmas.Epoch
import Verif.Lemmas.Express
import Verif.Lemmas.Factories
import Verif.Lemmas.Factory
import Verif.Lemmas.Fair
import Verif.Lemmas.Few
import Verif.Lemmas.Fit
import Verif.Lemmas.Float
import Verif.Lemmas.Grisu
import Verif.Lemmas.GrisuDigits
import Verif.Lemmas.GrisuMain
import Verif.Lemmas.History
import Verif.Lemmas.Ieee
import Verif.Lemmas.JsonComplete
import Verif.Lemmas.JsonFormat
import Verif.Lemmas.JsonInt
import Verif.Lemmas.JsonLex
import Verif.Lemmas.JsonNum
import Verif.Lemmas.JsonNumber
import Verif.Lemmas.JsonParams
import Verif.Lemmas.JsonRefused
import Verif.Lemmas.JsonSound
import Verif.Lemmas.JsonStr
import Verif.Lemmas.JsonStrings
import Verif.Lemmas.JsonSyntax
import Verif.Lemmas.JsonTotal
import Verif.Lemmas.JsonValues
import Verif.Lemmas.Lawful
import Verif.Lemmas.Layout
import Verif.Lemmas.Light
import Verif.Lemmas.LightRun
import Verif.Lemmas.LogText
import Verif.Lemmas.Loss
import Verif.Lemmas.Make
import Verif.Lemmas.Mixed
import Verif.Lemmas.Mt
import Verif.Lemmas.Observe
import Verif.Lemmas.Overflow
import Verif.Lemmas.ParamTypes
import Verif.Lemmas.Params
import Verif.Lemmas.ParamsMake
import Verif.Lemmas.Predict
import Verif.Lemmas.Program
import Verif.Lemmas.Progress
import Verif.Lemmas.Proto
import Verif.Lemmas.ProtoCall
import Verif.Lemmas.RealEnv
import Verif.Lemmas.Reference
import Verif.Lemmas.Refit
import Verif.Lemmas.Res
import Verif.Lemmas.Rounding
import Verif.Lemmas.Runs
import Verif.Lemmas.Safety
import Verif.Lemmas.Same
import Verif.Lemmas.Session
import Verif.Lemmas.Shared
import Verif.Lemmas.Sharing
import Verif.Lemmas.Sized
import Verif.Lemmas.SpecState
import Verif.Lemmas.StateJson
import Verif.Lemmas.StateText
import Verif.Lemmas.Step
import Verif.Lemmas.TextStrings
import Verif.Lemmas.Threads
import Verif.Lemmas.Tiles
import Verif.Lemmas.Toss
import Verif.Lemmas.TossEnd
import Verif.Lemmas.Tossers
import Verif.Lemmas.Train
import Verif.Lemmas.Twin
import Verif.Lemmas.Update
import Verif.Lemmas.UpdateReg
import Verif.Lemmas.Utf8
import Verif.Lemmas.Votes
import Verif.Model.Abort
import Verif.Model.Aligned
import Verif.Model.Backend
import Verif.Model.BitOutputs
import Verif.Model.Bits
import Verif.Model.Bitwise
import Verif.Model.BitwiseUnused
import Verif.Model.BoxMuller
import Verif.Model.Classic
import Verif.Model.CoinTosser
import Verif.Model.CoinTosserApprox
import Verif.Model.Either
import Verif.Model.Env
import Verif.Model.Estimator
import Verif.Model.Grisu
import Verif.Model.History
import Verif.Model.Ieee
import Verif.Model.Json
import Verif.Model.JsonDump
import Verif.Model.JsonParse
import Verif.Model.Layout
import Verif.Model.LayoutEq
import Verif.Model.Log
import Verif.Model.LogText
import Verif.Model.Mt
import Verif.Model.Overflow
import Verif.Model.OverflowCalls
import Verif.Model.Params
import Verif.Model.ParamsMake
import Verif.Model.ParamsText
import Verif.Model.Res
import Verif.Model.Session
import Verif.Model.Shared
import Verif.Model.StateEq
import Verif.Model.StateJson
import Verif.Model.StateText
import Verif.Model.Threads
import Verif.Props.Accepts
import Verif.Props.Aligned
import Verif.Props.Alloc
import Verif.Props.BitOutputs
import Verif.Props.Bits
import Verif.Props.Canonical
import Verif.Props.Chance
import Verif.Props.Cloning
import Verif.Props.Compare
import Verif.Props.ConfigText
import Verif.Props.Either
import Verif.Props.Epochs
import Verif.Props.Evaluate
import Verif.Props.Express
import Verif.Props.Factory
import Verif.Props.Fair
import Verif.Props.Few
import Verif.Props.ForeignText
import Verif.Props.Frand
import Verif.Props.Generator
import Verif.Props.Hits
import Verif.Props.Inference
import Verif.Props.JsonGrammar
import Verif.Props.JsonText
import Verif.Props.Left
import Verif.Props.Light
import Verif.Props.Loaded
import Verif.Props.LoadedText
import Verif.Props.Log
import Verif.Props.LogText
import Verif.Props.Loss
import Verif.Props.Memory
import Verif.Props.Missing
import Verif.Props.Overflow
import Verif.Props.OverflowCalls
import Verif.Props.Progress
import Verif.Props.Reference
import Verif.Props.Rounding
import Verif.Props.Safety
import Verif.Props.Saved
import Verif.Props.SavedText
import Verif.Props.Session
import Verif.Props.SessionTexts
import Verif.Props.Settings
import Verif.Props.Shared
import Verif.Props.Specificity
import Verif.Props.State
import Verif.Props.Stuck
import Verif.Props.Symmetry
import Verif.Props.Threads
import Verif.Props.Tossers
import Verif.Props.Tosses
import Verif.Props.Toy
import Verif.Props.Training
import Verif.Props.Twins
import Verif.Props.Unused
import Verif.Props.Validation
import Verif.Spec.Abort
import Verif.Spec.Accuracy
import Verif.Spec.Api
import Verif.Spec.BitOutputs
import Verif.Spec.Bits
import Verif.Spec.Chance
import Verif.Spec.Clause
import Verif.Spec.Compare
import Verif.Spec.Either
import Verif.Spec.Express
import Verif.Spec.Fair
import Verif.Spec.Feedback
import Verif.Spec.Hits
import Verif.Spec.JsonGrammar
import Verif.Spec.JsonText
import Verif.Spec.Loaded
import Verif.Spec.Log
import Verif.Spec.LogText
import Verif.Spec.Missing
import Verif.Spec.Mt
import Verif.Spec.Overflow
import Verif.Spec.Params
import Verif.Spec.Reference
import Verif.Spec.Rounding
import Verif.Spec.Safety
import Verif.Spec.Saved
import Verif.Spec.SavedText
import Verif.Spec.Session
import Verif.Spec.Shared
import Verif.Spec.Specificity
import Verif.Spec.Storage
import Verif.Spec.Symmetry
import Verif.Spec.Threads
import Verif.Spec.Tossers
import Verif.Spec.Training
import Verif.Spec.Twin
import Verif.Spec.Unused
import Verif.Spec.Validation
import Verif.Spec.Votes
