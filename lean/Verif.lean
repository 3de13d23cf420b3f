import Verif.Model.Reader
import Verif.Spec.Format
import Verif.Spec.Expected
import Verif.Props.RoundTrip
import Verif.Props.Header
import Verif.Props.Iteration
import Verif.Props.Stats
import Verif.Props.Schema
import Verif.Props.Dict
import Verif.Props.Visible
import Verif.Proofs.Parse
import Verif.Props.Parseables
import Verif.Spec.Document
import Verif.Props.Reader
import Verif.Model.FloatRepr
import Verif.Model.Json
import Verif.Spec.JsonText
import Verif.Spec.Printed
import Verif.Props.Print
import Verif.Model.Protocol
import Verif.Props.Protocol
import Verif.Spec.Sample
import Verif.Props.Layouts
import Verif.Spec.Messages
import Verif.Props.Messages
import Verif.Model.Cli
import Verif.Spec.Cli
import Verif.Props.Cli
import Verif.Spec.Decode
import Verif.Spec.Unchecked
import Verif.Proofs.Decode
import Verif.Props.Decode
import Verif.Props.Unchecked
import Verif.Spec.Wanted
import Verif.Props.Wanted
import Verif.Spec.Zlib
import Verif.Proofs.Zlib
import Verif.Proofs.ZlibStore
import Verif.Props.Zlib
import Verif.Props.Options
import Verif.Props.Growing
import Verif.Spec.Gzip
import Verif.Proofs.Gzip
import Verif.Props.Gzip
import Verif.Spec.Result
import Verif.Props.Result
import Verif.Props.Repr
import Verif.Model.Live
import Verif.Proofs.Live
import Verif.Props.Live
import Verif.Props.ShortReads
import Verif.Props.Minimal
import Verif.Props.Damage
import Verif.Model.Objects
import Verif.Spec.Objects
import Verif.Proofs.Objects
import Verif.Proofs.ObjectSteps
import Verif.Proofs.ObjectHistory
import Verif.Props.Objects
import Verif.Props.ObjectsUnchecked
import Verif.Source.Syntax
import Verif.Source.Text
import Verif.Source.Semantics
import Verif.Source.Program
import Verif.Spec.Source
import Verif.Proofs.SourceBase
import Verif.Proofs.SourceRows
import Verif.Proofs.SourceParsers
import Verif.Proofs.SourceAllParsers
import Verif.Proofs.SourceExec
import Verif.Proofs.SourceHeader
import Verif.Proofs.SourceCheck
import Verif.Proofs.SourceGetHeader
import Verif.Proofs.SourceRead
import Verif.Proofs.SourceGen
import Verif.Proofs.SourceGenerate
import Verif.Props.Source
import Verif.Props.SourceUtils
import Verif.Props.SourceDict
import Verif.Proofs.SourceFull
import Verif.Spec.SourceReader
import Verif.Proofs.SourceParseables
import Verif.Proofs.SourceSamples
import Verif.Proofs.SourceReader
import Verif.Props.SourceReader
import Verif.Props.SourceArgs
import Verif.Props.SourceProtocol
import Verif.Source.Classes
import Verif.Source.Tables
import Verif.Spec.SourceClasses
import Verif.Proofs.SourceClasses
import Verif.Props.SourceClasses
import Verif.Spec.SourceAttr
import Verif.Proofs.SourceAttr
import Verif.Spec.SourceResult
import Verif.Proofs.SourceResult
import Verif.Props.SourceResult
import Verif.Source.Floats
import Verif.Source.Readme
import Verif.Spec.Readme
import Verif.Proofs.Floats
import Verif.Proofs.SourceLoop
import Verif.Proofs.Usage
import Verif.Proofs.Readme
import Verif.Props.Readme
import Verif.Proofs.ByHand
import Verif.Props.ByHand
import Verif.Spec.OneReader
import Verif.Props.OneReader
import Verif.Props.Regrown
import Verif.Props.Witness
import Verif.Props.WitnessOutput
import Verif.Props.WitnessMore
import Verif.Props.WitnessSource
import Verif.Props.RealLogs
import Verif.Props.Attributes
import Verif.Props.OneReaderUnchecked
import Verif.Props.SourceUnchecked
import Verif.Props.Fed
import Verif.Props.FedOutput
import Verif.Props.Failing
import Verif.Props.FedCovers
import Verif.Props.FailingMain
import Verif.Props.FailingCovers
