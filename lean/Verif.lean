import Verif.Py.Num
import Verif.Py.Cpython311
import Verif.Model.Api
import Verif.Model.Json
import Verif.Props.Shape
import Verif.Props.Continuation
import Verif.Props.Decode
import Verif.Props.Parse
import Verif.Props.Files
import Verif.Props.Json
import Verif.Props.Values
import Verif.Props.Codes
import Verif.Props.Columns
import Verif.Props.Text
import Verif.Props.Consistency
import Verif.Props.Kinds
import Verif.Props.Distinct
import Verif.Props.Standard
import Verif.Props.Reach
import Verif.Props.Meaning
import Verif.Props.EndToEnd
import Verif.Props.Fates
import Verif.Props.Threads
import Verif.Props.Cells
import Verif.Props.Total
import Verif.Props.Repr
import Verif.Props.Chars
import Verif.Props.Bytes
import Verif.Props.Interrupt
import Verif.Props.Args
import Verif.Props.Handles
import Verif.Props.Stream
import Verif.Props.Shared
import Verif.Props.Cut
import Verif.Props.Live
import Verif.Props.LiveFolder
import Verif.Props.Summary
import Verif.Props.AnyArg
import Verif.Props.Encoding
import Verif.Spec.Agree
import Verif.Lemmas.Agree
import Verif.Props.Version
import Verif.Spec.Hidden
import Verif.Props.Hidden
import Verif.Props.Output
import Verif.Props.Registry
import Verif.Props.Table
import Verif.Props.Stdout
import Verif.Props.Fault
import Verif.Props.Objects
import Verif.Props.Again
import Verif.Props.Damage
import Verif.Props.Memory
import Verif.Props.Narrow
import Verif.Props.Rearrange
import Verif.Props.Size
import Verif.Props.Digits
import Verif.Props.Save
import Verif.Props.Blanks
import Verif.Props.Turns
import Verif.Props.Source
import Verif.Props.SourceDefs
import Verif.Props.SourceRecord
import Verif.Props.SourceApi
import Verif.Props.SourceSpec
import Verif.Props.SourceProgram
import Verif.Props.SourceEnd
