import Verif.Model.Reader
import Verif.Model.DateTime
import Verif.Model.PyTime
import Verif.Model.Cell
import Verif.Model.PySinks
import Verif.Model.RSinks
import Verif.Model.TextSinks
import Verif.Model.Cli
import Verif.Spec.Compression
import Verif.Spec.Reader
import Verif.Spec.Values
import Verif.Spec.Header
import Verif.Spec.File
import Verif.Spec.Stream
import Verif.Spec.Columns
import Verif.Spec.Rows
import Verif.Spec.Termination
import Verif.Spec.DateTime
import Verif.Spec.PyTime
import Verif.Spec.Sinks
import Verif.Spec.Text
import Verif.Spec.Writer
import Verif.Spec.Cells
import Verif.Demo
import Verif.DemoFiles
import Verif.Proofs.Files
import Verif.Props.Compression
import Verif.Props.Reader
import Verif.Props.Values
import Verif.Props.Header
import Verif.Props.Columns
import Verif.Props.Rows
import Verif.Props.Termination
import Verif.Props.Safety
import Verif.Props.DateTime
import Verif.Props.PyTime
import Verif.Props.PySinks
import Verif.Props.RSinks
import Verif.Props.Text
import Verif.Props.Cells
import Verif.Props.Writer
import Verif.Model.PyFront
import Verif.Spec.PyFront
import Verif.Proofs.PyFront
import Verif.Props.PyFront
import Verif.Model.RFront
import Verif.Spec.RFront
import Verif.Proofs.RFront
import Verif.Props.RFront
import Verif.Spec.RChunks
import Verif.Proofs.RChunks
import Verif.Props.RChunks
import Verif.Proofs.Debug
import Verif.Proofs.DebugPages
import Verif.Props.Debug
import Verif.Model.PyRefs
import Verif.Spec.PyRefs
import Verif.Proofs.PyRefs
import Verif.Props.PyRefs
import Verif.Model.Throwing
import Verif.Spec.Throwing
import Verif.Proofs.Throwing
import Verif.Props.Throwing
import Verif.Model.PyThrowing
import Verif.Spec.PyThrowing
import Verif.Proofs.PyThrowing
import Verif.Props.PyThrowing
import Verif.Props.Streams
import Verif.Props.Sources
import Verif.Props.Resources
import Verif.Props.Places
import Verif.Props.Order
import Verif.Props.NumText
import Verif.Props.Builds
import Verif.Props.CliMain
import Verif.Props.Reuse
import Verif.Props.PyLife
import Verif.Props.RThrowing
import Verif.Spec.Bounds
import Verif.Proofs.Bounds
import Verif.Proofs.BoundsRows
import Verif.Props.Bounds
import Verif.Spec.Export
import Verif.Props.Export
import Verif.Props.Errors
import Verif.Model.Loops
import Verif.Props.Loops
import Verif.Model.RReuse
import Verif.Props.RReuse
import Verif.Props.Cut
import Verif.Model.Args
import Verif.Props.Args
import Verif.Model.PyProps
import Verif.Props.PyProps
import Verif.Model.Filters
import Verif.Props.Filters
import Verif.Model.SourceThrowing
import Verif.Props.SourceThrowing
import Verif.Model.Several
import Verif.Props.Several
import Verif.Props.Creator
import Verif.Model.ColumnObjects
import Verif.Spec.ColumnObjects
import Verif.Props.ColumnObjects
import Verif.Props.HostOrder
import Verif.Props.Damage
import Verif.Props.Log
import Verif.Props.Decode
import Verif.Props.PyCounts
import Verif.Props.PyOwn
import Verif.Props.PyAsk
import Verif.Props.LogText
import Verif.Props.Says
import Verif.Props.LogReasons
import Verif.Props.LogScreen
import Verif.Props.Agree
import Verif.Props.NullTest
import Verif.Audit
