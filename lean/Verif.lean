import Verif.Props.Collection
import Verif.Props.Create
import Verif.Props.Tree
import Verif.Props.Registry
import Verif.Props.Prim
import Verif.Props.Scalar
import Verif.Gen.ReadTable
import Verif.Gen.WriteTable
import Verif.Props.Codec
import Verif.Props.Defects
import Verif.Props.Modes
import Verif.Props.Access
import Verif.Props.AdminData
import Verif.Props.FileList
import Verif.Props.Connectors
import Verif.Props.Markup
import Verif.Props.File
import Verif.Props.Load
import Verif.Props.Listing
import Verif.Props.Format
import Verif.Props.FileListTool
import Verif.Props.AdminFile
import Verif.Props.ListTool
import Verif.Props.Marks
import Verif.Props.Uuid
import Verif.Props.Registers
import Verif.Props.ComSpec
import Verif.Props.Built
import Verif.Props.ConnectorTool
import Verif.Props.Numbers
import Verif.Props.Duration
import Verif.Props.DumpTool
import Verif.Props.Disk
import Verif.Props.Construct
import Verif.Props.Rename
import Verif.Props.Singleton
import Verif.Props.Plain
import Verif.Props.Heap
import Verif.Props.Order
import Verif.Props.Tools
import Verif.Props.Layout
import Verif.Props.Spelled
import Verif.Props.Grammar
import Verif.Props.Namespace
import Verif.Props.Define
import Verif.Props.Divide
import Verif.Props.Enum
import Verif.Props.Program
import Verif.Props.ProgramMethods
import Verif.Props.Unsaved
import Verif.Props.Tags
import Verif.Props.FileOrder
import Verif.Props.Lists
import Verif.Props.AnyOrder
import Verif.Props.Saving
import Verif.Props.Readable
import Verif.Props.Writable
import Verif.Props.Change
import Verif.Props.Exchange
import Verif.Props.Insert
import Verif.Props.Carry
import Verif.Props.Remove
import Verif.Props.Shrink
import Verif.Props.Retell
