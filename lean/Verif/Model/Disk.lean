import Verif.Model.Markup
import Verif.Model.Document
/-!
# Files as bytes, and what happens to them while a document is saved

`ARXMLWriter.save`, `writer/arxml_writer.py:9620-9633`, with `saveToFile`, `writer/abstract_arxml_writer.py:163-176`, and
`ARXMLParser.load`, `parser/arxml_parser.py:9412-9416`.

Simplifications:
* Files are in UTF-8, with or without a byte order mark.
* Opening a file for writing makes it empty; then the buffered writer hands over the text in pieces (of any size).  These system calls take effect
  one after the other; an interruption (a signal, a full disk, a crash of the interpreter) comes between two of them.  What a computer loses that
  crashes itself is left out.
* Line ends are written as they are (as on Linux).
-/
namespace Verif.Model

/-- the contents of the files -/
abbrev Disk := Str → Option ByteArray

/-- a system call that changes a file -/
inductive DiskOp
  /-- `open(filename, "w")` -/
  | truncate (file : Str)
  /-- `write` -/
  | append (file : Str) (b : ByteArray)

/-- what a system call does -/
def DiskOp.run (disk : Disk) : DiskOp → Disk
  | truncate f => fun g => if g = f then some ByteArray.empty else disk g
  | append f b => fun g => if g = f then (disk f).map (· ++ b) else disk g

/-- system calls one after the other -/
def Disk.after (disk : Disk) (ops : List DiskOp) : Disk := ops.foldl DiskOp.run disk

/-- the text of a file in UTF-8, without the byte order mark; `none`: it is not in UTF-8 -/
def decodeFile (b : ByteArray) : Option Str := b.utf8Decode?.map fun a => match a.toList with
  | [] => []
  | c :: s => if c.toNat = 0xFEFF then s else c :: s

/-- `ET.parse(filename).getroot()`, `parser/arxml_parser.py:9415-9416`; `none` when it raises an exception -/
def parseBytes (nc : NameChars) (b : ByteArray) : Option Xml := (decodeFile b).bind (parseFile nc)

/-- `ARXMLParser().load(filename, document)` for a new document; `none` when the file can not be read or is no XML file -/
def loadFrom (py : Py) (nc : NameChars) (strict : Bool) (disk : Disk) (file : Str) : Option (Except RErr (MObj py.F)) :=
  ((disk file).bind (parseBytes nc)).map (load py strict)

/-- the system calls of a call, and the exception it ends with -/
structure Calls where
  ops : List DiskOp
  err : Option PyErr

/-- `save`, `writer/arxml_writer.py:9620-9633`, `writer/abstract_arxml_writer.py:163-176`; `pieces` are those of the buffered writer.  (The exception
of `minidom.parseString` is counted as `ValueError`.) -/
noncomputable def saveCalls (py : Py) (repr : py.F → Str) (nc : NameChars) (strict unescape : Bool) (pieces : ByteArray → List ByteArray)
    (file : Str) (d : MObj py.F) : Calls :=
  match save py repr strict d with
  | .error e => ⟨[], some e⟩
  | .ok x => match saveToFile py nc unescape x with
    | none => ⟨[], some .valueError⟩
    | some s => ⟨.truncate file :: (pieces s.utf8Encode).map (.append file), none⟩

end Verif.Model
