import Verif.Gen.ReadTable
import Verif.Gen.WriteTable
/-!
# Loading and saving a document

`ARXMLParser.load` and `ARXMLWriter.save` on top of the generated reader and writer methods.  A document is an object of
class `AUTOSAR`.

Simplifications:
* `load` is modelled for a document nothing was loaded into before (`Model/Load.lean` has the merging of several files).
* Between the XML tree `save` builds and the one `load` sees there is a file, see `Spec.Reload` and `Model/Markup.lean`.
  The names of the namespaces are resolved: `xsi:schemaLocation` stands for
  `{http://www.w3.org/2001/XMLSchema-instance}schemaLocation`, `xml:space` for `{http://www.w3.org/XML/1998/namespace}space`; the attributes `xmlns`
  and `xmlns:xsi` are left out.
-/
namespace Verif.Model
open Verif

mutual
/-- the number of levels of an XML tree -/
def Xml.depth : Xml → Nat
  | .node _ _ _ kids => Xml.depths kids + 1
def Xml.depths : List Xml → Nat
  | [] => 0
  | x :: l => max x.depth (Xml.depths l)
end

mutual
/-- the number of levels of an object -/
def MObj.depth {F : Type} : MObj F → Nat
  | .scal _ => 1
  | .mk _ fs => MObj.depthF fs + 1
def MObj.depthF {F : Type} : List ((Key × Bool) × List (MObj F)) → Nat
  | [] => 0
  | (_, vs) :: fs => max (MObj.depthL vs) (MObj.depthF fs)
def MObj.depthL {F : Type} : List (MObj F) → Nat
  | [] => 0
  | v :: vs => max v.depth (MObj.depthL vs)
end

/-- `ARXMLParser.load`, `parser/arxml_parser.py:9420-9422`, with `getAUTOSARInfo`,
`parser/abstract_arxml_parser.py:341-346` -/
def loadBody : RBody := ⟨k!"AUTOSAR",
  [/- 9420 -/ { field := k!"schema_location", path := .nil, item := .attr k!"xsi:schemaLocation" .raw },
   /- 9421 -/ { field := k!"adminData", path := .first [k!"ADMIN-DATA"] .nil, item := .objs [(k!"ADMIN-DATA", k!"getAdminData_AdminData")] }] ++
   /- 9422 -/ Gen.R.readARPackages⟩

/-- `ARXMLWriter.save`, `writer/arxml_writer.py:9623-9631`, for a document with a schema location -/
def saveBody : WB :=
  /- 9623 -/ .wrap .always k!"AUTOSAR" (
    /- 9626 -/ .attr k!"xsi:schemaLocation" .raw k!"schema_location" <|
    /- 9630 -/ .each k!"adminData" [] .plain [⟨[], [], k!"setAdminData_AdminData"⟩] .skip <|
    /- 9631, 9603 -/ .wrap (.any [(k!"arPackages", [])]) k!"AR-PACKAGES" (
      /- 9616 -/ .each k!"arPackages" [] .sorted [⟨[(false, [k!"ARPackage"])], [], k!"writeARPackage_ARPackage"⟩] .unsupported <|
      .nil) <|
    .nil) <|
  .nil

/-- the methods of the reader -/
def readers (k : Key) : Option RBody := if k = k!"load" then some loadBody else Gen.readTable.find? k

/-- the methods of the writer -/
def writers (k : Key) : Option WB := if k = k!"save" then some saveBody else Gen.writeTable.find? k

section
variable (py : Py) (repr : py.F → Str) (strict : Bool)

/-- `parser/arxml_parser.py:9412-9424`; the number of levels bounds the recursion (`Props.C33_fuel`) -/
def load (x : Xml) : Except RErr (MObj py.F) :=
  if x.tag ≠ k!"AUTOSAR" ∧ strict = true then .error (.py .valueError)
  else readObj py strict readers x.depth k!"load" x

/-- the schema location written if there is none, `writer/arxml_writer.py:9628` -/
def defaultSchema : Str := "http://autosar.org/schema/r4.0 AUTOSAR_4-0-3.xsd".toList

/-- the document with the schema location that is written, `writer/arxml_writer.py:9625-9628` -/
def withSchema (d : MObj py.F) : MObj py.F :=
  if d.get k!"schema_location" = [] then match d with
    | .mk c fs => .mk c (fs.map fun e => if e.1.1 = k!"schema_location" then (e.1, [.scal (.str defaultSchema)]) else e)
    | .scal s => .scal s
  else d

/-- `writer/arxml_writer.py:9620-9631` -/
def save (d : MObj py.F) : Except PyErr Xml :=
  match writeObj py repr strict writers (withSchema py d).depth k!"save" (withSchema py d) with
  | .error e => .error e
  | .ok out => match out.kids with
    | [x] => .ok x
    | _ => .error .valueError
end

end Verif.Model
