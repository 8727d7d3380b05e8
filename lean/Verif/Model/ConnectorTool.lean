import Verif.Model.Connectors
import Verif.Model.AdminData
import Verif.Model.Load
import Verif.Model.Markup
import Verif.Model.ListTool
/-!
# The tools `connector-update` and `connector2xlsx` on files

`cli/connector_update_cli.py`, `cli/connector2xlsx_cli.py`, with `parser/connector_xlsx_parser.py` and `report/connector_xls_report.py` for the
objects a file is read into.  (`Model/Connectors.lean` has the same methods for a single composition that was made by calls.)

Simplifications:
* `provider_iref`, `requester_iref`, `inner_port_iref` and `outer_port_ref` are attributes no method of the parser or writer knows (those are called
  `providerIRef`, …; `SWComponentTemplate/Composition/__init__.py:95-96,124-125`): an object read from a file does not have them, and setting them
  leaves what is written as it is.
* The members of a composition, by name, are those it has when the update begins: a composition is updated once (the names in a table are different).
* Which of several exceptions comes first is left open; an exception of any kind means that no file is written.
-/
namespace Verif.Model
open Verif

section
variable {F : Type}

/-- `X(parent, short_name)`: an object, as the reader method `k` makes them, of which only the short name is set -/
def newNamed (k : Key) (n : Str) : MObj F := match readers k with
  | none => .mk 0 []
  | some b => .mk b.cls (b.slots.map fun s => (s.key, if s.item = .name then [.scal (.str n)] else []))

/-- while a composition is updated: the index of its members (also of those that were removed), and the connectors that were added -/
structure Conns (F : Type) where
  index : List (Str × Key)
  new : List (MObj F) := []

/-- `createAssemblySwConnector`, `createDelegationSwConnector`, `Composition/__init__.py:412-446`, and an assignment to an attribute of the result
(`None` has none) -/
def Conns.create (st : Conns F) (k c : Key) (n : Str) : Except PyErr (Conns F) :=
  if st.index.any fun e => e.1 == n then
    if st.index.any fun e => e.1 == n && armodel.sub e.2 c then .ok st else .error .attributeError
  else .ok ⟨st.index ++ [(n, c)], st.new ++ [newNamed k n]⟩

/-- `_addAssemblySwConnector`, `_addDelegationSwConnector`, `connector_xlsx_parser.py:125-169` -/
def Conns.addRow (st : Conns F) : ConnRow → Except PyErr (Conns F)
  | .assembly n .. => st.create k!"readCompositionSwComponentTypeSwConnectors_AssemblySwConnector" k!"AssemblySwConnector" n.toList
  | .delegation n _ ip op ir orr =>
    if (ip.isSome ∧ op.isSome) ∨ (ir.isSome ∧ orr.isSome) then
      st.create k!"readCompositionSwComponentTypeSwConnectors_DelegationSwConnector" k!"DelegationSwConnector" n.toList
    else .error .valueError

/-- is the connector kept by `removeAllAssemblySwConnector` and `removeAllDelegationSwConnector`, `Composition/__init__.py:499-513` -/
def staysConnector (v : MObj F) : Bool := !(v.inst [k!"AssemblySwConnector"] || v.inst [k!"DelegationSwConnector"])

/-- `_updateCompositionSwComponent`, `connector_xlsx_parser.py:171-185`; a component type that is no composition does not have the methods -/
def updateConnectors (rows : List ConnRow) : MObj F → Except PyErr (MObj F)
  | .scal _ => .error .attributeError
  | .mk c fs =>
    if armodel.sub c k!"CompositionSwComponentType" then
      match foldE Conns.addRow ⟨((MObj.mk c fs).get k!"elements").map fun v => (v.name, v.cls), []⟩ rows with
      | .error e => .error e
      | .ok st => .ok (.mk c (fs.map fun e => if e.1.1 = k!"connectors" then (e.1, e.2.filter staysConnector ++ st.new) else e))
    else .error .attributeError

/-- the test and the call in the loop over `parent.getSwComponentTypes()`, `connector_xlsx_parser.py:188-190` -/
def updateElement (n : Str) (rows : List ConnRow) (e : MObj F) : Except PyErr (MObj F) :=
  if e.inst [k!"SwComponentType"] ∧ e.name = n then updateConnectors rows e else .ok e

mutual
/-- `_locateCompositionSwComponent`, `connector_xlsx_parser.py:187-192`; `f` is what is done with an element of a package -/
def locatePkg (f : MObj F → Except PyErr (MObj F)) : MObj F → Except PyErr (MObj F)
  | .scal s => .ok (.scal s)
  | .mk c fs => match locateFields f fs with
    | .error e => .error e
    | .ok fs => .ok (.mk c fs)
def locateFields (f : MObj F → Except PyErr (MObj F)) : List ((Key × Bool) × List (MObj F)) → Except PyErr (List ((Key × Bool) × List (MObj F)))
  | [] => .ok []
  | (k, vs) :: fs =>
    match (if k.1 = k!"arPackages" then locatePkgs f vs else if isMember k = true then mapE f vs else .ok vs) with
    | .error e => .error e
    | .ok vs => match locateFields f fs with
      | .error e => .error e
      | .ok fs => .ok ((k, vs) :: fs)
def locatePkgs (f : MObj F → Except PyErr (MObj F)) : List (MObj F) → Except PyErr (List (MObj F))
  | [] => .ok []
  | v :: vs => match locatePkg f v with
    | .error e => .error e
    | .ok v => match locatePkgs f vs with
      | .error e => .error e
      | .ok vs => .ok (v :: vs)
end

/-- `update`, `connector_xlsx_parser.py:194-197`: for each sheet all packages (the document has packages, and no elements) -/
def updateTable (table : List (String × List ConnRow)) (d : MObj F) : Except PyErr (MObj F) :=
  foldE (fun d e => locatePkg (updateElement e.1.toList e.2) d) d table

/-- `_write_assembly_sw_connection` and `_write_delegation_sw_connection`, `connector_xls_report.py:27-70`, for a composition from a file: the first
connector raises `AttributeError` (lines 36, 54) -/
def reportSheets (o : MObj F) : Except PyErr (List Sheet) :=
  if (o.get k!"connectors").any fun v => v.inst [k!"AssemblySwConnector"] then .error .attributeError
  else if (o.get k!"connectors").any fun v => v.inst [k!"DelegationSwConnector"] then .error .attributeError
  else .ok [⟨String.ofList o.name, .ac, assemblyTitles.map some, []⟩, ⟨String.ofList o.name, .dc, delegationTitles.map some, []⟩]

/-- `import_data` and `write`, `connector_xls_report.py:16-25,72-82` -/
def reportDoc (d : MObj F) : Except PyErr (List Sheet) :=
  (mapE reportSheets (sortBy (fun o => String.ofList o.name)
    (((collectDoc k!"SwComponentType" false d).map Prod.snd).filter (MObj.inst [k!"CompositionSwComponentType"])))).map List.flatten

end

section
variable (py : Py) (repr : py.F → Str) (nc : NameChars)

/-- `connector_update_cli.py:51-64`: the content of the output file; `sheets` is the workbook, `s` the input file, `warning` the option `-w` -/
def connectorUpdate (warning : Bool) (s : Str) (sheets : List Sheet) : Option Str :=
  match parseFile nc s with
  | none => none
  | some x => match load py (!warning) x with
    | .error _ => none
    | .ok d => match XlsReader.new.sheets sheets with
      | .error _ => none
      | .ok r => match updateTable r.table d with
        | .error _ => none
        | .ok d => match save py repr true d with
          | .error _ => none
          | .ok y => saveToFile py nc false y

/-- `connector2xlsx_cli.py:50-65`: the sheets of the output file (besides the empty one a new workbook has) -/
def connector2xlsx (fs : Fs) (warning : Bool) (inputs : List Str) : Option (List Sheet) :=
  match cliParse py fs [] inputs with
  | .error _ => none
  | .ok names => match names.mapM fun f => (fs.text f).bind (parseFile nc) with
    | none => none
    | some xs => match loadAll py (!warning) (newDoc py) xs with
      | .error _ => none
      | .ok d => match reportDoc d with
        | .error _ => none
        | .ok l => some l
end

end Verif.Model
