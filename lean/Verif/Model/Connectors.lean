import Verif.Model.Create
import Verif.Model.Sort
import Verif.Model.Key
/-!
# Connectors of a composition and their update from a table

`SWComponentTemplate/Composition/__init__.py` (`CompositionSwComponentType`), `parser/connector_xlsx_parser.py`,
`parser/excel_parser.py`, `report/connector_xls_report.py`.

Simplifications:
* an Excel cell is a text or empty (`None`); cells of the short-name column are texts; `openpyxl` itself
  is not modelled: a sheet is its name and its rows, all of the same width
* the attributes the code sets on a connector (`provider_iref`, …) hold an instance reference, represented by
  the kind of port and the two texts stored in it, or a reference, represented by kind and text
-/
namespace Verif.Model
open Coll

abbrev Cell := Option String

/-- `PPortInCompositionInstanceRef` / `RPortInCompositionInstanceRef` and `RefType` as the update fills them in:
`provided` tells P ports from R ports, `dest` follows from it -/
inductive EndPoint
  | iref (provided : Bool) (component port : Cell)
  | ref (provided : Bool) (port : Cell)
  deriving DecidableEq, Repr

/-- A composition: its collection and lists, the end point attributes of its connectors (by object identity),
and the identity the next object gets. -/
structure Composition where
  own : Owner
  attrs : Nat → Key → Option EndPoint
  next : Nat

namespace Composition

/-- `getSwConnectors`, `Composition/__init__.py:463-470` -/
def connectors (s : Composition) : List Elem := s.own.lists k!"connectors"

/-- `getAssemblySwConnectors`, `getDelegationSwConnectors`, `getPassThroughSwConnectors`,
`Composition/__init__.py:472-497`: `t` is the class asked for -/
def typedConnectors (H : Hier) (s : Composition) (t : Key) : List Elem := sortBy Elem.name (s.connectors.filter (inst H t))

/-- `list.remove(x)`: classes define no `__eq__`, so this removes that object -/
def listRemove (l : List Elem) (e : Elem) : Except PyErr (List Elem) := if e ∈ l then .ok (l.erase e) else .error .valueError

/-- the loop of `removeAll*SwConnector`, `Composition/__init__.py:499-521`: `element_mappings` is left as it is -/
def removeLoop (s : Composition) : List Elem → Except PyErr Composition
  | [] => .ok s
  | e :: r =>
    match listRemove s.own.coll.elements e with
    | .error x => .error x
    | .ok els =>
      match listRemove s.connectors e with
      | .error x => .error x
      | .ok cs => removeLoop { s with own := { s.own with
          coll := { s.own.coll with elements := els }
          lists := fun k => if k = k!"connectors" then cs else s.own.lists k } } r

/-- `removeAllAssemblySwConnector`, `removeAllDelegationSwConnector`, `removeAllPassThroughSwConnector` -/
def removeAll (H : Hier) (s : Composition) (t : Key) : Except PyErr Composition := s.removeLoop (s.typedConnectors H t)

/-- `createAssemblySwConnector`, `:400-415`, as in the table of create methods -/
def assemblyRow : CreateRow :=
  ⟨k!"CompositionSwComponentType", k!"createAssemblySwConnector", k!"AssemblySwConnector", ⟨.untyped, true, .list, .typed⟩, k!"connectors", 412⟩
/-- `createDelegationSwConnector`, `:417-432` -/
def delegationRow : CreateRow :=
  ⟨k!"CompositionSwComponentType", k!"createDelegationSwConnector", k!"DelegationSwConnector", ⟨.untyped, true, .list, .typed⟩, k!"connectors", 429⟩

/-- `swc.createX(short_name)` and then the assignments to the attributes of the returned object; `None.attr = …` raises
`AttributeError` -/
def createWith (H : Hier) (s : Composition) (r : CreateRow) (n : String) (a : List (Key × EndPoint)) : Except PyErr Composition :=
  let own := s.own.create H r n s.next
  match s.own.result H r n s.next with
  | .error x => .error x
  | .ok none => .error .attributeError
  | .ok (some e) => .ok
      { own := own
        attrs := fun i k => if i = e.id then ((a.lookup k).or (s.attrs i k)) else s.attrs i k
        next := s.next + 1 }

end Composition

/-- `AssemblySwConnectorData` and `DelegationSwConnectorData`, `data_models/sw_connector.py` -/
inductive ConnRow
  | assembly (name : String) (providerSwc pport requesterSwc rport : Cell)
  | delegation (name : String) (innerSwc innerP outerP innerR outerR : Cell)
  deriving DecidableEq, Repr

namespace Composition

/-- `_addAssemblySwConnector` and `_addDelegationSwConnector`, `connector_xlsx_parser.py:125-169`.
The delegation connector is created before its ports are looked at. -/
def addRow (H : Hier) (s : Composition) : ConnRow → Except PyErr Composition
  | .assembly n ps pp rs rp =>
    s.createWith H assemblyRow n [(k!"provider_iref", .iref true ps pp), (k!"requester_iref", .iref false rs rp)]
  | .delegation n c ip op ir orr =>
    if ip.isSome ∧ op.isSome then
      s.createWith H delegationRow n [(k!"inner_port_iref", .iref true c ip), (k!"outer_port_ref", .ref true op)]
    else if ir.isSome ∧ orr.isSome then
      s.createWith H delegationRow n [(k!"inner_port_iref", .iref false c ir), (k!"outer_port_ref", .ref false orr)]
    else .error .valueError

def addRows (H : Hier) (s : Composition) : List ConnRow → Except PyErr Composition
  | [] => .ok s
  | r :: rs => match s.addRow H r with
    | .error x => .error x
    | .ok s' => s'.addRows H rs

/-- `_updateCompositionSwComponent`, `connector_xlsx_parser.py:171-185` -/
def update (H : Hier) (s : Composition) (rows : List ConnRow) : Except PyErr Composition :=
  match s.removeAll H k!"AssemblySwConnector" with
  | .error x => .error x
  | .ok s1 => match s1.removeAll H k!"DelegationSwConnector" with
    | .error x => .error x
    | .ok s2 => s2.addRows H rows

end Composition

/-! ### The packages -/

/-- a `SwComponentType` of a package: a composition, or another component type (which has no connector methods) -/
structure Swc where
  name : String
  comp : Option Composition

/-- a package: its component types and its sub-packages -/
inductive SwcPkg
  | mk (swcs : List Swc) (subs : List SwcPkg)

/-- the loop over `parent.getSwComponentTypes()`, `connector_xlsx_parser.py:188-190` -/
def updateSwcs (H : Hier) (n : String) (rows : List ConnRow) : List Swc → Except PyErr (List Swc)
  | [] => .ok []
  | c :: r =>
    if c.name = n then
      match c.comp with
      | none => .error .attributeError
      | some s => match s.update H rows with
        | .error x => .error x
        | .ok s' => (updateSwcs H n rows r).map ({ c with comp := some s' } :: ·)
    else (updateSwcs H n rows r).map (c :: ·)

mutual
/-- `_locateCompositionSwComponent`, `connector_xlsx_parser.py:187-192` -/
def locate (H : Hier) (n : String) (rows : List ConnRow) : SwcPkg → Except PyErr SwcPkg
  | .mk swcs subs => match updateSwcs H n rows swcs with
    | .error x => .error x
    | .ok swcs' => (locateAll H n rows subs).map (.mk swcs')
def locateAll (H : Hier) (n : String) (rows : List ConnRow) : List SwcPkg → Except PyErr (List SwcPkg)
  | [] => .ok []
  | p :: r => match locate H n rows p with
    | .error x => .error x
    | .ok p' => (locateAll H n rows r).map (p' :: ·)
end

/-- `ConnectorXlsReader.update`, `connector_xlsx_parser.py:194-197`: `table` is `self.sw_connectors` -/
def updateDoc (H : Hier) : List (String × List ConnRow) → List SwcPkg → Except PyErr (List SwcPkg)
  | [], d => .ok d
  | (n, rows) :: t, d => match locateAll H n rows d with
    | .error x => .error x
    | .ok d' => updateDoc H t d'

/-! ### Reading the tables -/

/-- `getColumnTitles`, `excel_parser.py:16-20`: `cols` is the dictionary title → column; the title row is scanned from
the left, so the last column with a title wins; a title of the dictionary that the sheet does not have keeps what it had -/
def columnTitles (cols : List (String × Int)) : Nat → List Cell → List (String × Int)
  | _, [] => cols
  | i, c :: r => columnTitles (cols.map fun p => if c = some p.1 then (p.1, (i : Int)) else p) (i + 1) r

/-- `checkColumnTitles`, `excel_parser.py:22-25` -/
def titlesFound (cols : List (String × Int)) : Bool := cols.all fun p => p.2 != -1

/-- `row[column_list[title]]` -/
def cellAt (cols : List (String × Int)) (title : String) (row : List Cell) : Except PyErr Cell :=
  match cols.lookup title with
  | none => .error .keyError
  | some i =>
    match row[i.toNat]? with
    | none => .error .indexError
    | some c => .ok c

/-- the `-1` entries of `__init__`, `connector_xlsx_parser.py:43-58` -/
def delegationTitles : List String := ["Short Name", "Inner SW-C", "Inner PPort", "Outer PPort", "Inner RPort", "Outer RPort"]
def assemblyTitles : List String := ["Short Name", "Provide SW-C", "PPort", "Request SW-C", "RPort"]

/-- the cell of the short name; an empty cell would give `None` as short name, which is outside the model -/
def nameAt (cols : List (String × Int)) (row : List Cell) : Except PyErr String :=
  (cellAt cols "Short Name" row).map fun c => c.getD ""

/-- the body of the loop of `readDelegationSwConnectors`, `connector_xlsx_parser.py:73-81` -/
def readDelegation (cols : List (String × Int)) (row : List Cell) : Except PyErr ConnRow := do
  let n ← nameAt cols row
  let c ← cellAt cols "Inner SW-C" row
  let ip ← cellAt cols "Inner PPort" row
  let ir ← cellAt cols "Inner RPort" row
  let op ← cellAt cols "Outer PPort" row
  let orr ← cellAt cols "Outer RPort" row
  pure (.delegation n c ip op ir orr)

/-- the body of the loop of `readAssemblySwConnectors`, `connector_xlsx_parser.py:86-93` -/
def readAssembly (cols : List (String × Int)) (row : List Cell) : Except PyErr ConnRow := do
  let n ← nameAt cols row
  let ps ← cellAt cols "Provide SW-C" row
  let pp ← cellAt cols "PPort" row
  let rs ← cellAt cols "Request SW-C" row
  let rp ← cellAt cols "RPort" row
  pure (.assembly n ps pp rs rp)

/-- which of the two kinds of sheet: `AC` or `DC` -/
inductive SheetKind | ac | dc
  deriving DecidableEq, Repr

structure Sheet where
  /-- the two groups of `re.match(r"(\w+)\s+-\s+(AC|DC)", name)`, `connector_xlsx_parser.py:116`; sheets that do not match are skipped -/
  swc : String
  kind : SheetKind
  /-- the title row and the rows below -/
  titles : List Cell
  rows : List (List Cell)
  deriving DecidableEq, Repr

/-- `ConnectorXlsReader`: the two column dictionaries, which are kept from sheet to sheet, and the connectors per composition -/
structure XlsReader where
  dcCols : List (String × Int)
  acCols : List (String × Int)
  table : List (String × List ConnRow)
  deriving DecidableEq, Repr

/-- `ConnectorXlsReader.__init__` -/
def XlsReader.new : XlsReader := ⟨delegationTitles.map (·, -1), assemblyTitles.map (·, -1), []⟩

/-- `getSwConnectorList(swc)` and appending to the list it returns, `connector_xlsx_parser.py:65-68` -/
def addTo (t : List (String × List ConnRow)) (n : String) (l : List ConnRow) : List (String × List ConnRow) :=
  match t with
  | [] => [(n, l)]
  | (k, v) :: r => if k = n then (k, v ++ l) :: r else (k, v) :: addTo r n l

/-- `parseDelegationSWConnectors`, `parseAssemblySWConnectors`, `connector_xlsx_parser.py:96-108` -/
def XlsReader.sheet (x : XlsReader) (s : Sheet) : Except PyErr XlsReader :=
  match s.kind with
  | .dc =>
    let cols := columnTitles x.dcCols 0 s.titles
    if titlesFound cols then
      (s.rows.mapM (readDelegation cols)).map fun l => { x with dcCols := cols, table := addTo x.table s.swc l }
    else .error .valueError
  | .ac =>
    let cols := columnTitles x.acCols 0 s.titles
    if titlesFound cols then
      (s.rows.mapM (readAssembly cols)).map fun l => { x with acCols := cols, table := addTo x.table s.swc l }
    else .error .valueError

/-- the loop of `read`, `connector_xlsx_parser.py:115-123` -/
def XlsReader.sheets (x : XlsReader) : List Sheet → Except PyErr XlsReader
  | [] => .ok x
  | s :: r => match x.sheet s with
    | .error e => .error e
    | .ok x' => x'.sheets r

/-! ### The report -/

/-- the row of an assembly connector, `connector_xls_report.py:33-40`; an attribute the object does not have raises
`AttributeError` -/
def reportAssembly (s : Composition) (e : Elem) : Except PyErr (List Cell) :=
  match s.attrs e.id k!"provider_iref", s.attrs e.id k!"requester_iref" with
  | some (.iref true c p), some (.iref false c' p') => .ok [some e.name, c, p, c', p']
  | _, _ => .error .attributeError

/-- the row of a delegation connector, `connector_xls_report.py:50-68`; a cell that is not written is empty -/
def reportDelegation (s : Composition) (e : Elem) : Except PyErr (List Cell) :=
  match s.attrs e.id k!"inner_port_iref", s.attrs e.id k!"outer_port_ref" with
  | some (.iref b c p), some (.ref b' o) => .ok [some e.name, c, if b then p else none, if b' then o else none,
      if b then none else p, if b' then none else o]
  | _, _ => .error .attributeError

/-- `_write_assembly_sw_connection`, `connector_xls_report.py:27-42`, for the composition named `n` -/
def reportAC (H : Hier) (n : String) (s : Composition) : Except PyErr Sheet :=
  ((s.typedConnectors H k!"AssemblySwConnector").mapM (reportAssembly s)).map fun rows =>
    ⟨n, .ac, ["Short Name", "Provide SW-C", "PPort", "Request SW-C", "RPort"].map some, rows⟩

/-- `_write_delegation_sw_connection`, `connector_xls_report.py:44-70` -/
def reportDC (H : Hier) (n : String) (s : Composition) : Except PyErr Sheet :=
  ((s.typedConnectors H k!"DelegationSwConnector").mapM (reportDelegation s)).map fun rows =>
    ⟨n, .dc, ["Short Name", "Inner SW-C", "Inner PPort", "Outer PPort", "Inner RPort", "Outer RPort"].map some, rows⟩

end Verif.Model
