import Verif.Model.Xml
import Verif.Model.Prim
/-!
# Reading and writing scalars

The accessors of `parser/abstract_arxml_parser.py` and `writer/abstract_arxml_writer.py`: what is made of the element
that was found, and which element is written for a value.

Simplification: `None` and the empty text are the same text of an element (an element without text is written as
`<A></A>` and read as `None`).
-/
namespace Verif.Model
open Re

/-- A scalar value of the model.  `t` and `u` are the attributes `timestamp` and `uuid` of `ARObject`. -/
inductive Scalar (F : Type)
  /-- `ARLiteral` and its subclasses (`Identifier`, `VerbatimString`, `RevisionLabelString`, the enumerations, ...) -/
  | lit (t u : Option Str) (v : Str)
  /-- `ARNumerical`, `Integer`, `PositiveInteger`, `ARFloat`, `TimeValue`; `sl` is `shortLabel` -/
  | num (c : PObj.Cls) (t u sl : Option Str) (o : PObj F)
  /-- `Boolean` -/
  | bool (t u : Option Str) (o : PBool.BObj)
  /-- `Limit` -/
  | limit (t u iv : Option Str) (v : Str)
  /-- `RefType` -/
  | ref (base dest : Option Str) (v : Str)
  /-- a Python string -/
  | str (v : Str)

/-- the kinds of accessors of the reader -/
inductive RKind
  /-- `getChildElementOptionalLiteral`, `getChildElementLiteral`, `getChildElementOptionalIdentifier`,
  `getChildElementOptionalVerbatimString`, `getChildElementOptionalDataTime` -/
  | lit
  /-- `getChildElementLiteralValueList`; `SomeEnum().setValue(element.text)` -/
  | litPlain
  /-- `if element.text is not None: String().setValue(element.text)` -/
  | litText
  /-- `if element.text is not None and element.text.strip() != "": X().setValue(element.text)` -/
  | litNonblank
  /-- `getChildElementOptionalRevisionLabelString` -/
  | revision
  /-- `getChildElementOptionalFloatValue` -/
  | float
  /-- `getChildElementFloatValueList` -/
  | floats
  /-- `getChildElementOptionalTimeValue` -/
  | time
  /-- `getChildElementOptionalBooleanValue` -/
  | boolean
  /-- `getChildElementOptionalNumericalValue` -/
  | numerical
  /-- `getChildElementOptionalIntegerValue` -/
  | integer
  /-- `getChildElementOptionalPositiveInteger` -/
  | positive
  /-- `getChildElementNumericalValueList` -/
  | numericals
  /-- `getChildLimitElement` -/
  | limit
  /-- `getChildElementOptionalRefType`, `getChildElementRefType`, `getChildElementRefTypeList` -/
  | ref
  /-- `getChildElementOptionalRefType` of a com spec that ports only accept with this `DEST` (`_validateRPortComSpec`,
  `SWComponentTemplate/Components/__init__.py:312-333,358-380`) -/
  | refTo (dest : Str)
  /-- `RefType().setDest(element.text)` -/
  | refDest
  /-- `setX(element.text)` -/
  | raw
  /-- `if element.text is not None and element.text.strip() != "": setX(element.text)` -/
  | rawNonblank
  deriving DecidableEq, Repr

variable (py : Py)

/-- `x = Cls(); x.setValue(text)` for a non-empty text -/
def parseNum (c : PObj.Cls) (s : Str) : Except PyErr (PObj py.F) :=
  match PObj.setValue py c PObj.new (.str s) with
  | (o, none) => .ok o
  | (_, some e) => .error e

/-- the same for a text that may be `None`, which `setValue` ignores (`PrimitiveTypes.py:49-62`) -/
def parseNum? (c : PObj.Cls) (s : Str) : Except PyErr (PObj py.F) :=
  if s = [] then .ok PObj.new else parseNum py c s

/-- `getValue() < 0` -/
def negative : PVal py.F → Bool
  | .num (.int i) => decide (i < 0)
  | .num (.flt f) => py.ltZero f
  | _ => false

/-- `text.strip() == ""` -/
def blank (s : Str) : Bool := s.all py.space

/-- what an accessor of the reader makes of the element it found (`none`: `None`).
`abstract_arxml_parser.py`: `lit` `:93-100`, `:111-148`, `:167-168`; `litPlain` `:102-109`; `revision` `:150-165`;
`float` `:175-182`; `floats` `:184-191`; `time` `:193-199`; `boolean` `:210-219`; `numerical` `:227-236`;
`integer` `:238-245`; `positive` `:247-258`; `numericals` `:260-267`; `limit` `:269-280`; `ref` `:282-314`;
attributes `:316-325`. -/
def readKind (k : RKind) (x : Xml) : Except PyErr (Option (Scalar py.F)) :=
  let t := x.attr k!"T"
  let u := x.attr k!"UUID"
  match k with
  | .lit => .ok (some (.lit t u x.text))
  | .litPlain => .ok (some (.lit none none x.text))
  | .litText => if x.text = [] then .ok none else .ok (some (.lit none none x.text))
  | .litNonblank => if blank py x.text then .ok none else .ok (some (.lit none none x.text))
  | .revision =>
    if x.text = [] then .ok none
    else if test reRevision x.text then .ok (some (.lit t u x.text)) else .error .valueError
  | .float =>
    if x.text = [] then .ok none
    else match parseNum py .float x.text with
      | .ok o => .ok (some (.num .float t u none o))
      | .error e => .error e
  | .floats => match parseNum? py .float x.text with
    | .ok o => .ok (some (.num .float none none none o))
    | .error e => .error e
  | .time =>
    if x.text = [] then .ok none
    else match parseNum py .float x.text with
      | .ok o => .ok (some (.num .float none none none o))
      | .error e => .error e
  | .boolean =>
    if x.text = [] then .ok none
    else match PBool.setValue py PBool.new (.str x.text) with
      | (o, none) => .ok (some (.bool t none o))
      | (_, some e) => .error e
  | .numerical => match parseNum? py .numerical x.text with
    | .ok o => .ok (some (.num .numerical t u (x.attr k!"SHORT-LABEL") o))
    | .error e => .error e
  | .integer => match parseNum? py .numerical x.text with
    | .ok o => .ok (some (.num .numerical t u none o))
    | .error e => .error e
  | .positive =>
    if x.text = [] then .ok none
    else match parseNum py .positive x.text with
      | .ok o => if negative py o.value then .error .valueError else .ok (some (.num .positive t u none o))
      | .error e => .error e
  | .numericals => match parseNum? py .numerical x.text with
    | .ok o => .ok (some (.num .numerical none none none o))
    | .error e => .error e
  | .limit => .ok (some (.limit t u (x.attr k!"INTERVAL-TYPE") x.text))
  | .ref => .ok (some (.ref (x.attr k!"BASE") (x.attr k!"DEST") x.text))
  | .refTo d => if x.attr k!"DEST" = some d then .ok (some (.ref (x.attr k!"BASE") (some d) x.text)) else .error .valueError
  | .refDest => .ok (some (.ref none (if x.text = [] then none else some x.text) []))
  | .raw => if x.text = [] then .ok none else .ok (some (.str x.text))
  | .rawNonblank => if blank py x.text then .ok none else .ok (some (.str x.text))

/-- An accessor of the reader: `child = find(element, "t1/t2/...")`, `None` if there is none. -/
def getChild (k : RKind) (ts : List Key) (x : Xml) : Except PyErr (Option (Scalar py.F)) :=
  match walk ts x with
  | [] => .ok none
  | y :: _ => readKind py k y

/-- the kinds of accessors of the writer -/
inductive WKind
  /-- `setChildElementOptionalLiteral`, `...Identifier`, `...RevisionLabelString`, `...DataTime`, `...FloatValue`,
  `...TimeValue`, `...BooleanValue` -/
  | lit
  /-- `setChildElementOptionalNumericalValue`, `...IntegerValue`, `...PositiveInteger` -/
  | numerical
  /-- `setChildElementOptionalRefType` -/
  | ref
  /-- `setChildLimitElement` -/
  | limit
  /-- `element.text = value` -/
  | raw
  /-- `element.text = value.getValue()` -/
  | getValue
  /-- `element.text = value.getText()` -/
  | getText
  deriving DecidableEq, Repr

/-- an attribute that is only written if it is set -/
def optAttr (k : Key) : Option Str → List (Key × Str)
  | none => []
  | some v => [(k, v)]

/-- `writeARObjectAttributes`, `abstract_arxml_writer.py:67-73` -/
def metaAttrs (t u : Option Str) : List (Key × Str) := optAttr k!"T" t ++ optAttr k!"UUID" u

/-- the text of an element for an optional string -/
def optText : Option Str → Str
  | none => []
  | some s => s

/-- the element written for a value that is set.  `abstract_arxml_writer.py`: `numerical` `:89-104`; `lit` `:106-110`,
`:124-152`; `ref` `:112-122`; `limit` `arxml_writer.py:829-836`.  A value of another class lacks the method that is
called.  `repr` renders floats. -/
def writeKind (repr : py.F → Str) (k : WKind) (tag : Key) (s : Scalar py.F) : Except PyErr Xml :=
  match k, s with
  | .lit, .lit t u v => .ok (.leaf tag (metaAttrs t u) v)
  | .lit, .num _ t u _ o => .ok (.leaf tag (metaAttrs t u) (o.text' repr))
  | .lit, .bool t u o => .ok (.leaf tag (metaAttrs t u) (PBool.text' o))
  | .numerical, .num _ t u sl o =>
    .ok (.leaf tag (metaAttrs t u ++ optAttr k!"SHORT-LABEL" sl) (optText (o.writtenNumerical repr)))
  | .ref, .ref b d v => .ok (.leaf tag (optAttr k!"BASE" b ++ optAttr k!"DEST" d) v)
  | .limit, .limit t u iv v => .ok (.leaf tag (metaAttrs t u ++ optAttr k!"INTERVAL-TYPE" iv) v)
  | .raw, .str v => .ok (.leaf tag [] v)
  | .getValue, .lit _ _ v => .ok (.leaf tag [] v)
  | .getValue, .ref _ _ v => .ok (.leaf tag [] v)
  | .getText, .lit _ _ v => .ok (.leaf tag [] v)
  | _, _ => .error .attributeError

/-- An accessor of the writer: the children it adds for a value, nothing for `None` (`if value is not None`, at the
start of every one of them). -/
def setChild (repr : py.F → Str) (k : WKind) (tag : Key) : Option (Scalar py.F) → Except PyErr (List Xml)
  | none => .ok []
  | some s => match writeKind py repr k tag s with
    | .error e => .error e
    | .ok y => .ok [y]

/-- The accessors of the reader and the writer that fit together. -/
def RKind.fits : RKind → WKind → Bool
  | .lit, .lit | .litPlain, .lit | .revision, .lit | .float, .lit | .time, .lit | .boolean, .lit | .positive, .lit => true
  | .numerical, .numerical | .integer, .numerical | .positive, .numerical | .numericals, .numerical => true
  | .ref, .ref | .refTo _, .ref => true
  | .limit, .limit => true
  | .raw, .raw | .rawNonblank, .raw => true
  | .litPlain, .getValue | .litText, .getValue | .litNonblank, .getValue => true
  | .litPlain, .getText => true
  | _, _ => false

/-! ## Attributes -/

/-- `BINDING_TIME_XML_MAP`, `arxml_parser.py:701`, `arxml_writer.py:666` -/
def bindingTimeMap : List (Str × Str) :=
  [("codeGenerationTime".toList, "CODE-GENERATION-TIME".toList), ("linkTime".toList, "LINK-TIME".toList),
   ("preCompileTime".toList, "PRE-COMPILE-TIME".toList), ("systemDesignTime".toList, "SYSTEM-DESIGN-TIME".toList)]

/-- `INTERVAL_TYPE_XML_MAP`, `arxml_parser.py:710`, `arxml_writer.py:675` -/
def intervalTypeMap : List (Str × Str) := [("closed".toList, "CLOSED".toList), ("open".toList, "OPEN".toList)]

inductive AMap
  | bindingTime | intervalType
  deriving DecidableEq, Repr

def AMap.map : AMap → List (Str × Str)
  | .bindingTime => bindingTimeMap
  | .intervalType => intervalTypeMap

/-- how the reader takes an attribute -/
inductive AKind
  /-- `x.setY(element.attrib[k])`, `x.timestamp = ...` -/
  | raw
  /-- `x.setY(String().setValue(element.attrib[k]))` (any subclass of `ARLiteral`) -/
  | lit
  /-- through a table (`arxml_parser.py:812-820`, `:2022-2032`, `:2038-2047`) -/
  | mapped (m : AMap)
  deriving DecidableEq, Repr

/-- reading an attribute that is there; `strict` is `not options["warning"]` -/
def readAttr (strict : Bool) (k : AKind) (v : Str) : Except PyErr (Option (Scalar py.F)) :=
  match k with
  | .raw => .ok (some (.str v))
  | .lit => .ok (some (.lit none none v))
  | .mapped m => match m.map.find? (fun e => e.2 == v) with
    | some e => .ok (some (.lit none none e.1))
    | none => if strict then .error .notImplemented else .ok none

/-- how the writer makes an attribute: from a string, with `getValue()`, through a table -/
inductive WAKind
  | raw | getValue
  | mapped (m : AMap)
  deriving DecidableEq, Repr

/-- the attribute written (`none`: none) -/
def writeAttr (strict : Bool) (k : WAKind) (s : Scalar py.F) : Except PyErr (Option Str) :=
  match k, s with
  | .raw, .str v => .ok (some v)
  | .getValue, .lit _ _ v => .ok (some v)
  | .mapped m, .lit _ _ v => match m.map.lookup v with
    | some e => .ok (some e)
    | none => if strict then .error .notImplemented else .ok none
  | _, _ => .error .attributeError

/-- The kinds that fit together. -/
def AKind.fits : AKind → WAKind → Bool
  | .raw, .raw => true
  | .lit, .getValue => true
  | .mapped m, .mapped m' => m == m'
  | _, _ => false

/-- The kinds that fit together when the value is the text of the element itself. -/
def RKind.fitsText : RKind → WAKind → Bool
  | .raw, .raw | .rawNonblank, .raw => true
  | .litText, .getValue | .litNonblank, .getValue => true
  | _, _ => false

end Verif.Model
