import Mathlib.Data.Nat.Digits.Defs
import Verif.Model.Document
import Verif.Model.FileList
/-!
# The saved file: text and tree

`saveToFile` and `patch_xml` of `writer/abstract_arxml_writer.py:154-176`, with the parts of Python's standard library they
call: `ElementTree.tostring`, `minidom.parseString`, `toprettyxml` (as in Python 3.11) and the XML parser (expat) behind
`minidom.parseString` and `ElementTree.parse`.

Simplifications:
* The parser knows elements, attributes, character data, the five predefined entities, character references, an XML
  declaration, comments, processing instructions and CDATA sections.  Document types are rejected.
* A parameter says whether comments, processing instructions and CDATA sections are accepted.  `ElementTree.parse` accepts
  them and drops them (of a CDATA section it keeps the text).  `minidom` keeps them as nodes, which `El` does not have;
  the writer never writes them, so nothing depends on the parameter when a file is saved.
* Which characters beyond ASCII may occur in names is a parameter.  Encoding to UTF-8 and decoding it are left out.
* Namespaces are resolved as described in `Model/Document.lean`: the attributes `xmlns` and `xmlns:xsi` of the root are
  written, and dropped when the file is read.
-/
namespace Verif.Model

/-- `name`, `attrib`, `text`, children and `tail` of an `ElementTree.Element`.  A DOM element whose children are elements
and texts has the same form: the text before the first child element and the text after each of them. -/
inductive El
  | mk (name : Str) (attrs : List (Str × Str)) (text : Str) (kids : List El) (tail : Str)

namespace El
def name : El → Str | mk n _ _ _ _ => n
def attrs : El → List (Str × Str) | mk _ a _ _ _ => a
def text : El → Str | mk _ _ s _ _ => s
def kids : El → List El | mk _ _ _ k _ => k
def tail : El → Str | mk _ _ _ _ t => t
def withTail (t : Str) : El → El | mk n a s k _ => mk n a s k t
end El

/-! ### Writing: `ElementTree.tostring` -/

/-- `s.replace(x, y)` for a single character `x` -/
def replaceChar (x : Char) (y : Str) (s : Str) : Str := s.flatMap fun c => if c = x then y else [c]

/-- `ElementTree._escape_cdata` -/
def etText (s : Str) : Str :=
  replaceChar '>' "&gt;".toList <| replaceChar '<' "&lt;".toList <| replaceChar '&' "&amp;".toList s

/-- `ElementTree._escape_attrib` -/
def etAttr (s : Str) : Str :=
  replaceChar '\t' "&#09;".toList <| replaceChar '\n' "&#10;".toList <| replaceChar '\r' "&#13;".toList <|
  replaceChar '"' "&quot;".toList <| replaceChar '>' "&gt;".toList <| replaceChar '<' "&lt;".toList <|
  replaceChar '&' "&amp;".toList s

/-- ` name="value"` for each attribute -/
def attrText (esc : Str → Str) (as : List (Str × Str)) : Str :=
  as.flatMap fun a => ' ' :: a.1 ++ '=' :: '"' :: esc a.2 ++ ['"']

mutual
/-- `ElementTree._serialize_xml` with `short_empty_elements=False` -/
def etWrite : El → Str
  | .mk n as tx kids tl => '<' :: n ++ attrText etAttr as ++ '>' :: etText tx ++ etWrites kids ++ '<' :: '/' :: n ++ '>' :: etText tl
def etWrites : List El → Str
  | [] => []
  | e :: l => etWrite e ++ etWrites l
end

/-- the XML declaration of `tostring(..., xml_declaration=True)` -/
def etHead : Str := "<?xml version='1.0' encoding='UTF-8'?>\n".toList

/-! ### Writing: `toprettyxml(indent="  ")` -/

/-- `minidom._write_data` -/
def domData (s : Str) : Str :=
  replaceChar '>' "&gt;".toList <| replaceChar '"' "&quot;".toList <| replaceChar '<' "&lt;".toList <|
  replaceChar '&' "&amp;".toList s

/-- `minidom.Text.writexml` with `newl="\n"`; an empty text is not a node -/
def domText (indent s : Str) : Str := if s = [] then [] else domData (indent ++ s ++ ['\n'])

mutual
/-- `minidom.Element.writexml` with `addindent="  "`, `newl="\n"` -/
def domWrite (indent : Str) : El → Str
  | .mk n as tx kids _ =>
    indent ++ '<' :: n ++ attrText domData as ++
      (match kids with
       | [] => if tx = [] then ['/', '>', '\n'] else '>' :: domData tx ++ '<' :: '/' :: n ++ ['>', '\n']
       | e :: l => '>' :: '\n' :: domText (indent ++ [' ', ' ']) tx ++ domWrites (indent ++ [' ', ' ']) (e :: l) ++
           indent ++ '<' :: '/' :: n ++ ['>', '\n'])
/-- the child nodes: every element and the text after it -/
def domWrites (indent : Str) : List El → Str
  | [] => []
  | e :: l => domWrite indent e ++ domText indent e.tail ++ domWrites indent l
end

/-- the XML declaration of `toprettyxml(encoding="UTF-8")` -/
def domHead : Str := "<?xml version=\"1.0\" encoding=\"UTF-8\"?>\n".toList

/-! ### `patch_xml` -/

/-- `\<([\w-]+)\/\>` at the beginning of the text: the name and what follows the match -/
def emptyTag (py : Py) (s : Str) : Option (Str × Str) :=
  Re.lit '<' s fun s => Re.cap (Re.plus fun c => py.word c || c == '-') s fun n s =>
    (Re.seq (Re.lit '/') (Re.lit '>')) s fun s => some (n, s)

/-- `re.sub(r"\<([\w-]+)\/\>", r"<\1></\1>", s)`; the first argument bounds the number of steps -/
def expandGo (py : Py) : Nat → Str → Str
  | 0, s => s
  | _, [] => []
  | n + 1, c :: s => match emptyTag py (c :: s) with
    | some (m, r) => '<' :: m ++ '>' :: '<' :: '/' :: m ++ '>' :: expandGo py n r
    | none => c :: expandGo py n s

/-- `abstract_arxml_writer.py:155` -/
def expand (py : Py) (s : Str) : Str := expandGo py s.length s

/-- `s.replace(x, y)` for a text `x`; the first argument bounds the number of steps -/
def replaceGo (x y : Str) : Nat → Str → Str
  | 0, s => s
  | _, [] => []
  | n + 1, c :: s => if x.isPrefixOf (c :: s) then y ++ replaceGo x y n ((c :: s).drop x.length) else c :: replaceGo x y n s

def replaceAll (x y s : Str) : Str := replaceGo x y s.length s

/-- `patch_xml`, `abstract_arxml_writer.py:154-161`; `unescape` is the option `unescape_entities` -/
def patchXml (py : Py) (unescape : Bool) (s : Str) : Str :=
  let s := expand py s
  if unescape then replaceAll "&apos;".toList ['\''] (replaceAll "&quot;".toList ['"'] s) else s

/-! ### Reading: the XML parser -/

/-- XML 1.0, production `Char` (surrogates are no characters) -/
def xmlChar (c : Char) : Bool :=
  c.toNat == 9 || c.toNat == 10 || c.toNat == 13 || (32 ≤ c.toNat && c.toNat != 0xFFFE && c.toNat != 0xFFFF)

/-- characters of names; what is beyond ASCII is a parameter.  `marks`: comments, processing instructions and CDATA sections
are accepted -/
structure NameChars where
  marks : Bool
  start : Char → Bool
  char : Char → Bool
  start_char : ∀ c, start c = true → char c = true
  start_ascii : ∀ c, c.toNat < 128 → start c = ((asciiWord c && !asciiDigit c) || c == ':')
  char_ascii : ∀ c, c.toNat < 128 → char c = (asciiWord c || c == '-' || c == '.' || c == ':')
  char_xml : ∀ c, char c = true → xmlChar c = true

/-- the same characters, no comments, processing instructions and CDATA sections -/
def NameChars.plain (nc : NameChars) : NameChars := { nc with marks := false }

/-- ASCII only -/
def NameChars.ascii : NameChars where
  marks := true
  start c := (asciiWord c && !asciiDigit c) || c == ':'
  char c := asciiWord c || c == '-' || c == '.' || c == ':'
  start_char := by
    intro c h
    simp only [Bool.or_eq_true, Bool.and_eq_true] at h ⊢
    rcases h with h | h
    · exact .inl (.inl (.inl h.1))
    · exact .inr h
  start_ascii := fun _ _ => rfl
  char_ascii := fun _ _ => rfl
  char_xml := by
    intro c h
    have hc : c.toNat < 128 ∧ 32 ≤ c.toNat := by
      simp only [asciiWord, Bool.or_eq_true, Bool.and_eq_true, decide_eq_true_eq, beq_iff_eq] at h
      rcases h with ((h | h) | h) | h
      · omega
      all_goals subst h; decide
    simp only [xmlChar, Bool.or_eq_true, Bool.and_eq_true, decide_eq_true_eq, beq_iff_eq, bne_iff_ne]
    omega

/-- XML 1.0, production `S` -/
def xmlSpace (c : Char) : Bool := c == ' ' || c == '\t' || c == '\n' || c == '\r'

/-- decimal digits -/
def decimal : Str → Option Nat
  | [] => none
  | s => s.foldl (fun a c => a.bind fun n => if asciiDigit c then some (n * 10 + (c.toNat - 48)) else none) (some 0)

def hexDigit (c : Char) : Option Nat :=
  if asciiDigit c then some (c.toNat - 48)
  else if 97 ≤ c.toNat ∧ c.toNat ≤ 102 then some (c.toNat - 87)
  else if 65 ≤ c.toNat ∧ c.toNat ≤ 70 then some (c.toNat - 55)
  else none

def hexadecimal : Str → Option Nat
  | [] => none
  | s => s.foldl (fun a c => a.bind fun n => (hexDigit c).map (n * 16 + ·)) (some 0)

/-- the character with a number -/
def charOf (n : Nat) : Option Char := if n.isValidChar ∧ xmlChar (Char.ofNat n) then some (Char.ofNat n) else none

/-- the character `&name;` stands for -/
def entity (e : Str) : Option Char :=
  if e = "amp".toList then some '&'
  else if e = "lt".toList then some '<'
  else if e = "gt".toList then some '>'
  else if e = "quot".toList then some '"'
  else if e = "apos".toList then some '\''
  else match e with
    | '#' :: 'x' :: s => (hexadecimal s).bind charOf
    | '#' :: s => (decimal s).bind charOf
    | _ => none

/-- replaces references; the first argument is what becomes of a literal character, the second the reference that is being
read (reversed) -/
def decodeGo (lit : Char → Char) : Option Str → Str → Option Str
  | none, [] => some []
  | some _, [] => none
  | none, c :: s => if c = '&' then decodeGo lit (some []) s else (decodeGo lit none s).map (lit c :: ·)
  | some e, c :: s =>
    if c = ';' then (entity e.reverse).bind fun x => (decodeGo lit none s).map (x :: ·) else decodeGo lit (some (c :: e)) s

/-- `]]>` is not allowed in character data -/
def hasCdataEnd : Str → Bool
  | [] => false
  | c :: s => "]]>".toList.isPrefixOf (c :: s) || hasCdataEnd s

/-- character data -/
def decodeText (s : Str) : Option Str := if hasCdataEnd s then none else decodeGo id none s

/-- XML 1.0, 3.3.3: white space in an attribute value becomes a blank, unless it is a character reference -/
def toBlank (c : Char) : Char := if xmlSpace c then ' ' else c

/-- an attribute value -/
def decodeAttr (s : Str) : Option Str := decodeGo toBlank none s

/-- an element whose end tag was not read yet; its children are reversed -/
structure Frame where
  name : Str
  attrs : List (Str × Str)
  text : Str
  kids : List El

/-- where the parser is; texts that are not complete are reversed -/
inductive Mode
  /-- in character data -/
  | content (raw : Str)
  /-- after `<` -/
  | lt
  /-- in the name of a start tag -/
  | name (n : Str)
  /-- in a start tag, after white space -/
  | tag (n : Str) (as : List (Str × Str))
  /-- in the name of an attribute -/
  | attr (n : Str) (as : List (Str × Str)) (a : Str)
  /-- after the name of an attribute and white space -/
  | eq (n : Str) (as : List (Str × Str)) (a : Str)
  /-- after `=` -/
  | quote (n : Str) (as : List (Str × Str)) (a : Str)
  /-- in an attribute value -/
  | value (n : Str) (as : List (Str × Str)) (a : Str) (q : Char) (raw : Str)
  /-- after an attribute value -/
  | closed (n : Str) (as : List (Str × Str))
  /-- after `/` at the end of a start tag -/
  | slash (n : Str) (as : List (Str × Str))
  /-- in the name of an end tag -/
  | cname (n : Str)
  /-- in an end tag, after white space -/
  | cend (n : Str)
  /-- after `<!` -/
  | bang
  /-- after `<!-` -/
  | dash
  /-- in a comment, after so many hyphens -/
  | comment (hyphens : Nat)
  /-- in the target of a processing instruction -/
  | target (n : Str)
  /-- in a processing instruction; was the last character a question mark? -/
  | inst (q : Bool)
  /-- after a question mark behind the target of a processing instruction -/
  | instEnd
  /-- at the beginning of a CDATA section, before what is missing of `<![CDATA[` -/
  | section (missing : Str)
  /-- in a CDATA section -/
  | cdata (raw : Str)

structure PState where
  stack : List Frame
  root : Option El
  mode : Mode

/-- character data is put where `ElementTree.TreeBuilder` puts it: in `text`, or in `tail` of the last child -/
def Frame.addText (t : Str) (f : Frame) : Frame :=
  match f.kids with
  | [] => { f with text := f.text ++ t }
  | e :: l => { f with kids := e.withTail (e.tail ++ t) :: l }

/-- the end of character data; outside the root element only white space is allowed -/
def flush (st : PState) (raw : Str) : Option (List Frame) :=
  match st.stack with
  | [] => if raw.all xmlSpace then some [] else none
  | f :: l => (decodeText raw.reverse).map fun t => f.addText t :: l

/-- a start tag; there is only one root element -/
def openEl (stack : List Frame) (root : Option El) (n : Str) (as : List (Str × Str)) : Option PState :=
  if stack.isEmpty && root.isSome then none else some ⟨⟨n, as, [], []⟩ :: stack, root, .content []⟩

/-- an end tag -/
def closeEl (stack : List Frame) (root : Option El) (n : Str) : Option PState :=
  match stack with
  | [] => none
  | f :: l =>
    if f.name = n then
      let e := El.mk f.name f.attrs f.text f.kids.reverse []
      match l with
      | [] => some ⟨[], some e, .content []⟩
      | g :: r => some ⟨{ g with kids := e :: g.kids } :: r, root, .content []⟩
    else none

/-- the targets `xml`, `XML`, … are reserved -/
def reserved (n : Str) : Bool := n.map (fun c => if 65 ≤ c.toNat ∧ c.toNat ≤ 90 then Char.ofNat (c.toNat + 32) else c) == "xml".toList

/-- the end of a CDATA section; outside the root element it is not allowed -/
def endCdata (st : PState) (t : Str) : Option PState :=
  match st.stack with
  | [] => none
  | f :: l => some ⟨f.addText t :: l, st.root, .content []⟩

/-- the parser reads a character -/
def step (nc : NameChars) (st : PState) (c : Char) : Option PState :=
  match st.mode with
  | .content raw =>
    if c = '<' then (flush st raw).map fun l => ⟨l, st.root, .lt⟩ else some { st with mode := .content (c :: raw) }
  | .lt =>
    if c = '/' then some { st with mode := .cname [] }
    else if nc.start c then some { st with mode := .name [c] }
    else if nc.marks && c == '!' then some { st with mode := .bang }
    else if nc.marks && c == '?' then some { st with mode := .target [] } else none
  | .name n =>
    if nc.char c then some { st with mode := .name (c :: n) }
    else if xmlSpace c then some { st with mode := .tag n.reverse [] }
    else if c = '>' then openEl st.stack st.root n.reverse []
    else if c = '/' then some { st with mode := .slash n.reverse [] }
    else none
  | .tag n as =>
    if xmlSpace c then some st
    else if c = '>' then openEl st.stack st.root n as
    else if c = '/' then some { st with mode := .slash n as }
    else if nc.start c then some { st with mode := .attr n as [c] }
    else none
  | .attr n as a =>
    if nc.char c then some { st with mode := .attr n as (c :: a) }
    else if xmlSpace c then some { st with mode := .eq n as a.reverse }
    else if c = '=' then some { st with mode := .quote n as a.reverse }
    else none
  | .eq n as a =>
    if xmlSpace c then some st
    else if c = '=' then some { st with mode := .quote n as a }
    else none
  | .quote n as a =>
    if xmlSpace c then some st
    else if c = '"' ∨ c = '\'' then some { st with mode := .value n as a c [] }
    else none
  | .value n as a q raw =>
    if c = '<' then none
    else if c = q then
      if a ∈ as.map Prod.fst then none
      else (decodeAttr raw.reverse).map fun v => { st with mode := .closed n (as ++ [(a, v)]) }
    else some { st with mode := .value n as a q (c :: raw) }
  | .closed n as =>
    if xmlSpace c then some { st with mode := .tag n as }
    else if c = '>' then openEl st.stack st.root n as
    else if c = '/' then some { st with mode := .slash n as }
    else none
  | .slash n as =>
    if c = '>' then (openEl st.stack st.root n as).bind fun s => closeEl s.stack s.root n else none
  | .cname n =>
    if nc.char c then some { st with mode := .cname (c :: n) }
    else if xmlSpace c then some { st with mode := .cend n.reverse }
    else if c = '>' then closeEl st.stack st.root n.reverse
    else none
  | .cend n =>
    if xmlSpace c then some st
    else if c = '>' then closeEl st.stack st.root n
    else none
  | .bang =>
    if c = '-' then some { st with mode := .dash }
    else if c = '[' then some { st with mode := .section "CDATA[".toList } else none
  | .dash => if c = '-' then some { st with mode := .comment 0 } else none
  | .comment k =>
    if k = 2 then if c = '>' then some { st with mode := .content [] } else none
    else if c = '-' then some { st with mode := .comment (k + 1) } else some { st with mode := .comment 0 }
  | .target n =>
    if (if n = [] then nc.start c else nc.char c) then some { st with mode := .target (c :: n) }
    else if n = [] ∨ reserved n.reverse then none
    else if xmlSpace c then some { st with mode := .inst false }
    else if c = '?' then some { st with mode := .instEnd } else none
  | .inst q => if q && c == '>' then some { st with mode := .content [] } else some { st with mode := .inst (c == '?') }
  | .instEnd => if c = '>' then some { st with mode := .content [] } else none
  | .section m =>
    match m with
    | [] => none
    | [x] => if c = x then some { st with mode := .cdata [] } else none
    | x :: y :: m => if c = x then some { st with mode := .section (y :: m) } else none
  | .cdata raw =>
    match c, raw with
    | '>', ']' :: ']' :: t => endCdata st t.reverse
    | _, _ => some { st with mode := .cdata (c :: raw) }

def run (nc : NameChars) : PState → Str → Option PState
  | st, [] => some st
  | st, c :: s => (step nc st c).bind fun st' => run nc st' s

/-- what follows `?>` -/
def afterDecl : Str → Option Str
  | [] => none
  | c :: s => if "?>".toList.isPrefixOf (c :: s) then some (s.drop 1) else afterDecl s

/-- what follows the XML declaration -/
def skipDecl (s : Str) : Option Str := if "<?xml ".toList.isPrefixOf s then afterDecl s else some s

/-- the root element when the text ends -/
def finish (st : PState) : Option El :=
  match st.stack, st.root, st.mode with
  | [], some e, .content raw => if raw.all xmlSpace then some e else none
  | _, _, _ => none

/-- `ElementTree.parse` and `minidom.parseString`; line ends are normalised first (XML 1.0, 2.11) -/
def parseXml (nc : NameChars) (s : Str) : Option El :=
  let t := newlines s
  if t.all xmlChar then (skipDecl t).bind fun u => (run nc ⟨[], none, .content []⟩ u).bind finish else none

/-! ### Trees and files -/

/-- the name a key stands for -/
def keyName (k : Key) : Str := ((Nat.digits 256 k).map Char.ofNat).reverse

/-- the key of a name; names with other characters than those of Latin-1, of which the tables have none, get keys of their own -/
def keyOf (s : Str) : Key :=
  if s.all fun c => decide (c.toNat < 256) then s.foldl (fun a c => a * 256 + c.toNat) 0
  else s.foldl (fun a c => a * 1114112 + c.toNat) 1 * 65536 + 1

mutual
/-- the element `save` builds -/
def Xml.toEl : Xml → El
  | .node t as s kids => .mk (keyName t) (as.map fun a => (keyName a.1, a.2)) s (Xml.toEls kids) []
def Xml.toEls : List Xml → List El
  | [] => []
  | x :: l => x.toEl :: Xml.toEls l
end

/-- the namespaces of the root, `arxml_writer.py:9623-9624` -/
def namespaces : List (Str × Str) :=
  [("xmlns".toList, "http://autosar.org/schema/r4.0".toList), ("xmlns:xsi".toList, "http://www.w3.org/2001/XMLSchema-instance".toList)]

def isXmlns (n : Str) : Bool := n == "xmlns".toList || "xmlns:".toList.isPrefixOf n

mutual
/-- the element `load` gets: namespaces are resolved, tails are not looked at -/
def El.toXml : El → Xml
  | .mk n as s kids _ => .node (keyOf n) ((as.filter fun a => !isXmlns a.1).map fun a => (keyOf a.1, a.2)) s (El.toXmls kids)
def El.toXmls : List El → List Xml
  | [] => []
  | x :: l => x.toXml :: El.toXmls l
end

/-- the root with its namespaces -/
def El.withNamespaces : El → El
  | .mk n as s kids t => .mk n (namespaces ++ as) s kids t

/-- `saveToFile`, `abstract_arxml_writer.py:163-176`: the content of the file, `none` when `minidom.parseString` raises an
exception -/
def saveToFile (py : Py) (nc : NameChars) (unescape : Bool) (x : Xml) : Option Str :=
  (parseXml nc (etHead ++ etWrite x.toEl.withNamespaces)).map fun dom => patchXml py unescape (domHead ++ domWrite [] dom)

/-- `ET.parse(filename).getroot()`, `arxml_parser.py:9415-9416`, `none` when it raises an exception -/
def parseFile (nc : NameChars) (s : Str) : Option Xml := (parseXml nc s).map El.toXml

end Verif.Model
