import Verif.Model.Markup
import Verif.Model.Py
/-!
# Namespaces

`ET.parse` (`arxml_parser.py:9415`) reads with `expat` in its namespace mode (`ParserCreate(encoding, "}")`): a prefix stands for the URI the
innermost `xmlns` attribute gives it, and a tag is `{URI}local` (`local` without a namespace).  `Model/Markup` keeps the names of the file;
here they are resolved.

Simplifications:
* A processing instruction whose target has a colon is not rejected.
* The reader looks at children by name (`find`, `abstract_arxml_parser.py:354-365`), which only finds elements of the AUTOSAR namespace, and in
  some places by `*` and `getTagName` (`:46-51`), which does not tell an element without a namespace from one of the AUTOSAR namespace.  A tree
  with an element without a namespace inside an element of the AUTOSAR namespace other than the root is outside of the model.
-/
namespace Verif.Model
open Verif

/-- the AUTOSAR namespace, `abstract_arxml_parser.py:39` -/
def arUri : Str := "http://autosar.org/schema/r4.0".toList
/-- `abstract_arxml_parser.py:342` -/
def xsiUri : Str := "http://www.w3.org/2001/XMLSchema-instance".toList
/-- `arxml_writer.py:724` -/
def xmlUri : Str := "http://www.w3.org/XML/1998/namespace".toList
def xmlnsUri : Str := "http://www.w3.org/2000/xmlns/".toList

/-- an element whose name and attribute names are resolved: `{uri}local`, no namespace if the URI is empty -/
inductive NsEl
  | mk (uri loc : Str) (attrs : List ((Str × Str) × Str)) (text : Str) (kids : List NsEl)

def NsEl.uri : NsEl → Str | mk u _ _ _ _ => u
def NsEl.loc : NsEl → Str | mk _ l _ _ _ => l
def NsEl.attrs : NsEl → List ((Str × Str) × Str) | mk _ _ a _ _ => a
def NsEl.kids : NsEl → List NsEl | mk _ _ _ _ k => k

/-- prefix and local name: `expat` allows one colon, and a name on both sides of it -/
def splitName (nc : NameChars) (n : Str) : Option (Str × Str) :=
  match n.span (· != ':') with
  | (l, []) => some ([], l)
  | (p, _ :: l) => match p, l with
    | [], _ => none
    | _ :: _, [] => none
    | _ :: _, c :: r => if nc.start c && !(c :: r).contains ':' then some (p, l) else none

/-- the prefix an attribute declares -/
def declared (a : Str) : Option Str :=
  if a = "xmlns".toList then some [] else if "xmlns:".toList.isPrefixOf a && !(a.drop 6).isEmpty then some (a.drop 6) else none

/-- the prefixes in scope, the innermost first -/
abbrev Scope := List (Str × Str)

/-- what `expat` starts with -/
def scope₀ : Scope := [("xml".toList, xmlUri)]

/-- `addBinding` of `expat`: a prefix cannot be undeclared, `xml` and `xmlns` and their URIs are reserved, the URI does not have the
separator -/
def bindPrefix (sc : Scope) (p u : Str) : Option Scope :=
  if (u = [] ∧ p ≠ []) ∨ p = "xmlns".toList ∨ (decide (p = "xml".toList) != decide (u = xmlUri)) = true ∨ u = xmlnsUri ∨ '}' ∈ u then none
  else some ((p, u) :: sc)

/-- the attributes of a start tag declare prefixes -/
def bindAll : Scope → List (Str × Str) → Option Scope
  | sc, [] => some sc
  | sc, (a, v) :: as => match declared a with
    | none => bindAll sc as
    | some p => (bindPrefix sc p v).bind fun sc' => bindAll sc' as

/-- the URI of a prefix; without a default namespace, names without a prefix have none -/
def uriOf (sc : Scope) (p : Str) : Option Str :=
  match sc.lookup p with
  | some u => some u
  | none => if p = [] then some [] else none

/-- the name of an element -/
def resolveTag (nc : NameChars) (sc : Scope) (n : Str) : Option (Str × Str) :=
  (splitName nc n).bind fun pl => (uriOf sc pl.1).map fun u => (u, pl.2)

/-- the name of an attribute; the default namespace is not for attributes -/
def resolveAttr (nc : NameChars) (sc : Scope) (n : Str) : Option (Str × Str) :=
  (splitName nc n).bind fun pl => if pl.1 = [] then some ([], pl.2) else (uriOf sc pl.1).map fun u => (u, pl.2)

/-- the attributes that are not declarations; the names of all of them are checked -/
def resolveAttrs (nc : NameChars) (sc : Scope) : List (Str × Str) → Option (List ((Str × Str) × Str))
  | [] => some []
  | (a, v) :: as => match declared a with
    | some _ => (splitName nc a).bind fun _ => resolveAttrs nc sc as
    | none => (resolveAttr nc sc a).bind fun n => (resolveAttrs nc sc as).map fun bs => (n, v) :: bs

mutual
/-- an element; no attribute may come twice, also by different prefixes -/
def resolveEl (nc : NameChars) (sc : Scope) : El → Option NsEl
  | .mk n as s kids _ =>
    (bindAll sc as).bind fun sc' => (resolveTag nc sc' n).bind fun ul => (resolveAttrs nc sc' as).bind fun bs =>
      if (bs.map Prod.fst).Nodup then (resolveEls nc sc' kids).map fun ks => .mk ul.1 ul.2 bs s ks else none
def resolveEls (nc : NameChars) (sc : Scope) : List El → Option (List NsEl)
  | [] => some []
  | e :: l => (resolveEl nc sc e).bind fun x => (resolveEls nc sc l).map fun xs => x :: xs
end

/-- the tag of `ElementTree` -/
def etTag (u l : Str) : Str := if u = [] then l else '{' :: u ++ '}' :: l

/-- the key of an element other than the root -/
def tagKey (u l : Str) : Key := if u = arUri then keyOf l else if u = [] then keyOf ('{' :: '}' :: l) else keyOf (etTag u l)

/-- the key of an attribute: `Model/Document` calls `{xsi}schemaLocation` and `{xml}space` by their usual prefixes -/
def attrKey (u l : Str) : Key :=
  if u = xsiUri then keyOf ("xsi:".toList ++ l) else if u = xmlUri then keyOf ("xml:".toList ++ l) else keyOf (etTag u l)

mutual
/-- the tree the reader works on -/
def NsEl.toXml : NsEl → Xml
  | .mk u l as s kids => .node (tagKey u l) (as.map fun a => (attrKey a.1.1 a.1.2, a.2)) s (NsEl.toXmls kids)
def NsEl.toXmls : List NsEl → List Xml
  | [] => []
  | e :: l => e.toXml :: NsEl.toXmls l
end

/-- `[\w:\/.]` -/
def nsChar (py : Py) (c : Char) : Bool := py.word c || c == ':' || c == '/' || c == '.'

/-- `re.sub(r"\{[\w:\/.]+\}(\w+)", r"\1", tag)`, `abstract_arxml_parser.py:73-74`.  No character of the first class is `}`, so both
repetitions take as much as they can; `n` bounds the number of places to look at. -/
def pureTag (py : Py) : Nat → Str → Str
  | 0, s => s
  | _ + 1, [] => []
  | n + 1, c :: s =>
    if c = '{' then
      match s.span (nsChar py) with
      | (_ :: _, '}' :: r) => match r.span py.word with
        | (w :: ws, r') => w :: ws ++ pureTag py n r'
        | ([], _) => c :: pureTag py n s
      | _ => c :: pureTag py n s
    else c :: pureTag py n s

/-- the root: its tag is only looked at by `load`, `arxml_parser.py:9417` -/
def NsEl.rootXml (py : Py) : NsEl → Xml
  | .mk u l as s kids => .node (if pureTag py (etTag u l).length (etTag u l) = "AUTOSAR".toList then k!"AUTOSAR" else keyOf ('{' :: '}' :: etTag u l))
      (as.map fun a => (attrKey a.1.1 a.1.2, a.2)) s (NsEl.toXmls kids)

/-- the tree `load` gets, `arxml_parser.py:9415-9416`; `none` if the file cannot be read -/
def parseTree (py : Py) (nc : NameChars) (s : Str) : Option Xml :=
  ((parseXml nc s).bind (resolveEl nc scope₀)).map (NsEl.rootXml py)

end Verif.Model
