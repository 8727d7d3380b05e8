import Verif.Model.Key
/-!
# Element trees

`xml.etree.ElementTree.Element` as the reader and the writer use it.

Simplifications:
* A tag is the local name of an element in the AUTOSAR namespace (`{http://autosar.org/schema/r4.0}NAME`), which is
  what `find`/`findall` (`abstract_arxml_parser.py:354-365`) and `getTagName` (`:46-51`) compare; an element of
  another namespace is represented by a key of its own that is different from all names of the reader.
* `text` is the text before the first child; no text (`None`) is the empty list.  Tails, comments and processing
  instructions are never looked at by the reader and are left out.
-/
namespace Verif.Model

abbrev Str := List Char

inductive Xml
  | node (tag : Key) (attrs : List (Key × Str)) (text : Str) (kids : List Xml)

namespace Xml
def tag : Xml → Key | node t _ _ _ => t
def attrs : Xml → List (Key × Str) | node _ a _ _ => a
def text : Xml → Str | node _ _ s _ => s
def kids : Xml → List Xml | node _ _ _ k => k

/-- `element.attrib.get(key)` -/
def attr (x : Xml) (k : Key) : Option Str := x.attrs.lookup k

/-- a leaf -/
def leaf (tag : Key) (attrs : List (Key × Str)) (text : Str) : Xml := node tag attrs text []
end Xml

/-- The key `0` stands for the wildcard `*` of ElementPath. -/
def tagIs (t : Key) (x : Xml) : Bool := t == 0 || x.tag == t

/-- How the reader gets from an element to the elements it reads.  `first` is `find("A/B/C")`, `all` is one step of
`findall("A/B/C")` (or of a loop over the children), the other steps stand for the tests around them. -/
inductive Path
  | nil
  /-- `for child in findall(element, t)` -/
  | all (t : Key) (rest : Path)
  /-- `child = find(element, "t1/t2/...")`, nothing if it is `None` -/
  | first (ts : List Key) (rest : Path)
  /-- the child `t1`, if there is none the child `t2`, ... -/
  | pick (ts : List Key) (rest : Path)
  /-- only if the path leads somewhere -/
  | need (p : Path) (rest : Path)
  /-- only if the path leads nowhere -/
  | lack (p : Path) (rest : Path)
  /-- what the first path selects, if that is nothing what the second selects -/
  | alt (p : Path) (q : Path)
  deriving DecidableEq, Repr

/-- `findall("t1/t2/...")` -/
def walk : List Key → Xml → List Xml
  | [], x => [x]
  | t :: ts, x => (x.kids.filter (tagIs t)).flatMap (walk ts)

/-- the first child with the first tag that occurs -/
def pickKid : List Key → Xml → Option Xml
  | [], _ => none
  | t :: ts, x => match x.kids.find? (tagIs t) with
    | some y => some y
    | none => pickKid ts x

/-- the elements a path leads to, in document order -/
def select : Path → Xml → List Xml
  | .nil, x => [x]
  | .all t r, x => (x.kids.filter (tagIs t)).flatMap (select r)
  | .first ts r, x => match walk ts x with
    | [] => []
    | y :: _ => select r y
  | .pick ts r, x => match pickKid ts x with
    | none => []
    | some y => select r y
  | .need p r, x => if (select p x).isEmpty then [] else select r x
  | .lack p r, x => if (select p x).isEmpty then select r x else []
  | .alt p q, x => if (select p x).isEmpty then select q x else select p x

/-- `path + path`: reading relative to an element reached by a path -/
def Path.app : Path → Path → Path
  | .nil, q => q
  | .all t r, q => .all t (r.app q)
  | .first ts r, q => .first ts (r.app q)
  | .pick ts r, q => .pick ts (r.app q)
  | .need p r, q => .need p (r.app q)
  | .lack p r, q => .lack p (r.app q)
  | .alt p p', q => .alt (p.app q) (p'.app q)

/-- at most one element is selected -/
def Path.single : Path → Bool
  | .nil => true
  | .all _ _ => false
  | .first _ r => r.single
  | .pick _ r => r.single
  | .need _ r => r.single
  | .lack _ r => r.single
  | .alt p q => p.single && q.single

end Verif.Model
