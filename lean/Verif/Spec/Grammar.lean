import Verif.Spec.Spelled
import Verif.Spec.Marks
/-!
# Specification: well-formed files

The productions of XML 1.0 for the part of XML that is modelled (no document types), each with the tree it stands for.
-/
namespace Verif.Spec
open Verif Verif.Model

/-- white space -/
def White (s : Str) : Prop := ∀ c ∈ s, c = ' ' ∨ c = '\t' ∨ c = '\n' ∨ c = '\r'

/-- The attributes of a start tag, with the white space before each of them and after the last one. -/
inductive Attrs (nc : NameChars) : Str → List (Str × Str) → Prop
  | nil {w : Str} : White w → Attrs nc w []
  | cons {w a w1 w2 raw v rest : Str} {q : Char} {as : List (Str × Str)} : w ≠ [] → White w → XmlName nc a → White w1 → White w2 → (q = '"' ∨ q = '\'') →
      '<' ∉ raw → q ∉ raw → Spelled inValue raw v → Attrs nc rest as → a ∉ as.map Prod.fst →
      Attrs nc (w ++ a ++ w1 ++ '=' :: w2 ++ q :: raw ++ q :: rest) ((a, v) :: as)

/-- a comment or a processing instruction -/
inductive Aside (nc : NameChars) : Str → Prop
  | comment (b : Str) : ¬ "--".toList <:+: b → b.getLast? ≠ some '-' → Aside nc ("<!--".toList ++ b ++ "-->".toList)
  | inst (n b : Str) (w : Char) : XmlName nc n → n ∉ reservedTargets → White [w] → ¬ "?>".toList <:+: b → Aside nc ("<?".toList ++ n ++ w :: b ++ "?>".toList)
  | short (n : Str) : XmlName nc n → n ∉ reservedTargets → Aside nc ("<?".toList ++ n ++ "?>".toList)

/-- character data -/
def CharData (raw t : Str) : Prop := '<' ∉ raw ∧ ¬ "]]>".toList <:+: raw ∧ Spelled id raw t

mutual
/-- What is between the start tag and the end tag of an element: the text before the first child, and the children, each with the text after it. -/
inductive Content (nc : NameChars) : Str → Str → List El → Prop
  | chars {raw t : Str} : CharData raw t → Content nc raw t []
  | element {raw t s rest t' : Str} {e : El} {kids : List El} : CharData raw t → Element nc s e → Content nc rest t' kids →
      Content nc (raw ++ s ++ rest) t (e.withTail t' :: kids)
  | aside {raw t m rest t' : Str} {kids : List El} : nc.marks = true → CharData raw t → Aside nc m → Content nc rest t' kids →
      Content nc (raw ++ m ++ rest) (t ++ t') kids
  | cdata {raw t b rest t' : Str} {kids : List El} : nc.marks = true → CharData raw t → ¬ "]]>".toList <:+: b → Content nc rest t' kids →
      Content nc (raw ++ "<![CDATA[".toList ++ b ++ "]]>".toList ++ rest) (t ++ b ++ t') kids
/-- an element: the names in its start tag and its end tag are the same -/
inductive Element (nc : NameChars) : Str → El → Prop
  | empty {n a : Str} {as : List (Str × Str)} : XmlName nc n → Attrs nc a as → Element nc ('<' :: n ++ a ++ ['/', '>']) (.mk n as [] [] [])
  | full {n a c t w : Str} {as : List (Str × Str)} {kids : List El} : XmlName nc n → Attrs nc a as → Content nc c t kids → White w →
      Element nc ('<' :: n ++ a ++ '>' :: c ++ '<' :: '/' :: n ++ w ++ ['>']) (.mk n as t kids [])
end

/-- what may be before and after the root element -/
inductive Misc (nc : NameChars) : Str → Prop
  | blank {w : Str} : White w → Misc nc w
  | aside {w m rest : Str} : nc.marks = true → White w → Aside nc m → Misc nc rest → Misc nc (w ++ m ++ rest)

/-- the line ends of a file -/
inductive Lines : Str → Str → Prop
  | nil : Lines [] []
  | pair {s t : Str} : Lines s t → Lines ('\r' :: '\n' :: s) ('\n' :: t)
  | cr {s t : Str} : s.head? ≠ some '\n' → Lines s t → Lines ('\r' :: s) ('\n' :: t)
  | other {c : Char} {s t : Str} : c ≠ '\r' → Lines s t → Lines (c :: s) (c :: t)

/-- a file (with line ends `\n`) and its root element -/
def WellFormed (nc : NameChars) (s : Str) (e : El) : Prop :=
  (∀ c ∈ s, XmlChar c) ∧ ∃ d m1 r m2, s = d ++ (m1 ++ r ++ m2) ∧ Declared d (m1 ++ r ++ m2) ∧ Misc nc m1 ∧ Element nc r e ∧ Misc nc m2

end Verif.Spec
