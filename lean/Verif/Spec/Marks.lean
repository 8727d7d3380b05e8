import Verif.Model.Markup
/-!
# Specification: a file without comments, processing instructions and CDATA sections

What C59 talks about.
-/
namespace Verif.Spec
open Verif Verif.Model

/-- the targets of processing instructions that are not allowed -/
def reservedTargets : List Str := ["xml", "xmL", "xMl", "xML", "Xml", "XmL", "XMl", "XML"].map String.toList

/-- a comment or a processing instruction: a comment does not contain `--` and its text does not end with `-` -/
inductive Remark (nc : NameChars) : Str → Prop
  | comment (b : Str) : ¬ "--".toList <:+: b → b.getLast? ≠ some '-' → Remark nc ("<!--".toList ++ b ++ "-->".toList)
  | inst (c : Char) (n b : Str) : nc.start c = true → (∀ x ∈ n, nc.char x = true) → c :: n ∉ reservedTargets →
      ¬ "?>".toList <:+: b → Remark nc ("<?".toList ++ c :: n ++ ' ' :: b ++ "?>".toList)

/-- how a character of a CDATA section is written elsewhere -/
def outside (c : Char) : Str :=
  if c = '&' then "&amp;".toList else if c = '<' then "&lt;".toList else if c = '>' then "&gt;".toList else [c]

/-- The second text is the first one without its comments and processing instructions, and the characters of its CDATA
sections are written as in other texts. -/
inductive Stripped : Str → Str → Prop
  | nil : Stripped [] []
  | char (c : Char) (s t : Str) : c ≠ '<' → Stripped s t → Stripped (c :: s) (c :: t)
  | tag (c : Char) (s t : Str) : c ≠ '!' → c ≠ '?' → c ≠ '<' → Stripped s t → Stripped ('<' :: c :: s) ('<' :: c :: t)
  | comment (b s t : Str) : ¬ "--".toList <:+: b → b.getLast? ≠ some '-' → Stripped s t →
      Stripped ("<!--".toList ++ b ++ "-->".toList ++ s) t
  | inst (b s t : Str) : ¬ "?>".toList <:+: b → Stripped s t → Stripped ("<?".toList ++ b ++ "?>".toList ++ s) t
  | cdata (b s t : Str) : ¬ "]]>".toList <:+: b → Stripped s t →
      Stripped ("<![CDATA[".toList ++ b ++ "]]>".toList ++ s) (b.flatMap outside ++ t)

/-- nothing, or an XML declaration; without one, the text does not begin like one -/
def Declared (d s : Str) : Prop :=
  (d = [] ∧ ¬ "<?xml ".toList <+: s) ∨ ∃ x, d = "<?xml ".toList ++ x ++ "?>".toList ∧ ¬ "?>".toList <:+: x

end Verif.Spec
