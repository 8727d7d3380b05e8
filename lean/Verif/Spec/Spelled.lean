import Verif.Spec.Prim
import Verif.Spec.Markup
/-!
# Specification: references to characters
-/
namespace Verif.Spec
open Verif Verif.Model

/-- the characters that have names -/
def namedRefs : List (Str × Char) :=
  [("amp".toList, '&'), ("lt".toList, '<'), ("gt".toList, '>'), ("quot".toList, '"'), ("apos".toList, '\'')]

/-- How a text may be spelled: each character stands for itself (`as`: or for another one), or is written as `&name;`, `&#decimal;` or
`&#xhexadecimal;`.  `Spelled as raw v`: `raw` is a spelling of `v`. -/
inductive Spelled (as : Char → Char) : Str → Str → Prop
  | nil : Spelled as [] []
  | self {c : Char} {s v : Str} : c ≠ '&' → Spelled as s v → Spelled as (c :: s) (as c :: v)
  | named {n : Str} {c : Char} {s v : Str} : (n, c) ∈ namedRefs → Spelled as s v → Spelled as ('&' :: n ++ ';' :: s) (c :: v)
  | decimal {t : Str} {ds : List Nat} {c : Char} {s v : Str} : t ≠ [] → HexDigits t ds → (∀ d ∈ ds, d < 10) → number 10 ds = c.toNat → XmlChar c →
      Spelled as s v → Spelled as ('&' :: '#' :: t ++ ';' :: s) (c :: v)
  | hex {t : Str} {ds : List Nat} {c : Char} {s v : Str} : t ≠ [] → HexDigits t ds → number 16 ds = c.toNat → XmlChar c →
      Spelled as s v → Spelled as ('&' :: '#' :: 'x' :: t ++ ';' :: s) (c :: v)

/-- white space in attribute values stands for a blank -/
def inValue (c : Char) : Char := if c = '\t' ∨ c = '\n' ∨ c = '\r' then ' ' else c

end Verif.Spec
