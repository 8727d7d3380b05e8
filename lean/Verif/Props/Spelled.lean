import Verif.Lemmas.Spelled
/-!
# C59: references to characters
-/
namespace Verif.Props
open Verif Verif.Model Verif.Spec Verif.Lemmas

/-- a file with one element, its attribute and its text -/
def singleElement (n a value text : Str) : Str :=
  '<' :: (n ++ (' ' :: (a ++ ('=' :: '"' :: (value ++ ('"' :: '>' :: (text ++ ('<' :: '/' :: n ++ ['>']))))))))

/-- **C59** An attribute and a text are read as what their spelling stands for, and nothing else is read.  A character may be written as
itself, by its name, or by its number in decimal or hexadecimal digits. -/
theorem C59_references (nc : NameChars) (n a value text v t : Str) (hn : XmlName nc n) (ha : XmlName nc a) (hx : a ≠ "xmlns".toList ∧ ¬ "xmlns:".toList <+: a)
    (hv : ∀ c ∈ value, XmlChar c ∧ c ≠ '\r' ∧ c ≠ '<' ∧ c ≠ '"') (ht : ∀ c ∈ text, XmlChar c ∧ c ≠ '\r' ∧ c ≠ '<') :
    parseFile nc (singleElement n a value text) = some (.node (keyOf n) [(keyOf a, v)] t []) ↔
      Spelled inValue value v ∧ Spelled id text t ∧ ¬ "]]>".toList <:+: text := by
  unfold parseFile singleElement
  rw [parse_one hn ha (fun h => (hv _ h).2.2.1 rfl) (fun h => (hv _ h).2.2.2 rfl) (fun h => (ht _ h).2.2 rfl)
    (fun c h => ⟨(xmlChar_eq c).1 (hv c h).1, (hv c h).2.1⟩) (fun c h => ⟨(xmlChar_eq c).1 (ht c h).1, (ht c h).2.1⟩)]
  have hns := isXmlns_false hx.1 hx.2
  rw [← decode_spelled, ← decode_spelled, ← toBlank_eq, ← hasCdataEnd_iff, Bool.not_eq_true, decodeAttr]
  cases h1 : decodeGo toBlank none value with
  | none => simp
  | some v' =>
    rw [decodeText]
    cases h2 : hasCdataEnd text with
    | true => simp
    | false =>
      cases h3 : decodeGo id none text with
      | none => simp
      | some t' => simp [El.toXml, El.toXmls, hns]

/-- `ä`, `&`, a line break and `A` in four ways -/
example : parseFile .ascii (singleElement "A".toList "B".toList "1&#10;\n&#x41;".toList "&#xe4;&amp;&#65;&#X41;&gt;".toList) = none ∧
    (parseFile .ascii (singleElement "A".toList "B".toList "1&#10;\n&#x41;".toList "&#xE4;&amp;&#65;&#x0041;&gt;".toList)).map (fun x => (x.attrs, x.text)) =
      some ([(k!"B", "1\n A".toList)], "ä&AA>".toList) := by decide +kernel

example : Spelled id "&#xE4;&amp;A".toList "ä&A".toList :=
  .hex (t := "E4".toList) (ds := [14, 4]) (by decide) (by unfold HexDigits; decide +kernel) (by decide +kernel) (.inr (.inr (.inr (by decide +kernel))))
    (.named (n := "amp".toList) (by decide +kernel) (.self (by decide) .nil))

end Verif.Props
