import Verif.Spec.Markup
import Verif.Model.Namespace
/-!
# Specification: what the names in a file stand for

Namespaces in XML 1.0.
-/
namespace Verif.Spec
open Verif Verif.Model

/-- a name with or without a prefix: the name, its prefix, and what is behind the prefix -/
inductive QName (nc : NameChars) : Str → Str → Str → Prop
  | plain {l : Str} : XmlName nc l → ':' ∉ l → QName nc l [] l
  | prefixed {p l : Str} : XmlName nc p → ':' ∉ p → XmlName nc l → ':' ∉ l → QName nc (p ++ ':' :: l) p l

/-- the name of the attribute that declares a prefix -/
def declOf (p : Str) : Str := if p = [] then "xmlns".toList else "xmlns:".toList ++ p

/-- what a prefix stands for inside of nested elements with these attributes, the innermost first -/
inductive Stands : List (List (Str × Str)) → Str → Str → Prop
  | here {as : List (Str × Str)} {ctx : List (List (Str × Str))} {p u : Str} : (declOf p, u) ∈ as → Stands (as :: ctx) p u
  | outer {as : List (Str × Str)} {ctx : List (List (Str × Str))} {p u : Str} : declOf p ∉ as.map Prod.fst → Stands ctx p u → Stands (as :: ctx) p u
  | xml : Stands [] "xml".toList "http://www.w3.org/XML/1998/namespace".toList
  | default : Stands [] [] []

/-- what may be declared -/
def MayDeclare (p u : Str) : Prop :=
  (p ≠ [] → u ≠ []) ∧ p ≠ "xmlns".toList ∧ (p = "xml".toList ↔ u = "http://www.w3.org/XML/1998/namespace".toList) ∧
    u ≠ "http://www.w3.org/2000/xmlns/".toList ∧ '}' ∉ u

/-- the name of an attribute; without a prefix it has no namespace -/
inductive AttrMeans (nc : NameChars) (ctx : List (List (Str × Str))) : Str → Str × Str → Prop
  | plain {l : Str} : QName nc l [] l → AttrMeans nc ctx l ([], l)
  | prefixed {n p l u : Str} : QName nc n p l → p ≠ [] → Stands ctx p u → AttrMeans nc ctx n (u, l)

/-- the attributes of an element; declarations are left out -/
inductive AttrsMean (nc : NameChars) (ctx : List (List (Str × Str))) : List (Str × Str) → List ((Str × Str) × Str) → Prop
  | nil : AttrsMean nc ctx [] []
  | decl {p v q l : Str} {as : List (Str × Str)} {bs : List ((Str × Str) × Str)} : QName nc (declOf p) q l → MayDeclare p v → AttrsMean nc ctx as bs →
      AttrsMean nc ctx ((declOf p, v) :: as) bs
  | attr {a v : Str} {n : Str × Str} {as : List (Str × Str)} {bs : List ((Str × Str) × Str)} : (∀ p, a ≠ declOf p) → AttrMeans nc ctx a n → AttrsMean nc ctx as bs →
      AttrsMean nc ctx ((a, v) :: as) ((n, v) :: bs)

mutual
/-- what an element stands for inside of elements with these attributes -/
inductive ElMeans (nc : NameChars) : List (List (Str × Str)) → El → NsEl → Prop
  | mk {ctx : List (List (Str × Str))} {n p l u s tail : Str} {as : List (Str × Str)} {bs : List ((Str × Str) × Str)} {kids : List El} {ks : List NsEl} :
      QName nc n p l → Stands (as :: ctx) p u → AttrsMean nc (as :: ctx) as bs → (bs.map Prod.fst).Nodup → ElsMean nc (as :: ctx) kids ks →
      ElMeans nc ctx (.mk n as s kids tail) (.mk u l bs s ks)
inductive ElsMean (nc : NameChars) : List (List (Str × Str)) → List El → List NsEl → Prop
  | nil {ctx : List (List (Str × Str))} : ElsMean nc ctx [] []
  | cons {ctx : List (List (Str × Str))} {e : El} {x : NsEl} {l : List El} {xs : List NsEl} : ElMeans nc ctx e x → ElsMean nc ctx l xs → ElsMean nc ctx (e :: l) (x :: xs)
end

/-- names are names, and no attribute comes twice: so it is in every file that is read (`C79_grammar`) -/
inductive Tidy (nc : NameChars) : El → Prop
  | mk {n s tail : Str} {as : List (Str × Str)} {kids : List El} : XmlName nc n → (∀ a ∈ as, XmlName nc a.1) → (as.map Prod.fst).Nodup → (∀ k ∈ kids, Tidy nc k) →
      Tidy nc (.mk n as s kids tail)

/-- an attribute without a prefix, or one of the two that usually have one -/
def UsualAttr (a : Str) : Prop := ':' ∉ a ∧ a ≠ "xmlns".toList ∨ a = "xml:space".toList ∨ a = "xsi:schemaLocation".toList

/-- no prefixes and no declarations -/
inductive Usual : El → Prop
  | mk {n s tail : Str} {as : List (Str × Str)} {kids : List El} : ':' ∉ n → (∀ a ∈ as, UsualAttr a.1) → (∀ k ∈ kids, Usual k) → Usual (.mk n as s kids tail)

/-- what AUTOSAR files usually look like: the root declares the AUTOSAR namespace for names without a prefix, and `xsi`; nothing else is declared -/
inductive UsualRoot : El → Prop
  | mk {s tail : Str} {as : List (Str × Str)} {kids : List El} : ("xmlns".toList, "http://autosar.org/schema/r4.0".toList) ∈ as →
      ("xmlns:xsi".toList, "http://www.w3.org/2001/XMLSchema-instance".toList) ∈ as →
      (∀ a ∈ as, a.1 = "xmlns".toList ∨ a.1 = "xmlns:xsi".toList ∨ UsualAttr a.1) → (∀ k ∈ kids, Usual k) → UsualRoot (.mk "AUTOSAR".toList as s kids tail)

/-- a name with a prefix; none if it is empty -/
def tagWith (p n : Str) : Str := if p = [] then n else p ++ ':' :: n

mutual
/-- all elements with a prefix -/
def prefixed (p : Str) : El → El
  | .mk n as s kids tail => .mk (tagWith p n) as s (prefixeds p kids) tail
def prefixeds (p : Str) : List El → List El
  | [] => []
  | e :: l => prefixed p e :: prefixeds p l
end

/-- … and the prefix declared instead of the default namespace -/
def prefixRoot (p : Str) : El → El
  | .mk n as s kids tail => .mk (tagWith p n) (as.map fun a => if a.1 = "xmlns".toList then (declOf p, a.2) else a) s (prefixeds p kids) tail

/-- a prefix that is not used for something else -/
def FreePrefix (nc : NameChars) (p : Str) : Prop := XmlName nc p ∧ ':' ∉ p ∧ p ∉ ["xml".toList, "xmlns".toList, "xsi".toList]

end Verif.Spec
