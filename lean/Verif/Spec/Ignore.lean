import Verif.Model.Document
/-!
# Specification: elements the reader does not look at

What C36 talks about.  `Del q x x'`: the tree `x'` is `x` without one element, which is reached from the root by the tags
`q`.  `known` tells, from the tags a reader method and the methods it calls mention, whether the element at `q` can have
any influence; for an `unsupported` or `invalid` child that is never the case in warning mode.
-/
namespace Verif.Spec
open Verif Verif.Model

inductive Del : List Key → Xml → Xml → Prop
  | here (t : Key) (a : List (Key × Str)) (s : Str) (l r : List Xml) (u : Xml) :
      Del [u.tag] (.node t a s (l ++ u :: r)) (.node t a s (l ++ r))
  | deep (t : Key) (a : List (Key × Str)) (s : Str) (l r : List Xml) (q : List Key) (y y' : Xml) :
      Del q y y' → Del (y.tag :: q) (.node t a s (l ++ y :: r)) (.node t a s (l ++ y' :: r))

/-- the tag of a step, `0` stands for any tag -/
def fitsTag (a b : Key) : Bool := a == 0 || a == b

/-- `find("a/b/c")` looks at the element at `q`; `k` is asked about what is in the elements found -/
def looksFirst (k : Key → List Key → Bool) : List Key → Key → List Key → Bool
  | [], t, q => k t q
  | _ :: _, _, [] => false
  | a :: ts, _, b :: q => fitsTag a b && (if q = [] then true else looksFirst k ts b q)

/-- Following the path from an element with the tag `t` takes notice of the element at `q`; `hit` is asked about an
element that is selected by the path itself, `final` about what is in the selected elements. -/
def looks (final : Key → List Key → Bool) (hit : Key → Bool) : Path → Key → List Key → Bool
  | .nil, t, q => final t q
  | .all _ _, _, [] => false
  | .all a r, _, b :: q =>
    fitsTag a b && (if q = [] then (if r = .nil then hit b else true) else looks final hit r b q)
  | .first ts r, t, q => looksFirst (looks final hit r) ts t q
  | .pick _ _, _, [] => false
  | .pick ts r, _, b :: q => (ts.any fun a => fitsTag a b) && (if q = [] then true else looks final hit r b q)
  | .need p r, t, q => looks (fun _ _ => false) (fun _ => true) p t q || looks final hit r t q
  | .lack p r, t, q => looks (fun _ _ => false) (fun _ => true) p t q || looks final hit r t q
  | .alt p r, t, q => looks (fun _ _ => false) (fun _ => true) p t q || looks final hit p t q || looks final hit r t q

/-- reading a selected element with the tag `t` takes notice of the element at `q` in it -/
def inItem (kn : Key → Key → List Key → Bool) (i : Item) (t : Key) (q : List Key) : Bool :=
  match i with
  | .objs alts => match altOf alts t with
    | none => false
    | some k => kn k t q
  | .want a _ => match q with
    | [b] => fitsTag a b
    | _ => false
  | _ => false

/-- a selected element with the tag `b` has an effect -/
def onItem (strict : Bool) (i : Item) (b : Key) : Bool :=
  match i with
  | .objs alts => (altOf alts b).isSome
  | .guard tags e => !tags.contains b && (strict || e == .unbound)
  | _ => true

/-- Reading an element with the tag `t` by the method `k` takes notice of the element at `q`. -/
def known (T : Key → Option RBody) (strict : Bool) : Nat → Key → Key → List Key → Bool
  | 0, _, _, _ => false
  | n + 1, k, t, q => match T k with
    | none => false
    | some b => b.slots.any fun s => looks (inItem (known T strict n) s.item) (onItem strict s.item) s.path t q

/-- any number of elements that are not looked at are left out -/
inductive Pruned (T : Key → Option RBody) (strict : Bool) (k : Key) : Xml → Xml → Prop
  | refl (x : Xml) : Pruned T strict k x x
  | step (x y z : Xml) (q : List Key) : Del q x y → (∀ n, known T strict n k x.tag q = false) → Pruned T strict k y z →
      Pruned T strict k x z

/-! Tags no reader method mentions. -/

/-- the tags in a path -/
def tagsOf : Path → List Key
  | .nil => []
  | .all a r => a :: tagsOf r
  | .first ts r => ts ++ tagsOf r
  | .pick ts r => ts ++ tagsOf r
  | .need p r => tagsOf p ++ tagsOf r
  | .lack p r => tagsOf p ++ tagsOf r
  | .alt p r => tagsOf p ++ tagsOf r

/-- the tags a slot mentions -/
def RSlot.tags (s : RSlot) : List Key := tagsOf s.path ++ match s.item with
  | .objs alts => alts.map Prod.fst
  | .want a _ => [a]
  | _ => []

/-- no reader method mentions the tag -/
def Foreign (u : Key) : Prop := ∀ k b, readers k = some b → ∀ s ∈ b.slots, u ∉ RSlot.tags s

/-- In these elements the reader takes the first child whatever its tag is, or it fails in warning mode, too. -/
def touchy : List Key := [k!"INIT-VALUE", k!"TIMEOUT-SUBSTITUTION-VALUE", k!"INVALID-VALUE", k!"RAM-BLOCK-INIT-VALUE",
  k!"ROM-BLOCK-INIT-VALUE", k!"VALUE-SPEC", k!"FIELDS", k!"VALUE", k!"TP-CONFIGURATION", k!"TYPE-MAPPING", k!"ARGUMENTS",
  k!"COMPOUND-PRIMITIVE-ARGUMENTS", k!"TRANSFORMATION-COM-SPEC-PROPS", k!"COMPU-DEFAULT-VALUE", k!"COMPU-CONST"]

/-- Given are the tags of the parent, its parent and so on. -/
def touched : List Key → Bool
  | [] => false
  | [p] => touchy.contains p
  | p :: g :: _ => touchy.contains p || (p == k!"ELEMENTS" && g == k!"ARRAY-VALUE-SPECIFICATION")

/-- `z` is `x` without some elements that have foreign tags -/
inductive Strip : Xml → Xml → Prop
  | refl (x : Xml) : Strip x x
  | step (x y z : Xml) (pre : List Key) (u : Key) : Del (pre ++ [u]) x y → Foreign u → touched (pre.reverse ++ [x.tag]) = false →
      Strip y z → Strip x z

/-! The elements that are read when an element is read, with their methods. -/
inductive Visits (T : Key → Option RBody) : Key → Xml → Key → Xml → Prop
  | self (k : Key) (x : Xml) : Visits T k x k x
  | step (k : Key) (x : Xml) (b : RBody) (s : RSlot) (alts : List (Key × Key)) (y : Xml) (j : Key) (k' : Key) (z : Xml) :
      T k = some b → s ∈ b.slots → s.item = .objs alts → y ∈ select s.path x → altOf alts y.tag = some j →
      Visits T j y k' z → Visits T k x k' z

/-- the same method without mandatory references -/
def RBody.lenient (b : RBody) : RBody :=
  { b with slots := b.slots.map fun s => if s.req = .strict then { s with req := .no } else s }

end Verif.Spec
