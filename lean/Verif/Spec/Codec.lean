import Verif.Model.Codec
/-!
# Specification: loading, saving and loading again

What C33–C37 talk about, apart from the definitions of the reader and the writer.

Some attributes do not survive saving (they are listed in `Spec/Defects.lean`, class by class).  `Need` is the language
of that list and `Clean` says that an object, and every object in it, stays away from all of them.
-/
namespace Verif.Spec
open Verif Verif.Model

/-- a condition on the attributes of one object -/
inductive Need
  /-- the attribute is not set -/
  | empty (f : Key)
  /-- the attribute has no value of this class -/
  | never (f c : Key)
  /-- one of the attributes is set -/
  | oneOf (fs : List Key)
  /-- not both attributes are set -/
  | notBoth (f g : Key)
  /-- the attribute has at most one value -/
  | single (f : Key)
  /-- if `f` is set then so is `g` -/
  | along (f g : Key)
  /-- both attributes have the same value -/
  | same (f g : Key)
  /-- the numbers in the attribute were read from a text that is not empty -/
  | full (f : Key)
  /-- the texts in the attribute were read from elements without the attributes `T` and `UUID` -/
  | plain (f : Key)
  /-- the values of the attribute meet a condition themselves -/
  | inside (f : Key) (n : Need)
  /-- only asked for in strict mode -/
  | strict (n : Need)
  deriving DecidableEq, Repr

/-- a number that was given a text -/
def hasText {F : Type} : MObj F → Prop
  | .scal (.num _ _ _ _ o) => ∃ s, s ≠ [] ∧ o.text = some s
  | _ => True

/-- a text without time stamp and UUID -/
def isPlain {F : Type} : MObj F → Prop
  | .scal (.lit t u _) => t = none ∧ u = none
  | _ => True

def Need.ok {F : Type} (strict : Bool) : Need → MObj F → Prop
  | .empty f, o => o.get f = []
  | .never f c, o => ∀ v ∈ o.get f, v.cls ≠ c
  | .oneOf fs, o => ∃ f ∈ fs, o.get f ≠ []
  | .notBoth f g, o => o.get f = [] ∨ o.get g = []
  | .single f, o => (o.get f).length ≤ 1
  | .along f g, o => o.get f ≠ [] → o.get g ≠ []
  | .same f g, o => o.get f = o.get g
  | .full f, o => ∀ v ∈ o.get f, hasText v
  | .plain f, o => ∀ v ∈ o.get f, isPlain v
  | .inside f n, o => ∀ v ∈ o.get f, n.ok strict v
  | .strict n, o => strict = true → n.ok strict o

/-- the object and all objects in it meet the conditions `D` lists for their classes -/
inductive Clean {F : Type} (D : Key → List Need) (strict : Bool) : MObj F → Prop
  | scal (s : Scalar F) : Clean D strict (.scal s)
  | mk (c : Key) (fs : List ((Key × Bool) × List (MObj F))) (h : ∀ n ∈ D c, n.ok strict (MObj.mk c fs))
      (hk : ∀ e ∈ fs, ∀ v ∈ e.2, Clean D strict v) : Clean D strict (.mk c fs)

/-! What a saved element looks like after it went through a file: tags, attributes and the order of the children are
the same, and so is the text of an element without children.  The text before the first child of an element that has
children may be any (pretty printing changes it, see C32). -/
mutual
inductive Reload : Xml → Xml → Prop
  | leaf (t : Key) (a : List (Key × Str)) (s : Str) : Reload (.node t a s []) (.node t a s [])
  | node (t : Key) (a : List (Key × Str)) (s s' : Str) (x x' : Xml) (l l' : List Xml) :
      Reload x x' → ReloadAll l l' → Reload (.node t a s (x :: l)) (.node t a s' (x' :: l'))
inductive ReloadAll : List Xml → List Xml → Prop
  | nil : ReloadAll [] []
  | cons (x x' : Xml) (l l' : List Xml) : Reload x x' → ReloadAll l l' → ReloadAll (x :: l) (x' :: l')
end

/-! Equality of objects, except that the values of the attributes `S` names (class and attribute) may have been put in
the order of their short names. -/
mutual
inductive Same {F : Type} (S : Key → Key → Bool) : MObj F → MObj F → Prop
  | scal (s : Scalar F) : Same S (.scal s) (.scal s)
  | mk (c : Key) (fs fs' : List ((Key × Bool) × List (MObj F))) : SameFields S c fs fs' → Same S (.mk c fs) (.mk c fs')
inductive SameFields {F : Type} (S : Key → Key → Bool) :
    Key → List ((Key × Bool) × List (MObj F)) → List ((Key × Bool) × List (MObj F)) → Prop
  | nil (c : Key) : SameFields S c [] []
  | same (c : Key) (k : Key × Bool) (vs us : List (MObj F)) (fs fs' : List ((Key × Bool) × List (MObj F))) :
      SameAll S vs us → SameFields S c fs fs' → SameFields S c ((k, vs) :: fs) ((k, us) :: fs')
  | sorted (c : Key) (k : Key × Bool) (vs us : List (MObj F)) (fs fs' : List ((Key × Bool) × List (MObj F))) :
      S c k.1 = true → SameAll S vs us → SameFields S c fs fs' → SameFields S c ((k, vs) :: fs) ((k, byName us) :: fs')
inductive SameAll {F : Type} (S : Key → Key → Bool) : List (MObj F) → List (MObj F) → Prop
  | nil : SameAll S [] []
  | cons (v u : MObj F) (vs us : List (MObj F)) : Same S v u → SameAll S vs us → SameAll S (v :: vs) (u :: us)
end

end Verif.Spec
