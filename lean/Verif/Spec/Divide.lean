import Verif.Spec.Define
/-!
# Specification: dividing files and packages

What C83 talks about: a file that is cut into several, and a package that is written as several packages of the same name.  Only the
elements of the files are used here, nothing of how they are read.
-/
namespace Verif.Spec
open Verif Verif.Model

/-- what is inside of the children with a tag -/
def contents (t : Key) (x : Xml) : List Xml := (x.kids.filter fun y => y.tag == t).flatMap Xml.kids

/-- the children besides those with certain tags -/
def besides (L : List Key) (x : Xml) : List Xml := x.kids.filter fun y => !L.contains y.tag

/-- two elements that differ at most in what is inside of certain children -/
structure SameBut (L : List Key) (x y : Xml) : Prop where
  tag : x.tag = y.tag
  attrs : x.attrs = y.attrs
  besides : besides L x = besides L y

/-- the children of a package that hold lists -/
def packageLists : List Key := [k!"AR-PACKAGES", k!"ELEMENTS", k!"ANNOTATIONS", k!"REFERENCE-BASES"]

/-- The package `z` is written as two packages `x` and `y`: what its lists hold is in `x` up to some place, and in `y` from there on; everything
else (at least the short name) is in both. -/
structure Parts (L : List Key) (z x y : Xml) : Prop where
  first : SameBut L z x
  second : SameBut L z y
  lists : ∀ t ∈ L, contents t z = contents t x ++ contents t y

/-- The packages `qs` are the packages `ps` after some of them, at any depth, were written as several ones.  The parts of a package
need not be next to each other. -/
inductive Divide : List Xml → List Xml → Prop
  | same (ps : List Xml) : Divide ps ps
  | cut {z x y : Xml} {ws : List Xml} : z.tag = k!"AR-PACKAGE" → Parts packageLists z x y → (∀ w ∈ ws, elemName w ≠ elemName z) →
      Divide (z :: ws) (x :: ws ++ [y])
  | inside {z z' : Xml} : SameBut packageLists z z' → (∀ t ∈ packageLists, t ≠ k!"AR-PACKAGES" → contents t z = contents t z') →
      Divide (contents k!"AR-PACKAGES" z) (contents k!"AR-PACKAGES" z') → Divide [z] [z']
  | app {ps qs ps' qs' : List Xml} : Divide ps qs → Divide ps' qs' → Divide (ps ++ ps') (qs ++ qs')
  | trans {ps qs rs : List Xml} : Divide ps qs → Divide qs rs → Divide ps rs

/-- The file `x` is divided into the files `xs`: each of them has the root element of `x` and what is in it besides packages, and
together they have the packages of `x`, or these written as several ones. -/
structure Divided (x : Xml) (xs : List Xml) : Prop where
  some : xs ≠ []
  root : ∀ y ∈ xs, SameBut [k!"AR-PACKAGES"] x y
  packages : Divide (contents k!"AR-PACKAGES" x) (xs.flatMap (contents k!"AR-PACKAGES"))

end Verif.Spec
