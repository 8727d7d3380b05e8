import Verif.Model.Xml
/-!
# Specification: the elements of a file

What C58 talks about.
-/
namespace Verif.Spec
open Verif Verif.Model

/-- the text of the first child `SHORT-NAME` -/
def nameIn (x : Xml) : Str := ((x.kids.find? fun k => k.tag == k!"SHORT-NAME").map Xml.text).getD []

/-- an `AR-PACKAGE` in the `AR-PACKAGES` of an element -/
def SubPkg (x y : Xml) : Prop := ∃ g ∈ x.kids, g.tag = k!"AR-PACKAGES" ∧ y ∈ g.kids ∧ y.tag = k!"AR-PACKAGE"

/-- an element in the `ELEMENTS` of an element -/
def InPkg (x y : Xml) : Prop := ∃ g ∈ x.kids, g.tag = k!"ELEMENTS" ∧ y ∈ g.kids

/-- the short names lead from the root of a file, through packages, to an element of a package with one of the tags -/
inductive InFile (T : List Key) : Xml → List Str → Prop
  | element {x y e : Xml} : SubPkg x y → InPkg y e → e.tag ∈ T → InFile T x [nameIn y, nameIn e]
  | package {x y : Xml} {p : List Str} : SubPkg x y → InFile T y p → InFile T x (nameIn y :: p)

/-- the tags of the software components (except `PARAMETER-SW-COMPONENT-TYPE`, see `C58_parameter_broken`) -/
def swcTags : List Key := [k!"APPLICATION-SW-COMPONENT-TYPE", k!"COMPOSITION-SW-COMPONENT-TYPE", k!"COMPLEX-DEVICE-DRIVER-SW-COMPONENT-TYPE",
  k!"ECU-ABSTRACTION-SW-COMPONENT-TYPE", k!"NV-BLOCK-SW-COMPONENT-TYPE", k!"SENSOR-ACTUATOR-SW-COMPONENT-TYPE",
  k!"SERVICE-SW-COMPONENT-TYPE", k!"SERVICE-PROXY-SW-COMPONENT-TYPE"]

/-- the last name of a path -/
def lastName (p : List Str) : Str := p.getLastD []

/-- `/a/b/c` -/
def absolute (p : List Str) : Str := p.flatMap fun n => '/' :: n

/-- The lines for the elements with the tags in some files: one line for each, though it may be in several files, in the order of the
short names.  The line is the path or the short name. -/
def ElementLines (T : List Key) (xs : List Xml) (long : Bool) (lines : List Str) : Prop :=
  ∃ ps : List (List Str), lines = ps.map (fun p => if long then absolute p else lastName p) ∧ ps.Nodup ∧
    ps.Pairwise (fun a b => String.ofList (lastName a) ≤ String.ofList (lastName b)) ∧ ∀ p, p ∈ ps ↔ ∃ x ∈ xs, InFile T x p

end Verif.Spec
