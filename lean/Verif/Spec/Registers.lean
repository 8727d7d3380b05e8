import Verif.Spec.ListTool
import Verif.Spec.Registry
import Verif.Model.Calls
/-!
# Specification: the elements of some files, in the order in which they are read

What C61 talks about.
-/
namespace Verif.Spec
open Verif Verif.Model

/-- the packages directly in an element -/
def packagesIn (x : Xml) : List Xml :=
  (x.kids.filter fun g => g.tag == k!"AR-PACKAGES").flatMap fun g => g.kids.filter fun y => y.tag == k!"AR-PACKAGE"

/-- the elements directly in a package -/
def elementsIn (x : Xml) : List Xml := (x.kids.filter fun g => g.tag == k!"ELEMENTS").flatMap Xml.kids

/-- the elements of a package with the names that lead to them, those of the packages in it first (the number bounds the nesting) -/
def readOrder : Nat → List Str → Xml → List (List Str × Xml)
  | 0, _, _ => []
  | n + 1, names, x => ((packagesIn x).flatMap fun y => readOrder n (names ++ [nameIn y]) y) ++ (elementsIn x).map fun e => (names ++ [nameIn e], e)

/-- the elements of a file -/
def fileElements (x : Xml) : List (List Str × Xml) := (packagesIn x).flatMap fun y => readOrder x.depth [nameIn y] y

/-- the elements of some files that have certain tags -/
def tagged (T : List Key) (xs : List Xml) : List (List Str × Xml) := (xs.flatMap fileElements).filter fun e => T.contains e.2.tag

/-- the text of the first child with a tag -/
def childText (t : Key) (x : Xml) : Option Str := (x.kids.find? fun k => k.tag == t).map Xml.text

/-- (path of an implementation, text of its `BEHAVIOR-REF`).  An implementation without is left out; but a BSW implementation that is read again, without a
reference, still has the one it had (`known`). -/
def refsOf (known : List (List Str × Str)) : List (List Str × Xml) → List (String × String)
  | [] => []
  | e :: l => match childText k!"BEHAVIOR-REF" e.2, decide (e.2.tag = k!"BSW-IMPLEMENTATION") with
    | some r, bsw => (String.ofList (absolute e.1), String.ofList r) :: refsOf (if bsw then (e.1, r) :: known else known) l
    | none, true => match known.lookup e.1 with
      | some r => (String.ofList (absolute e.1), String.ofList r) :: refsOf known l
      | none => refsOf known l
    | none, false => refsOf known l

def behaviorRefs (xs : List Xml) : List (String × String) := refsOf [] (tagged [k!"SWC-IMPLEMENTATION", k!"BSW-IMPLEMENTATION"] xs)

/-- (application data type, implementation data type), for the data type maps that have both -/
def typeMaps (xs : List Xml) : List (String × String) :=
  (tagged [k!"DATA-TYPE-MAPPING-SET"] xs).flatMap fun e =>
    ((e.2.kids.filter fun g => g.tag == k!"DATA-TYPE-MAPS").flatMap fun g => g.kids.filter fun y => y.tag == k!"DATA-TYPE-MAP").filterMap fun y =>
      match childText k!"APPLICATION-DATA-TYPE-REF" y, childText k!"IMPLEMENTATION-DATA-TYPE-REF" y with
      | some a, some i => some (String.ofList a, String.ofList i)
      | _, _ => none

/-- the root compositions: the first of each system -/
def rootPaths (xs : List Xml) : List (List Str) :=
  (tagged [k!"SYSTEM"] xs).filterMap fun e =>
    ((e.2.kids.filter fun g => g.tag == k!"ROOT-SOFTWARE-COMPOSITIONS").flatMap fun g => g.kids.filter fun y => y.tag == k!"ROOT-SW-COMPOSITION-PROTOTYPE").head?.map fun y =>
      e.1 ++ [nameIn y]

/-- the names that lead to the object that was registered by a call -/
def objectPath (cs : List DocCall) (i : Nat) : Option (List Str) := match cs[i]? with
  | some (.system ns) => some ns
  | some (.composition ns) => some ns
  | some (.root ns) => some ns
  | _ => none

end Verif.Spec
