import Verif.Model.Tree
/-!
# Listing methods

The model classes have about 170 methods that return the members of an object that belong to a class, or a list sorted by
short name: `ARPackage.getSwComponentTypes` (`ARPackage.py:1474-1475`), `CompositionSwComponentType.getAssemblySwConnectors`
(`Composition/__init__.py:472-479`), `RunnableEntity.getDataReadAccesses`, ...  `Verif/Gen/ListTable.lean` lists all of them.

Simplification: three of them return an iterator instead of a list; here all return the list of what is delivered.
-/
namespace Verif.Model

/-- `list(sorted(filter(lambda a: isinstance(a, (C1, ...)), self.attr), key=lambda a: a.short_name))`: class, method, the
list it looks at (`elements` is the collection), the classes (`[]`: no filter), whether it sorts, source line. -/
structure ListRow where
  cls : Key
  method : Key
  attr : Key
  filter : List Key
  sorted : Bool
  line : Nat
  deriving DecidableEq, Repr

/-- does `isinstance` let an element of class `c` pass -/
def ListRow.takes (H : Hier) (l : ListRow) (c : Key) : Bool := l.filter.isEmpty || l.filter.any (H.sub c)

/-- the list the method looks at -/
def Owner.listed (o : Owner) (l : ListRow) : List Elem := if l.attr = k!"elements" then o.coll.elements else o.lists l.attr

/-- what the method returns -/
def Owner.listing (H : Hier) (l : ListRow) (o : Owner) : List Elem :=
  let xs := (o.listed l).filter fun a => l.takes H a.cls
  if l.sorted then sortBy Elem.name xs else xs

/-! ## The analyzers -/

namespace World

/-- the members of object `i` that a listing method returns -/
def listing (H : Hier) (l : ListRow) (w : World) (i : Nat) : List Elem :=
  match w.get i with
  | none => []
  | some o => o.own.listing H l

/-- `parse_pkg`, `lib/sw_component.py:17-21` and `lib/system_signal.py:24-29`; the objects are appended in the order of the
result.  A package is constructed before its sub-packages, which makes the recursion end. -/
def collect (H : Hier) (l : ListRow) (w : World) (i : Nat) : List Elem :=
  ((w.getARPackages i).flatMap fun j => if _h : i < j ∧ j < w.next then collect H l w j else []) ++ w.listing H l i
termination_by w.next - i

/-- `import_data(document)`, `lib/sw_component.py:23-25`, `lib/system_signal.py:31-33` -/
def importData (H : Hier) (l : ListRow) (w : World) (d : Nat) : List Elem :=
  (w.getARPackages d).flatMap (w.collect H l)

/-- `print_out`, `lib/sw_component.py:27-41`, `lib/system_signal.py:35-44`: the lines; `only` is the option `filter`, `long`
the option `format` -/
def printOut (H : Hier) (w : World) (only : Option Key) (long : Bool) (swcs : List Elem) : List String :=
  let l := match only with
    | none => swcs
    | some c => swcs.filter fun a => H.sub a.cls c
  (sortBy Elem.name l).map fun a => if long then w.fullName a.id else a.name

/-- `show_ar_package`, `cli/arxml_dump_cli.py:136-154`, as far as packages are concerned: the packages for which a line
`-name (Pkg)` is printed, in this order.  The sub-packages are visited twice (lines 139-140 and 151-152).  Simplification:
the lines about other elements (149-150, 153-154), and the exceptions that printing them can raise, are left out. -/
def shown (w : World) (i : Nat) : List Nat :=
  let sub := (w.getARPackages i).flatMap fun j => if _h : i < j ∧ j < w.next then shown w j else []
  i :: (sub ++ sub)
termination_by w.next - i

/-- the loop of `cli_main`, `cli/arxml_dump_cli.py:195-196` -/
def dumped (w : World) (d : Nat) : List Nat := (w.getARPackages d).flatMap w.shown

end World
end Verif.Model
