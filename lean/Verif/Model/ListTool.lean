import Verif.Model.FileList
import Verif.Model.Load
import Verif.Model.Markup
/-!
# The tools `swc-list`, `system-signal` and `memory-section`

`cli/swc_list_cli.py`, `cli/system_signal_cli.py` and `cli/memory_section_cli.py` with `lib/sw_component.py` and
`lib/system_signal.py`, on documents that were loaded.  (`Model/Listing.lean` has the analyzers on documents that were built.)

Simplifications: the lines are the messages given to the logger; an exception of any kind means that nothing is listed (`none`).
-/
namespace Verif.Model
open Verif

section
variable {F : Type}

/-- `getSwComponentTypes`, `ARPackage.py:1474-1475` (not sorted), and `getSystemSignals`, `ARPackage.py:1649-1650` (sorted) -/
def ofClass (c : Key) (sorted : Bool) (o : MObj F) : List (MObj F) :=
  let l := (o.get k!"elements").filter (MObj.inst [c])
  if sorted then byName l else l

/-- `parse_pkg`, `lib/sw_component.py:17-21`, `lib/system_signal.py:24-29`: the objects in the order in which they are appended, with
the names that lead to them.  The number of levels bounds the recursion. -/
def collectPkg (c : Key) (sorted : Bool) : Nat → MObj F → List (List Str × MObj F)
  | 0, _ => []
  | n + 1, o =>
    (byName (o.get k!"arPackages")).flatMap (fun p => (collectPkg c sorted n p).map fun e => (p.name :: e.1, e.2)) ++
      (ofClass c sorted o).map fun e => ([e.name], e)

/-- `import_data`, `lib/sw_component.py:23-25`, `lib/system_signal.py:31-33` -/
def collectDoc (c : Key) (sorted : Bool) (d : MObj F) : List (List Str × MObj F) :=
  (byName (d.get k!"arPackages")).flatMap fun p => (collectPkg c sorted d.depth p).map fun e => (p.name :: e.1, e.2)

/-- `full_name`, `Identifiable.py:76-80`, `ARPackage.py:546-550`, `AutosarTopLevelStructure/__init__.py:152`, from the names that lead
to an object -/
def fullNameOf (p : List Str) : Str := p.flatMap fun n => '/' :: n

/-- `print_out`, `lib/sw_component.py:27-41`, `lib/system_signal.py:35-44`; `only` is the filter, `long` the format -/
def printPaths (only : Option Key) (long : Bool) (l : List (List Str × MObj F)) : List Str :=
  let l := match only with
    | none => l
    | some c => l.filter fun e => e.2.inst [c]
  (sortBy (fun e => String.ofList e.2.name) l).map fun e => if long then fullNameOf e.1 else e.2.name

end

section
variable (py : Py)

/-- loading the files (`swc_list_cli.py:48-60`, `system_signal_cli.py:47-59`, `memory_section_cli.py:48-60`) -/
def loadFiles (nc : NameChars) (fs : Fs) (args : List Str) : Option (MObj py.F) :=
  match cliParse py fs [] args with
  | .error _ => none
  | .ok names => match names.mapM fun f => (fs.text f).bind (parseFile nc) with
    | none => none
    | some xs => match loadAll py false (newDoc py) xs with
      | .error _ => none
      | .ok d => some d

/-- does an option that was given have this value -/
def optionIs (v : Str) : Option Str → Bool
  | none => false
  | some s => PBool.lower py s = v

/-- `swc_list_cli.py:48-73` -/
def swcList (nc : NameChars) (fs : Fs) (format filter : Option Str) (args : List Str) : Option (List Str) :=
  (loadFiles py nc fs args).map fun d => printPaths (if optionIs py "compositionswcomponent".toList filter then some k!"CompositionSwComponentType" else none)
    (optionIs py "long".toList format) (collectDoc k!"SwComponentType" false d)

/-- `system_signal_cli.py:47-67` -/
def systemSignals (nc : NameChars) (fs : Fs) (format : Option Str) (args : List Str) : Option (List Str) :=
  (loadFiles py nc fs args).map fun d => printPaths none (optionIs py "full".toList format) (collectDoc k!"SystemSignal" true d)

/-- `memory_section_cli.py:48-68`: the format given to the analyzer is `short` or `long`, the analyzer asks for `full`
(`lib/system_signal.py:41`) -/
def memorySections (nc : NameChars) (fs : Fs) (format : Option Str) (args : List Str) : Option (List Str) :=
  (loadFiles py nc fs args).map fun d =>
    printPaths none ((if optionIs py "long".toList format then "long".toList else "short".toList) == "full".toList) (collectDoc k!"SystemSignal" true d)

end
end Verif.Model
