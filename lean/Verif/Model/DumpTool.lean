import Verif.Model.ListTool
import Verif.Model.FileListTool
/-!
# The tool `arxml-dump` on files

`cli/arxml_dump_cli.py`.  `show_type`, `show_data_type_mapping`, `show_sw_component`, `show_sender_receiver_interface` and what they call are only
called from comments (`:142-149`).

Simplifications: printing `None` for a missing text is printing nothing; the service id of an entry is formatted with `%d`, which is a `TypeError` for the
objects the attribute holds and for `None`; looking up a reference raises no exception of its own (`World.findFrom` has them); an attribute the class does not have is an attribute without a value.
-/
namespace Verif.Model
open Verif

/-- what was printed, and the exception that ended it -/
structure Printed where
  lines : List Str
  err : Option PyErr := none

namespace Printed

/-- one statement after the other -/
def andThen (a b : Printed) : Printed := match a.err with
  | some e => ⟨a.lines, some e⟩
  | none => ⟨a.lines ++ b.lines, b.err⟩

/-- a loop -/
def all : List Printed → Printed
  | [] => ⟨[], none⟩
  | a :: l => a.andThen (all l)

end Printed

/-- `print("%s..." % (" " * indent, ...))` -/
def spaced (indent : Nat) (s : Str) : Printed := ⟨[List.replicate indent ' ' ++ s], none⟩

/-- `raise` -/
def raised (e : PyErr) : Printed := ⟨[], some e⟩

section
variable {F : Type}

/-- the value of a reference; `none`: `AttributeError` -/
def MObj.refValue (o : MObj F) (f : Key) : Option Str := match o.get f with
  | .scal (.ref _ _ v) :: _ => some v
  | _ => none

/-- `show_client_server_interface`, `:101-107`: `ClientServerOperation` has no method `getArgumentDataPrototypes` -/
def showInterface (indent : Nat) (o : MObj F) : Printed :=
  (spaced indent o.name).andThen (.all ((o.get k!"operations").map fun op =>
    (spaced (indent + 2) (t!"Operation:" ++ op.name)).andThen (raised .attributeError)))

/-- the loop over the timing events, `:118-127` -/
def showTiming (d : MObj F) (indent : Nat) (e : MObj F) : Printed :=
  (spaced (indent + 2) ('-' :: e.name)).andThen <|
  match e.refValue k!"startsOnEventRef" with
  | none => raised .attributeError
  | some r => (spaced (indent + 4) (t!"-StartsOnEventRef: " ++ r)).andThen <|
    match findIn ((splitSlash r).filter (· ≠ [])) d with
    | none => raised .attributeError
    | some s => (spaced (indent + 4) (t!"-StartsOnEvent: " ++ s.name)).andThen <|
      match s.refValue k!"implementedEntryRef" with
      | none => raised .attributeError
      | some r => (spaced (indent + 4) (t!"-ImplementedEntryRef: " ++ r)).andThen <|
        match findIn ((splitSlash r).filter (· ≠ [])) d with
        | none => raised .attributeError
        | some i => (spaced (indent + 4) (t!"-ImplementedEntry: " ++ i.name)).andThen (raised .typeError)

/-- `show_bsw_internal_behavior`, `:110-127` -/
def showBehavior (d : MObj F) (indent : Nat) (b : MObj F) : Printed :=
  (spaced indent ('-' :: b.name)).andThen <|
  (Printed.all (((b.get k!"elements").filter (MObj.inst [k!"BswModeSwitchEvent"])).map fun e => spaced (indent + 2) ('-' :: e.name))).andThen <|
  .all (((b.get k!"elements").filter (MObj.inst [k!"BswTimingEvent"])).map (showTiming d indent))

/-- `show_bsw_module_description`, `:130-134` -/
def showModule (d : MObj F) (indent : Nat) (m : MObj F) : Printed :=
  (spaced indent ('-' :: m.name)).andThen (.all ((m.get k!"internalBehaviors").map (showBehavior d (indent + 2))))

/-- `show_ar_package`, `:137-157`; `d` is the document.  The number of levels bounds the recursion. -/
def showPackage (d : MObj F) : Nat → Nat → MObj F → Printed
  | 0, _, _ => ⟨[], none⟩
  | n + 1, indent, p =>
    (spaced indent ('-' :: (p.name ++ t!" (Pkg)"))).andThen <|
    (Printed.all ((byName (p.get k!"arPackages")).map (showPackage d n (indent + 2)))).andThen <|
    (Printed.all ((ofClass k!"ClientServerInterface" true p).map (showInterface (indent + 2)))).andThen <|
    (Printed.all ((byName (p.get k!"arPackages")).map (showPackage d n (indent + 2)))).andThen <|
    .all ((ofClass k!"BswModuleDescription" false p).map (showModule d (indent + 2)))

/-- the loop of `cli_main`, `:200-201` -/
def showDoc (d : MObj F) : Printed := .all ((byName (d.get k!"arPackages")).map (showPackage d d.depth 0))

end

/-- `cli_main`, `:190-201`: the files given with `--arxml`; `none`: no file is loaded completely, nothing is printed -/
def arxmlDump (py : Py) (nc : NameChars) (fs : Fs) (files : List Str) : Option Printed :=
  match files.mapM fun f => (fs.text f).bind (parseFile nc) with
  | none => none
  | some xs => match loadAll py true (newDoc py) xs with
    | .error _ => none
    | .ok d => some (showDoc d)

end Verif.Model
