import Verif.Model.AdminData
import Verif.Model.Document
import Verif.Model.Markup
/-!
# The tool `arxml-format`

Simplifications: the logging is left out; an exception of any kind means that no file is written (`none`).
-/
namespace Verif.Model
open Verif

/-- `perform_format`, `cli/arxml_format_cli.py:43-63`: the content of the output file.  `warning` is the option `-w`, `remove` is
`--remove-admin-data`, `unescape` is `--unescape-entities`.  The writer does not get the option `warning`. -/
def arxmlFormat (py : Py) (repr : py.F → Str) (nc : NameChars) (warning remove unescape : Bool) (s : Str) : Option Str :=
  match parseFile nc s with
  | none => none
  | some x => match load py (!warning) x with
    | .error _ => none
    | .ok d => match save py repr true (if remove then removeAll d else d) with
      | .error _ => none
      | .ok y => saveToFile py nc unescape y

end Verif.Model
