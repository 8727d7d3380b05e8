import Verif.Model.AdminData
import Verif.Model.Disk
/-!
# How the command-line tools end, and which files they change

All tools but `arxml-dump` and `format-xml` begin in the same way: a log file of an earlier run is deleted, and a new one is opened (`arxml-format` and
`armodel-uuid-checker`: only with `-v`).  Then they do their work inside of `try`; they differ in what they do about an exception.

Simplifications:
* `real` maps a path to the file it denotes (`os.path.realpath`), any function; files are created and deleted without errors.
* What is logged is appended to the log file at the end.
* An exception that is not caught ends the interpreter with status 1.
-/
namespace Verif.Model

/-- where the log file is: in the directory of the output file, or in the current directory -/
inductive LogPlace
  | beside (name : Str)
  | here (name : Str)
  | nowhere
  deriving DecidableEq

/-- what the tool does about an exception -/
inductive OnError
  /-- `raise e`, or no handler -/
  | raises
  /-- `logger.error(e)`, and `raise e` with `-v` -/
  | raisesVerbose
  /-- `print(e)` -/
  | prints
  /-- `sys.exit(1)` -/
  | exits
  deriving DecidableEq

structure Tool where
  /-- `pyproject.toml:37-46` -/
  name : Str
  log : LogPlace
  /-- is the log file only written with `-v`? -/
  quiet : Bool
  onError : OnError
  deriving DecidableEq

/-- `cli/arxml_format_cli.py:21-28,59-63` -/
def arxmlFormatTool : Tool := ⟨"arxml-format".toList, .beside "arxml_format.log".toList, true, .raisesVerbose⟩

/-- the ten tools of `pyproject.toml:37-46` -/
def tools : List Tool := [
  /- format_xml_cli.py:44-46 -/ ⟨"format-xml".toList, .nowhere, true, .exits⟩,
  /- arxml_dump_cli.py:165-196 -/ ⟨"arxml-dump".toList, .nowhere, true, .raises⟩,
  arxmlFormatTool,
  /- connector2xlsx_cli.py:28-34,67-69 -/ ⟨"connector2xlsx".toList, .beside "connector.log".toList, false, .raises⟩,
  /- connector_update_cli.py:29-35,66-69 -/ ⟨"connector-update".toList, .beside "connector_update.log".toList, false, .raises⟩,
  /- swc_list_cli.py:28-33,75-77 -/ ⟨"armodel-component".toList, .here "swc-list.log".toList, false, .raises⟩,
  /- system_signal_cli.py:27-32,69-71 -/ ⟨"armodel-system-signal".toList, .here "system-signals.log".toList, false, .prints⟩,
  /- memory_section_cli.py:28-33,70-72 -/ ⟨"armodel-memory-section".toList, .here "system-signals.log".toList, false, .prints⟩,
  /- file_list_cli.py:35-41,67-69 -/ ⟨"armodel-file-list".toList, .beside "armodel_file_list.log".toList, false, .raises⟩,
  /- uuid_checker_cli.py:21-28,71-74 -/ ⟨"armodel-uuid-checker".toList, .beside "uuid_check.log".toList, true, .raisesVerbose⟩]

/-- `posixpath.dirname` -/
def dirName (p : Str) : Str :=
  let head := (p.reverse.dropWhile (· ≠ '/')).reverse
  if head.all (· == '/') then head else (head.reverse.dropWhile (· = '/')).reverse

/-- `posixpath.join` of a directory and the name of a file -/
def joinName (dir name : Str) : Str :=
  if dir = [] then name else if dir.getLast? = some '/' then dir ++ name else dir ++ '/' :: name

/-- `log_file`, for instance `cli/arxml_format_cli.py:21-22` -/
def Tool.logFile (t : Tool) (output : Str) : Option Str := match t.log with
  | .beside n => some (joinName (dirName output) n)
  | .here n => some (joinName ".".toList n)
  | .nowhere => none

/-- `os.remove(log_file)` and `logging.FileHandler(log_file)`, for instance `cli/arxml_format_cli.py:24-28` -/
def Tool.prepare (t : Tool) (real : Str → Str) (verbose : Bool) (output : Str) (disk : Disk) : Disk := match t.logFile output with
  | none => disk
  | some l => fun g => if g = real l then (if t.quiet && !verbose then none else some ByteArray.empty) else disk g

/-- the exit status -/
def Tool.status (t : Tool) (verbose : Bool) : Option PyErr → Nat
  | none => 0
  | some _ => match t.onError with
    | .raises | .exits => 1
    | .raisesVerbose => if verbose then 1 else 0
    | .prints => 0

/-- a run of a tool: the files afterwards and the exit status; `work` is what happens inside of `try`, `logged` what is logged -/
def Tool.run (t : Tool) (real : Str → Str) (verbose : Bool) (output : Str) (logged : ByteArray) (work : Disk → Calls) (disk : Disk) : Disk × Nat :=
  let start := t.prepare real verbose output disk
  let calls := work start
  let ended := start.after calls.ops
  ((match t.logFile output with
    | none => ended
    | some l => if t.quiet && !verbose then ended else DiskOp.run ended (.append (real l) logged)), t.status verbose calls.err)

/-- what `perform_format` does inside of `try`, `cli/arxml_format_cli.py:43-57`.  (The exceptions about files that do not exist and of the XML parser are
counted as `ValueError`, those of reading as that or what they are.) -/
noncomputable def formatWork (py : Py) (repr : py.F → Str) (nc : NameChars) (warning remove unescape : Bool) (pieces : ByteArray → List ByteArray)
    (real : Str → Str) (input output : Str) (disk : Disk) : Calls :=
  match loadFrom py nc (!warning) disk (real input) with
  | none => ⟨[], some .valueError⟩
  | some (.error (.py e)) => ⟨[], some e⟩
  | some (.error _) => ⟨[], some .valueError⟩
  | some (.ok d) => saveCalls py repr nc true unescape pieces (real output) (if remove then removeAll d else d)

end Verif.Model
