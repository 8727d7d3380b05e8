import Verif.Model.FileList
/-!
# The tool `armodel-file-list`

`cli/file_list_cli.py:56-65`, with `os.path.relpath` (`posixpath.py`).

Simplifications: `os.path.realpath` is a parameter (it depends on symbolic links); a path that begins with exactly two
slashes is treated like one with one slash; when an exception is raised, the incomplete output file is not modelled.
-/
namespace Verif.Model

/-- `s.split("/")` -/
def splitSlash : List Char → List (List Char)
  | [] => [[]]
  | c :: s =>
    if c = '/' then [] :: splitSlash s
    else match splitSlash s with
      | [] => [[c]]
      | l :: r => (c :: l) :: r

/-- `"/".join(l)` -/
def joinSlash : List (List Char) → List Char
  | [] => []
  | [l] => l
  | l :: r => l ++ '/' :: joinSlash r

/-- the parts of a path that `normpath` looks at -/
def pathParts (s : List Char) : List (List Char) := (splitSlash s).filter fun x => x != [] && x != ['.']

/-- the loop of `normpath` on an absolute path: `..` removes the part before it, if there is one -/
def pushPart (st : List (List Char)) (c : List Char) : List (List Char) := if c = ['.', '.'] then st.dropLast else st ++ [c]

/-- the parts of `os.path.abspath(path)` -/
def absParts (cwd path : List Char) : List (List Char) :=
  (pathParts (if path.head? = some '/' then path else joinPath cwd path)).foldl pushPart []

/-- `len(os.path.commonprefix([a, b]))` -/
def commonLen : List (List Char) → List (List Char) → Nat
  | x :: a, y :: b => if x = y then commonLen a b + 1 else 0
  | _, _ => 0

/-- `os.path.relpath(path)` -/
def relpath (cwd path : List Char) : Except PyErr (List Char) :=
  if path = [] then .error .valueError
  else
    let s := absParts cwd []
    let p := absParts cwd path
    let i := commonLen s p
    let rel := List.replicate (s.length - i) ['.', '.'] ++ p.drop i
    .ok (if rel = [] then ['.'] else joinSlash rel)

/-- `file_list_cli.py:62-65`: a path as it is written -/
def writtenPath (absolute : Bool) (real : List Char → List Char) (cwd path : List Char) : Except PyErr (List Char) :=
  if absolute then .ok (real path) else relpath cwd path

/-- `file_list_cli.py:60-65`: the lines of the output file -/
def listText (absolute : Bool) (real : List Char → List Char) (cwd : List Char) : List (List Char) → Except PyErr (List Char)
  | [] => .ok []
  | p :: l => match writtenPath absolute real cwd p with
    | .error e => .error e
    | .ok w => match listText absolute real cwd l with
      | .error e => .error e
      | .ok t => .ok (w ++ '\n' :: t)

/-- `file_list_cli.py:56-65`: the content of the output file -/
def fileListTool (py : Py) (fs : Fs) (absolute : Bool) (real : List Char → List Char) (cwd : List Char) (args : List (List Char)) :
    Except PyErr (List Char) :=
  match parseArgs py fs args with
  | .error e => .error e
  | .ok l => listText absolute real cwd l

end Verif.Model
