import Verif.Model.Prim
/-!
# File lists

`parser/file_parser.py` (`FileListParser`) and `lib/cli_args_parser.py` (`InputFileParser`).

The file system is a parameter.  Simplifications: a list file that cannot be decoded is not modelled; `os.walk`
is what it returns (directories bottom-up), the files it names are plain names without `/`.
-/
namespace Verif.Model

/-- The file system as the code sees it. -/
structure Fs where
  /-- `os.path.isdir` -/
  isDir : List Char → Bool
  /-- the content of a text file; `none` when `open` raises `IOError` -/
  text : List Char → Option (List Char)
  /-- `os.walk(d, topdown=False)`: directory and the files in it -/
  walk : List Char → List (List Char × List (List Char))

/-- universal newlines of text mode: `\r\n` and `\r` are read as `\n` -/
def newlines : List Char → List Char
  | [] => []
  | '\r' :: '\n' :: s => '\n' :: newlines s
  | '\r' :: s => '\n' :: newlines s
  | c :: s => c :: newlines s

/-- `for line in f`: the lines, each with its newline -/
def lines : List Char → List (List Char)
  | [] => []
  | c :: s =>
    if c = '\n' then [c] :: lines s
    else match lines s with
      | [] => [[c]]
      | l :: r => (c :: l) :: r

/-- `re.match(r".*\.arxml$", file, re.I)`: `.` is any character but a newline, `re.I` ignores case (none of
the letters has a case variant outside ASCII) -/
def arxmlName (file : List Char) : Bool :=
  let ci (x y : Char) : Re.M := Re.chr fun c => c == x || c == y
  Re.test (Re.seq (Re.star (· != '\n')) (Re.seq (Re.lit '.') (Re.seq (ci 'a' 'A') (Re.seq (ci 'r' 'R') (Re.seq (ci 'x' 'X')
    (Re.seq (ci 'm' 'M') (Re.seq (ci 'l' 'L') Re.eol))))))) file

/-- `os.path.join(root, file)` for a file name that is not absolute (`posixpath.join`) -/
def joinPath (root file : List Char) : List Char :=
  if root = [] ∨ root.getLast? = some '/' then root ++ file else root ++ '/' :: file

/-- `parse_dir_files`, `file_parser.py:31-36`, `cli_args_parser.py:23-29` -/
def dirFiles (fs : Fs) (d : List Char) : List (List Char) :=
  (fs.walk d).flatMap fun e => (e.2.filter arxmlName).map (joinPath e.1)

/-- `parse_text_file`, `file_parser.py:22-29`: an `IOError` is reported and nothing is added -/
def textFile (py : Py) (fs : Fs) (f : List Char) : List (List Char) :=
  match fs.text f with
  | none => []
  | some t => ((lines (newlines t)).filter fun l => !(l.head? == some '#')).map py.strip

/-- the body of the loop of `FileListParser.parse`, `file_parser.py:38-47`; `input_file[0]` of an empty
argument raises `IndexError` -/
def expandArg (py : Py) (fs : Fs) (a : List Char) : Except PyErr (List (List Char)) :=
  if fs.isDir a = true then .ok (dirFiles fs a)
  else match a with
    | [] => .error .indexError
    | c :: f => if c = '@' then .ok (textFile py fs f) else .ok [a]

/-- `FileListParser.parse` and `get_file_list`, `file_parser.py:19-20,38-47`, on a new parser; `acc` is
`self.file_list` -/
def parseFrom (py : Py) (fs : Fs) (acc : List (List Char)) : List (List Char) → Except PyErr (List (List Char))
  | [] => .ok acc
  | a :: as => match expandArg py fs a with
    | .error e => .error e
    | .ok l => parseFrom py fs (acc ++ l) as

/-- the file list of a new parser -/
def parseArgs (py : Py) (fs : Fs) (args : List (List Char)) : Except PyErr (List (List Char)) := parseFrom py fs [] args

/-- `InputFileParser._parse_file_list`, `cli_args_parser.py:18-21`: no test for comments; an `IOError` is raised
(here as `PyErr.valueError`, the model has no `IOError`) -/
def cliTextFile (py : Py) (fs : Fs) (f : List Char) : Except PyErr (List (List Char)) :=
  match fs.text f with
  | none => .error .valueError
  | some t => .ok ((lines (newlines t)).map py.strip)

/-- the body of the loop of `InputFileParser.parse`, `cli_args_parser.py:31-42` -/
def cliExpandArg (py : Py) (fs : Fs) (a : List Char) : Except PyErr (List (List Char)) :=
  if fs.isDir a = true then .ok (dirFiles fs a)
  else match a with
    | [] => .error .indexError
    | c :: f => if c = '@' then cliTextFile py fs f else .ok [a]

/-- `InputFileParser.parse`, `cli_args_parser.py:31-42`; `acc` is `self._filenames` -/
def cliParse (py : Py) (fs : Fs) (acc : List (List Char)) : List (List Char) → Except PyErr (List (List Char))
  | [] => .ok acc
  | a :: as => match cliExpandArg py fs a with
    | .error e => .error e
    | .ok l => cliParse py fs (acc ++ l) as

end Verif.Model
