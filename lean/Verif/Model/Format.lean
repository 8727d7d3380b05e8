import Verif.Model.Markup
/-!
# The tool `format-xml`

`cli/format_xml_cli.py`.  The result of `ET.parse` and `ET.tostring` (lines 22-28) is not used; `ET.parse` raises an
exception for the same files as `minidom.parse`.

Simplifications: those of `Model/Markup.lean`; a file with comments, processing instructions or CDATA sections (`minidom`
keeps them) is not modelled, `formatXml` treats it like a file that cannot be read; a file with an `xmlns` attribute whose value is empty is not modelled.
-/
namespace Verif.Model

/-- `str.splitlines`: the characters that end a line -/
def lineSep (c : Char) : Bool :=
  (10 ≤ c.toNat && c.toNat ≤ 13) || (28 ≤ c.toNat && c.toNat ≤ 30) || c.toNat == 0x85 || c.toNat == 0x2028 || c.toNat == 0x2029

/-- `str.splitlines`: `cr` says that the last character was a carriage return, `cur` is the line so far; `\r\n` ends one
line, and a line end at the end of the text is not followed by an empty line -/
def splitlinesGo (cr : Bool) (cur : Str) : Str → List Str
  | [] => if cur = [] then [] else [cur]
  | c :: s =>
    if cr && c == '\n' then splitlinesGo false [] s
    else if lineSep c then cur :: splitlinesGo (c == '\r') [] s
    else splitlinesGo false (cur ++ [c]) s

def splitlines (s : Str) : List Str := splitlinesGo false [] s

/-- the attributes as `minidom` has them: `ExpatBuilderNS.start_element_handler` adds the namespace declarations first -/
def nsAttrs (as : List (Str × Str)) : List (Str × Str) := (as.filter fun a => isXmlns a.1) ++ as.filter fun a => !isXmlns a.1

mutual
/-- the tree `minidom.parse` builds -/
def El.dom : El → El
  | .mk n as s kids t => .mk n (nsAttrs as) s (El.doms kids) t
def El.doms : List El → List El
  | [] => []
  | e :: l => e.dom :: El.doms l
end

/-- lines 38-42: the lines that are written -/
def writtenLines (py : Py) (s : Str) : Str :=
  ((splitlines s).filter fun l => py.strip l != []).flatMap fun l => l ++ ['\n']

/-- `perform_format`, `format_xml_cli.py:18-46`: the content of the output file for the content of the input file, `none`
when the error is logged and the program ends -/
def formatXml (py : Py) (nc : NameChars) (s : Str) : Option Str :=
  (parseXml nc.plain s).map fun e => writtenLines py (patchXml py false (domHead ++ domWrite [] e.dom))

end Verif.Model
