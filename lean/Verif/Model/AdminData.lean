import Verif.Model.Codec
import Verif.Model.Classes
/-!
# `AdminDataTransformer`

`transformer/admin_data.py:19-37`.  The document is an object tree (no element is shared by two packages).
-/
namespace Verif.Model
variable {F : Type}

/-- `removeAdminData`: `AutosarTopLevelStructure/__init__.py:131-132`, `ARPackage.py:607-611`,
`Identifiable.py:508-512,712-716` -/
def MObj.removeAdminData : MObj F → MObj F
  | .scal s => .scal s
  | .mk c fs => .mk c (fs.map fun e => if e.1.1 = k!"adminData" then (e.1, []) else e)

/-- the body of the loop over the elements of a package, `admin_data.py:26-32` -/
def processElement (e : MObj F) : MObj F :=
  if armodel.sub e.cls k!"Describable" = true then e.removeAdminData
  else if armodel.sub e.cls k!"Identifiable" = true then e.removeAdminData
  else e

/-- is the field part of `self.elements`? -/
def isMember (k : Key × Bool) : Bool := k.2 || k.1 == k!"elements"

mutual
/-- `process_pkg`, `admin_data.py:19-32` -/
def processPkg : MObj F → MObj F
  | .scal s => .scal s
  | .mk c fs => .mk c (processFields fs)
/-- the fields of a package: the loop over the sub-packages, `removeAdminData`, the loop over the elements -/
def processFields : List ((Key × Bool) × List (MObj F)) → List ((Key × Bool) × List (MObj F))
  | [] => []
  | (k, vs) :: fs =>
    (k, if k.1 = k!"arPackages" then processPkgs vs
        else if k.1 = k!"adminData" then []
        else if isMember k = true then vs.map processElement
        else vs) :: processFields fs
/-- `for sub_package in pkg.getARPackages(): self.process_pkg(sub_package)` -/
def processPkgs : List (MObj F) → List (MObj F)
  | [] => []
  | v :: vs => processPkg v :: processPkgs vs
end

/-- `remove`, `admin_data.py:34-37`: the document's own admin data and its packages -/
def removeAll : MObj F → MObj F
  | .scal s => .scal s
  | .mk c fs => .mk c (fs.map fun e =>
      if e.1.1 = k!"adminData" then (e.1, [])
      else if e.1.1 = k!"arPackages" then (e.1, processPkgs e.2)
      else e)

end Verif.Model
