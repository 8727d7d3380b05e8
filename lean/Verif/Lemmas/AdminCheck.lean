import Verif.Lemmas.Layout
/-!
# Which writer methods use the admin data
-/
namespace Verif.Lemmas
open Verif Verif.Model Verif.Gen

/-- a condition that does not look at the attributes `S` -/
def condFree (S : List Key) : Cond → Bool
  | .any fs | .none fs => fs.all fun f => !S.contains f.1
  | _ => true

/-- a writer method that does not use the attributes `S` -/
def wFree (S : List Key) : WB → Bool
  | .nil => true
  | .attr _ _ f r | .text _ f r | .prim _ _ f r | .oprim _ _ _ f r | .each f _ _ _ _ r => !S.contains f && wFree S r
  | .wrap c _ b r | .when c b r => condFree S c && wFree S b && wFree S r
  | .fail _ _ r => wFree S r

/-- a method that never adds an element with a tag in `B` to the element it is given, according to the table of tags -/
def quiet (B : List Key) (k : Key) : Bool := match tagTable.find? k with
  | some ts => ts.all fun t => !B.contains t
  | none => false

/-- a writer method that adds no element with a tag in `B` -/
def wQuiet (B : List Key) : WB → Bool
  | .nil => true
  | .attr _ _ _ r | .text _ _ r | .fail _ _ r => wQuiet B r
  | .prim t _ _ r | .oprim t _ _ _ r | .wrap _ t _ r => !B.contains t && wQuiet B r
  | .each _ _ _ cs _ r => (cs.all fun c => quiet B c.body) && wQuiet B r
  | .when _ b r => wQuiet B b && wQuiet B r

/-- the call that writes the admin data -/
def adminCases : List Case := [⟨[], [], k!"setAdminData_AdminData"⟩]

/-- a writer method that uses the attribute `adminData` only to write it; it uses no other attribute of `S`, and adds no other
element with a tag in `B` -/
def wAdmin (S B : List Key) : WB → Bool
  | .nil => true
  | .attr _ _ f r | .text _ f r => !S.contains f && wAdmin S B r
  | .prim t _ f r | .oprim t _ _ f r => !B.contains t && !S.contains f && wAdmin S B r
  | .each f v a cs o r =>
    (if f = k!"adminData" then v == [] && a == .plain && cs == adminCases && o == .skip
     else !S.contains f && cs.all fun c => quiet B c.body) && wAdmin S B r
  | .wrap c t b r => !B.contains t && condFree S c && wFree S b && wAdmin S B r
  | .when c b r => condFree S c && wFree S b && wQuiet B b && wAdmin S B r
  | .fail _ _ r => wAdmin S B r

/-- the method for an element of a package: elements with the admin data in them -/
def elementBody : WB → Bool
  | .nil => true
  | .wrap c _ b r => condFree [k!"adminData"] c && wAdmin [k!"adminData"] [k!"ADMIN-DATA"] b && elementBody r
  | _ => false

/-- the method for an element of a package without admin data -/
def bareBody : WB → Bool
  | .nil => true
  | .wrap _ _ b r => wQuiet [k!"ADMIN-DATA"] b && bareBody r
  | _ => false

/-- the test on a method of the table -/
def onMethod (p : WB → Bool) (k : Key) : Bool := match writers k with
  | some b => p b
  | none => false

/-- a branch that takes only `Identifiable`s -/
def takesIdentifiable (c : Case) : Bool :=
  c.pos.any fun p => p.2.all fun d => (classTable.find? d).isSome && armodel.sub d k!"Identifiable"

/-- the branches for the elements of a package -/
def elementCases : List Case := match Gen.W.writeARPackageElements_ARPackage with
  | .wrap _ _ (.each _ _ _ cs _ _) _ => cs
  | _ => []

/-- tags with a meaning in a package -/
def pkgTags : List Key := [k!"ADMIN-DATA", k!"ELEMENTS", k!"AR-PACKAGES"]

/-- attributes that change in a package -/
def pkgAttrs : List Key := [k!"adminData", k!"elements", k!"arPackages"]

end Verif.Lemmas
