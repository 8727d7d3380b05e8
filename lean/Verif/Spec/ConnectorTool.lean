import Verif.Model.ConnectorTool
import Verif.Spec.Connectors
import Verif.Spec.Load
/-!
# What `connector-update` does with the elements of a document
-/
namespace Verif.Spec
open Verif Verif.Model

variable {F : Type}

/-- the packages `ns` lead to a package with the element `w`, named `n` -/
def ElementAt (d : MObj F) (ns : List Str) (n : Str) (w : MObj F) : Prop := Reaches d (ns.map (Role.package, ·) ++ [(Role.element, n)]) w

/-- nothing says what a connector connects -/
def Unconnected (v : MObj F) : Prop := ∀ f ∈ [k!"providerIRef", k!"requesterIRef", k!"innerPortIRref", k!"outerPortRef"], v.get f = []

/-- The rows of a sheet can be added to a composition whose members have these names and classes: every delegation row names an inner and an
outer port of the same kind, and a name that is in use already is that of a connector of the same kind. -/
def Acceptable (members : List (Str × Key)) : List ConnRow → Prop
  | [] => True
  | r :: rows => rowComplete r = true ∧
    ((∃ e ∈ members, e.1 = (rowName r).toList) → ∃ e ∈ members, e.1 = (rowName r).toList ∧ armodel.sub e.2 (rowClass r) = true) ∧
    Acceptable (members ++ [((rowName r).toList, rowClass r)]) rows

/-- A composition before and after the update with the rows of a sheet, which can be added to it: the other attributes are the same; the assembly and delegation connectors
are gone; and for every row whose name no member of the composition had there is a connector, which connects nothing. -/
def UpdatedComposition (rows : List ConnRow) (w w' : MObj F) : Prop :=
  Acceptable ((w.get k!"elements").map fun v => (v.name, v.cls)) rows ∧ w'.cls = w.cls ∧ (∀ f, f ≠ k!"connectors" → f ≠ k!"elements" → w'.get f = w.get f) ∧
  ∃ new, w'.get k!"connectors" = (w.get k!"connectors").filter
      (fun v => !armodel.sub v.cls k!"AssemblySwConnector" && !armodel.sub v.cls k!"DelegationSwConnector") ++ new ∧
    List.Forall₂ (fun r v => v.name = (rowName r).toList ∧ v.cls = rowClass r ∧ Unconnected v)
      (newRows (fun n => (w.get k!"elements").any fun v => v.name == n.toList) rows) new

/-- An element of a package before and after the update. -/
def UpdatedElement (table : List (String × List ConnRow)) (w w' : MObj F) : Prop :=
  (∀ rows, (String.ofList w.name, rows) ∈ table → armodel.sub w.cls k!"SwComponentType" = true →
    armodel.sub w.cls k!"CompositionSwComponentType" = true ∧ UpdatedComposition rows w w') ∧
  ((armodel.sub w.cls k!"SwComponentType" = false ∨ String.ofList w.name ∉ table.map Prod.fst) → w' = w)

/-- a composition in a package of the document -/
def CompositionIn (d w : MObj F) : Prop := (∃ ns n, ElementAt d ns n w) ∧ armodel.sub w.cls k!"CompositionSwComponentType" = true

/-- a composition in which something is connected -/
def HasConnector (w : MObj F) : Prop :=
  ∃ v ∈ w.get k!"connectors", armodel.sub v.cls k!"AssemblySwConnector" = true ∨ armodel.sub v.cls k!"DelegationSwConnector" = true

end Verif.Spec
