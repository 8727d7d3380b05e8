import Verif.Model.Connectors
/-!
# Specification of the connector update
-/
namespace Verif.Spec
open Verif.Model

/-- the short name a row of the table gives -/
def rowName : ConnRow → String
  | .assembly n .. => n
  | .delegation n .. => n

/-- the kind of connector a row describes -/
def rowClass : ConnRow → Key
  | .assembly .. => k!"AssemblySwConnector"
  | .delegation .. => k!"DelegationSwConnector"

/-- a delegation row names an inner and an outer port of the same kind -/
def rowComplete : ConnRow → Bool
  | .assembly .. => true
  | .delegation _ _ ip op ir orr => (ip.isSome && op.isSome) || (ir.isSome && orr.isSome)

/-- the end points given in a row: attribute and value -/
def rowEnds : ConnRow → List (Key × EndPoint)
  | .assembly _ ps pp rs rp => [(k!"provider_iref", .iref true ps pp), (k!"requester_iref", .iref false rs rp)]
  | .delegation _ c ip op ir orr =>
    if ip.isSome && op.isSome then [(k!"inner_port_iref", .iref true c ip), (k!"outer_port_ref", .ref true op)]
    else [(k!"inner_port_iref", .iref false c ir), (k!"outer_port_ref", .ref false orr)]

/-- the connectors the update does not touch: neither assembly nor delegation connectors -/
def otherConnectors (H : Hier) (l : List Elem) : List Elem :=
  l.filter fun e => !(H.sub e.cls k!"AssemblySwConnector") && !(H.sub e.cls k!"DelegationSwConnector")

/-- the rows that lead to a new connector when the names in `known` are taken: the first row of every new name -/
def newRows (known : String → Bool) : List ConnRow → List ConnRow
  | [] => []
  | r :: rs => if known (rowName r) then newRows known rs
    else r :: newRows (fun n => n == rowName r || known n) rs

/-- the connector list and the contained elements fit together, as they do after any sequence of create calls -/
def Fits (s : Composition) : Prop := s.connectors.Sublist s.own.coll.elements ∧ s.own.coll.elements.Nodup

/-- all component types of packages and sub-packages -/
def allSwcs : List SwcPkg → List Swc
  | [] => []
  | .mk swcs subs :: r => swcs ++ allSwcs subs ++ allSwcs r

/-- column of a title: the only place where it stands in the title row -/
def TitleAt (titles : List Cell) (t : String) (i : Nat) : Prop := ∀ j, titles[j]? = some (some t) ↔ j = i

end Verif.Spec
