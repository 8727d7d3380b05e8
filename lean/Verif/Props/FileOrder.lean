import Verif.Lemmas.FileOrder
import Verif.Props.Built
/-!
# C88: the values of an attribute are in the order of the file
-/
namespace Verif.Props
open Verif Verif.Model Verif.Spec Verif.Lemmas

/-- **C88** Whatever a file contains, if it is loaded, then for each object of the document there is an element of the file, so that the values of each
attribute of the object are made of different elements below it, and are in the order in which these are in the file. -/
theorem C88_order (py : Py) (strict : Bool) (x : Xml) (d : MObj py.F) (hl : load py strict x = .ok d) (o : MObj py.F) (ho : Within d o) :
    ∃ y ∈ inOrder x, Ordered py o y := by
  unfold load at hl
  split at hl
  · cases hl
  · exact within_order hl ho

/-- a file with a diagnostic connection for two functional requests -/
def requestXml : Xml :=
  .node k!"AUTOSAR" [] [] [.node k!"AR-PACKAGES" [] [] [.node k!"AR-PACKAGE" [] [] [.leaf k!"SHORT-NAME" [] "P".toList,
    .node k!"ELEMENTS" [] [] [.node k!"DIAGNOSTIC-CONNECTION" [] [] [.leaf k!"SHORT-NAME" [] "C".toList,
      .node k!"FUNCTIONAL-REQUEST-REFS" [] [] [.leaf k!"FUNCTIONAL-REQUEST-REF" [] "/P/B".toList, .leaf k!"FUNCTIONAL-REQUEST-REF" [] "/P/A".toList]]]]]]

def requestObj (F : Type) : MObj F := withFields k!"readARPackageElements_DiagnosticConnection"
  [(k!"short_name", [.scal (.str "C".toList)]), (k!"functionalRequestRefs", [.scal (.ref none none "/P/B".toList), .scal (.ref none none "/P/A".toList)])]

def requestPkg (F : Type) : MObj F := withFields k!"readARPackages_ARPackage" [(k!"short_name", [.scal (.str "P".toList)]), (k!"elements", [requestObj F])]

def requestDoc (F : Type) : MObj F := withFields k!"load" [(k!"arPackages", [requestPkg F])]

/-- the hypotheses hold for this file and the connection in it -/
theorem request_loaded (py : Py) (strict : Bool) : load py strict requestXml = .ok (requestDoc py.F) ∧ Within (requestDoc py.F) (requestObj py.F) := by
  refine ⟨by cases strict <;> rfl, ?_⟩
  have hp : requestPkg py.F ∈ (requestDoc py.F).get k!"arPackages" := by
    have : (requestDoc py.F).get k!"arPackages" = [requestPkg py.F] := rfl
    rw [this]; simp
  have hc : requestObj py.F ∈ (requestPkg py.F).get k!"elements" := by
    have : (requestPkg py.F).get k!"elements" = [requestObj py.F] := rfl
    rw [this]; simp
  obtain ⟨e, he, _, hp⟩ := mem_get hp
  obtain ⟨e', he', _, hc⟩ := mem_get hc
  exact .inside e he hp (.inside e' he' hc (.here _))

end Verif.Props
