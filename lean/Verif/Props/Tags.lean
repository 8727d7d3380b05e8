import Verif.Lemmas.TagsTable
import Verif.Props.Built
import Verif.Props.Markup
/-!
# C87: attributes show the elements they are named after
-/
namespace Verif.Props
open Verif Verif.Model Verif.Spec Verif.Lemmas

/-- **C87** Whatever a file contains, if it is loaded, then every value of every attribute of every object of the document is read from an element, or an
XML attribute, that is named after the attribute and is below the element of the object.  The two sides of `wrongNames` count as the same name: for these
the claim is false (`C87_broken`). -/
theorem C87_named_partial (py : Py) (strict : Bool) (x : Xml) (d : MObj py.F) (hl : load py strict x = .ok d) : Mirrors py wrongNames d x := by
  unfold load at hl
  split at hl
  · cases hl
  · exact obj_mirrors names_table placesB_readers hl

/-- **C87** An attribute has no value in any object of the document, if there is nothing in the file that is named after it. -/
theorem C87_absent (py : Py) (strict : Bool) (x : Xml) (d : MObj py.F) (hl : load py strict x = .ok d) (f : Key) (h1 : f ∉ ownText) (h2 : f ∉ kinds)
    (hx : Every (fun y => ¬ MeantBy wrongNames f y.tag ∧ ∀ n v, y.attr n = some v → ¬ MeantBy wrongNames f n) x) (o : MObj py.F) (ho : Within d o) :
    o.get f = [] := mirrors_silent (C87_named_partial py strict x d hl) h1 h2 hx ho

/-- a file with a diagnostic connection that has a response -/
def responseXml : Xml :=
  .node k!"AUTOSAR" [] [] [.node k!"AR-PACKAGES" [] [] [.node k!"AR-PACKAGE" [] [] [.leaf k!"SHORT-NAME" [] "P".toList,
    .node k!"ELEMENTS" [] [] [.node k!"DIAGNOSTIC-CONNECTION" [] [] [.leaf k!"SHORT-NAME" [] "C".toList,
      .leaf k!"RESPONSE-REF" [(k!"DEST", "PDU".toList)] "/P/R".toList]]]]]

/-- nothing in the element itself is named after the attribute -/
def silentB (E : List (Key × Key)) (f : Key) (x : Xml) : Bool := decide (¬ MeantBy E f x.tag) && x.attrs.all fun a => decide (¬ MeantBy E f a.1)

theorem silentB_sound {E : List (Key × Key)} {f : Key} {x : Xml} (h : silentB E f x = true) : Silent E f x := by
  simp only [silentB, Bool.and_eq_true, decide_eq_true_eq, List.all_eq_true] at h
  refine ⟨h.1, fun n v hv => ?_⟩
  obtain ⟨l, r, he, _⟩ := List.lookup_eq_some_iff.1 hv
  exact h.2 (n, v) (by rw [he]; simp)

/-- the connection that is loaded -/
def responseObj (F : Type) : MObj F := withFields k!"readARPackageElements_DiagnosticConnection"
  [(k!"short_name", [.scal (.str "C".toList)]), (k!"responseOnEventRef", [.scal (.ref none (some "PDU".toList) "/P/R".toList)])]

def responsePkg (F : Type) : MObj F := withFields k!"readARPackages_ARPackage" [(k!"short_name", [.scal (.str "P".toList)]), (k!"elements", [responseObj F])]

/-- the document that is loaded -/
def responseDoc (F : Type) : MObj F := withFields k!"load" [(k!"arPackages", [responsePkg F])]

/-- **C87, broken** The response of a diagnostic connection is loaded as its response on event: nothing in the file is called so, and the attribute
`responseRef` remains empty. -/
theorem C87_broken (py : Py) (strict : Bool) : load py strict responseXml = .ok (responseDoc py.F) ∧ ¬ Mirrors py [] (responseDoc py.F) responseXml ∧
    ∃ v, findIn ["P".toList, "C".toList] (responseDoc py.F) = some v ∧ v.get k!"responseRef" = [] ∧
      v.get k!"responseOnEventRef" = [.scal (.ref none (some "PDU".toList) "/P/R".toList)] := by
  refine ⟨by cases strict <;> rfl, fun hm => ?_, responseObj py.F, by rfl, by rfl, by rfl⟩
  have hs : Every (Silent [] k!"responseOnEventRef") responseXml := everyB_sound (fun _ h => silentB_sound h) 20 _ (by decide +kernel)
  have hp : responsePkg py.F ∈ (responseDoc py.F).get k!"arPackages" := by
    have : (responseDoc py.F).get k!"arPackages" = [responsePkg py.F] := rfl
    rw [this]; simp
  have hc : responseObj py.F ∈ (responsePkg py.F).get k!"elements" := by
    have : (responsePkg py.F).get k!"elements" = [responseObj py.F] := rfl
    rw [this]; simp
  obtain ⟨e, he, _, hp⟩ := mem_get hp
  obtain ⟨e', he', _, hc⟩ := mem_get hc
  have := mirrors_silent hm (by decide) (by decide) hs (.inside e he hp (.inside e' he' hc (.here _)))
  have h2 : (responseObj py.F).get k!"responseOnEventRef" = [.scal (.ref none (some "PDU".toList) "/P/R".toList)] := rfl
  rw [h2] at this
  cases this

/-- the hypotheses of `C87_named_partial` and `C87_absent` hold for the file and the attribute `physicalRequestRef` -/
example (py : Py) (strict : Bool) : ∃ d, load py strict responseXml = .ok d ∧ k!"physicalRequestRef" ∉ ownText ∧ k!"physicalRequestRef" ∉ kinds ∧
    Every (fun y => ¬ MeantBy wrongNames k!"physicalRequestRef" y.tag ∧ ∀ n v, y.attr n = some v → ¬ MeantBy wrongNames k!"physicalRequestRef" n) responseXml :=
  ⟨_, (C87_broken py strict).1, by decide, by decide, everyB_sound (fun _ h => silentB_sound h) 20 _ (by decide +kernel)⟩

end Verif.Props
