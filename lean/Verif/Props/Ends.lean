import Verif.Lemmas.Ends.Limit
import Verif.Lemmas.Ends.LimitJson
import Verif.Props.ExampleBom

/-!
# C96: reading XML comes to an end

In the model, the reader loops have a bound on their turns and a test whether a turn has given events
back; where one of them is violated they give the errors `depth` and `stuck`, which the program does not
have. The theorems say that this does not happen, so that the loops of the program, which have neither,
make no more turns than there are events and then return.
-/

set_option linter.unusedSectionVars false

namespace Cdx.Props
open Cdx

section
variable [F32Format] [ReadLimit] {α : Type} {v : SpecVersion} {m : Nat}

/-- C96: the readers of texts, numbers and truth values. -/
theorem C96_values :
    Proper m readSimple ∧ Proper m readOptional ∧ Proper m readInner ∧ Proper m readBool ∧
    Proper m readU32 ∧ Proper m readF32 ∧ Proper m readScore ∧ Proper m readRef :=
  ⟨readSimple_proper, readOptional_proper, readInner_proper, readBool_proper, readU32_proper,
    readF32_proper, readScore_proper, readRef_proper⟩

/-- C96: the readers of lists. -/
theorem C96_lists {inner : String} {r : XElem α} (h : Proper m r) :
    Proper m (readList inner r) ∧ Proper m (readListLax inner r) :=
  ⟨readList_proper h, readListLax_proper h⟩

/-- C96: the readers of elements, on events that need not belong to a well-formed document. -/
theorem C96_elements (h : m < ReadLimit.limit) :
    Proper m Advisory.readXml ∧
    Proper m (Annotation.readXml v) ∧
    Proper m (Annotator.readXml v) ∧
    Proper m AttachedText.readXml ∧
    Proper m Command.readXml ∧
    Proper m Commit.readXml ∧
    Proper m (Component.readXml v) ∧
    Proper m (Composition.readXml v) ∧
    Proper m Condition.readXml ∧
    Proper m DataClassification.readXml ∧
    Proper m DataGovernanceResponsibleParty.readXml ∧
    Proper m Dependency.readXml ∧
    Proper m Diff.readXml ∧
    Proper m ExternalReference.readXml ∧
    Proper m (Formula.readXml v) ∧
    Proper m Hash.readXml ∧
    Proper m IdentifiableAction.readXml ∧
    Proper m Input.readXml ∧
    Proper m Issue.readXml ∧
    Proper m (License.readXml v) ∧
    Proper m LicenseContact.readXml ∧
    Proper m (Licenses.readXml v) ∧
    Proper m Licensing.readXml ∧
    Proper m Lifecycle.readXml ∧
    Proper m (Metadata.readXml v) ∧
    Proper m Occurrence.readXml ∧
    Proper m OrganizationalContact.readXml ∧
    Proper m OrganizationalEntity.readXml ∧
    Proper m Output.readXml ∧
    Proper m Parameter.readXml ∧
    Proper m Patch.readXml ∧
    Proper m Property.readXml ∧
    Proper m ResourceReference.readXml ∧
    Proper m (Service.readXml v) ∧
    Proper m Signer.readXml ∧
    Proper m Source.readXml ∧
    Proper m SpdxExpression.readXml ∧
    Proper m Step.readXml ∧
    Proper m Swid.readXml ∧
    Proper m TargetVersion.readXml ∧
    Proper m (Tool.readXml v) ∧
    Proper m (Tools.readXml v) ∧
    Proper m Trigger.readXml ∧
    Proper m TriggerEvent.readXml ∧
    Proper m Volume.readXml ∧
    Proper m (Vulnerability.readXml v) ∧
    Proper m (VulnerabilityAnalysis.readXml v) ∧
    Proper m VulnerabilityCredits.readXml ∧
    Proper m VulnerabilityRating.readXml ∧
    Proper m VulnerabilityReference.readXml ∧
    Proper m VulnerabilitySource.readXml ∧
    Proper m VulnerabilityTarget.readXml ∧
    Proper m Workflow.readXml ∧
    Proper m WorkflowTask.readXml ∧
    Proper m Workspace.readXml ∧
    Proper m DataGovernance.readXml ∧
    Proper m Attachment.readXml ∧
    Proper m Graphic.readXml ∧
    Proper m GraphicsCollection.readXml ∧
    Proper m DataContents.readXml ∧
    Proper m ComponentData.readXml ∧
    Proper m ModelParametersApproach.readXml ∧
    Proper m Dataset.readXml ∧
    Proper m MLParameter.readXml ∧
    Proper m ModelParameters.readXml ∧
    Proper m ConfidenceInterval.readXml ∧
    Proper m PerformanceMetric.readXml ∧
    Proper m QuantitativeAnalysis.readXml ∧
    Proper m ModelCard.readXml ∧
    Proper m VulnerabilityProofOfConcept.readXml ∧
    Proper m ServiceData.readXml ∧
    Proper m (ServiceDataChoice.readXml v) ∧
    Proper m Frame.readXml ∧
    Proper m Callstack.readXml ∧
    Proper m Method.readXml ∧
    Proper m Identity.readXml ∧
    Proper m (ComponentEvidence.readXml v) ∧
    Proper m Signature.readXml ∧
    Proper m readToolRefs :=
  haveI : Enough m := ⟨h⟩
  ⟨Advisory.xml_proper, Annotation.xml_proper v, Annotator.xml_proper v, AttachedText.xml_proper,
    Command.xml_proper, Commit.xml_proper, Component.xml_proper v, Composition.xml_proper v,
    Condition.xml_proper, DataClassification.xml_proper, DataGovernanceResponsibleParty.xml_proper,
    Dependency.xml_proper, Diff.xml_proper, ExternalReference.xml_proper, Formula.xml_proper v,
    Hash.xml_proper, IdentifiableAction.xml_proper, Input.xml_proper, Issue.xml_proper,
    License.xml_proper v, LicenseContact.xml_proper, Licenses.xml_proper v, Licensing.xml_proper,
    Lifecycle.xml_proper, Metadata.xml_proper v, Occurrence.xml_proper,
    OrganizationalContact.xml_proper, OrganizationalEntity.xml_proper, Output.xml_proper,
    Parameter.xml_proper, Patch.xml_proper, Property.xml_proper, ResourceReference.xml_proper,
    Service.xml_proper v, Signer.xml_proper, Source.xml_proper, SpdxExpression.xml_proper,
    Step.xml_proper, Swid.xml_proper, TargetVersion.xml_proper, Tool.xml_proper v,
    Tools.xml_proper v, Trigger.xml_proper, TriggerEvent.xml_proper, Volume.xml_proper,
    Vulnerability.xml_proper v, VulnerabilityAnalysis.xml_proper v,
    VulnerabilityCredits.xml_proper, VulnerabilityRating.xml_proper,
    VulnerabilityReference.xml_proper, VulnerabilitySource.xml_proper,
    VulnerabilityTarget.xml_proper, Workflow.xml_proper, WorkflowTask.xml_proper,
    Workspace.xml_proper, DataGovernance.xml_proper, Attachment.xml_proper, Graphic.xml_proper,
    GraphicsCollection.xml_proper, DataContents.xml_proper, ComponentData.xml_proper,
    ModelParametersApproach.xml_proper, Dataset.xml_proper, MLParameter.xml_proper,
    ModelParameters.xml_proper, ConfidenceInterval.xml_proper, PerformanceMetric.xml_proper,
    QuantitativeAnalysis.xml_proper, ModelCard.xml_proper, VulnerabilityProofOfConcept.xml_proper,
    ServiceData.xml_proper, ServiceDataChoice.xml_proper v, Frame.xml_proper, Callstack.xml_proper,
    Method.xml_proper, Identity.xml_proper, ComponentEvidence.xml_proper v, Signature.xml_proper,
    readToolRefs_proper⟩

/-- C96: whatever events the XML library reports, reading them as a document ends with a BOM or with an
error that the program has. -/
theorem C96_document (evs : List XEvent) (h : evs.length < ReadLimit.limit) :
    (∃ b, Bom.parseXmlWith v evs = .ok b) ∨
    ∃ e, Bom.parseXmlWith v evs = .error e ∧ e ≠ .stuck ∧ e ≠ .depth := by
  suffices hs : ∀ e, Bom.parseXmlWith v evs = .error e → e ≠ .stuck ∧ e ≠ .depth by
    cases hp : Bom.parseXmlWith v evs with
    | ok b => exact .inl ⟨b, rfl⟩
    | error e => exact .inr ⟨e, rfl, hs e hp⟩
  simp only [Bom.parseXmlWith]
  refine Fine.out ?_
  unfold Bom.readDocument
  split
  · rename_i n attrs ns l
    haveI : Enough l.length := ⟨by simp only [List.length_cons] at h; omega⟩
    split
    · split
      · refine fine_bind ?_ fun k => fine_bind ⟨fun e he => ?_⟩ fun p => ?_
        · simp only [Bom.versionOfAttrs]
          fine
        · have := readLoop_proper (m := l.length) (mode := .skip) (isEnd := fun n => n.localName = "bom")
            (el := n) (Bom.arms_proper v) _ {} l (Nat.lt_succ_self _) (Nat.le_succ _)
          rw [show readLoop _ _ _ _ _ _ _ = _ from he] at this
          exact this
        · obtain ⟨vars, l⟩ := p
          simp only
          split
          · exact fine_ok _
          · exact ⟨by rintro e ⟨⟩; exact ⟨nofun, nofun⟩⟩
          · exact fine_unexpected
      · exact ⟨by rintro e ⟨⟩; exact ⟨nofun, nofun⟩⟩
    · exact fine_unexpected
  · exact ⟨by rintro e ⟨⟩; exact ⟨nofun, nofun⟩⟩
  · exact ⟨by rintro e ⟨⟩; exact ⟨nofun, nofun⟩⟩
  · exact fine_unexpected

end

/-- C96: how deep components and services may be nested makes no difference for shorter documents: it is
only the end of the stack. -/
theorem C96_limit [F32Format] {v : SpecVersion} (i j : ReadLimit) (evs : List XEvent)
    (hi : evs.length < i.limit) (hj : evs.length < j.limit) :
    @Bom.parseXmlWith _ i v evs = @Bom.parseXmlWith _ j v evs := by
  unfold Bom.parseXmlWith Bom.readDocument
  split
  · rename_i n attrs ns l
    simp only [List.length_cons] at hi hj
    have := readLoop_alike (m := l.length) (mode := .skip) (isEnd := fun n => n.localName = "bom")
      (el := n) (Bom.arms_alike (v := v) (i := i) (j := j) (by omega) (by omega)) (l.length + 1) {} l
      (Nat.le_succ _)
    unfold Bom.readBody
    rw [this]
  · rfl
  · rfl
  · rfl

/-- C96: the same for JSON documents in which arrays and objects are not nested deeper than that. -/
theorem C96_limit_json [F32Format] (i j : ReadLimit) {n : Nat} {doc : Json} (h : Spec.Within n doc)
    (hi : n ≤ i.limit) (hj : n ≤ j.limit) :
    @Bom.parseJson _ i doc = @Bom.parseJson _ j doc ∧
      ∀ v, @Bom.parseJsonWith _ i v doc = @Bom.parseJsonWith _ j v doc := by
  refine ⟨?_, fun v => Bom.jsonAlike hi hj doc h⟩
  have e := fun v => Bom.jsonAlike (v := v) hi hj doc.toValue (within_toValue h)
  unfold Bom.parseJson Bom.parseJsonValue
  split
  · simp only [e]
  · rfl

/-! ### Non-vacuity -/

private def errorOf : Except XErr Bom → Option XErr
  | .ok _ => none
  | .error e => some e

section
attribute [local instance] Example.f32 Example.limit

/-- Events that end in the middle of an element, and tags that do not belong together: both give errors
of the program. -/
example : errorOf (Bom.parseXmlWith .v1_4 [.startDocument, .start ⟨"bom", none, none⟩ []
      (some SpecVersion.v1_4.namespace), .start ⟨"components", none, none⟩ [] none]) = some .eof ∧
    errorOf (Bom.parseXmlWith .v1_4 [.startDocument, .start ⟨"bom", none, none⟩ []
      (some SpecVersion.v1_4.namespace), .start ⟨"unknown", none, none⟩ [] none,
      .stop ⟨"components", none, none⟩]) = some (.unexpected "unknown") := by
  constructor <;> decide +kernel

end

section
attribute [local instance] Example.f32

/-- With a stack for no component at all a component exhausts it: the condition is needed. -/
example : errorOf (@Bom.parseXmlWith _ ⟨0⟩ .v1_4 [.startDocument, .start ⟨"bom", none, none⟩ []
      (some SpecVersion.v1_4.namespace), .start ⟨"components", none, none⟩ [] none,
      .start ⟨"component", none, none⟩ [] none]) = some .depth := by
  decide +kernel

private def nested : Json :=
  .obj [("bomFormat", .str "CycloneDX"), ("specVersion", .str "1.4"), ("version", .nat 1),
    ("components", .arr [.obj [("type", .str "library"), ("name", .str "outer"),
      ("components", .arr [.obj [("type", .str "library"), ("name", .str "inner")]])]])]

/-- A document with a component within a component, in which five arrays and objects are nested, is read
with room for as many components; with room for one component only, it is not. -/
example : Spec.Within 5 nested ∧ (@Bom.parseJson _ ⟨5⟩ nested).isOk = true ∧
    (@Bom.parseJson _ ⟨1⟩ nested).isOk = false := by
  refine ⟨?_, by decide +kernel, by decide +kernel⟩
  refine .obj ?_
  simp only [List.mem_cons, List.not_mem_nil, or_false, forall_eq_or_imp, forall_eq]
  refine ⟨.str, .str, .nat, .arr ?_⟩
  simp only [List.mem_cons, List.not_mem_nil, or_false, forall_eq]
  refine .obj ?_
  simp only [List.mem_cons, List.not_mem_nil, or_false, forall_eq_or_imp, forall_eq]
  refine ⟨.str, .str, .arr ?_⟩
  simp only [List.mem_cons, List.not_mem_nil, or_false, forall_eq]
  refine .obj ?_
  simp only [List.mem_cons, List.not_mem_nil, or_false, forall_eq_or_imp, forall_eq]
  exact ⟨.str, .str⟩

end

end Cdx.Props
