import Verif.Lemmas.Bounded.Types
import Verif.Lemmas.Format.Document
import Verif.Props.ExampleBom

/-!
# C42: readers do not go beyond their element

Unlike in `Props/Readers.lean`, nothing is asked about elements that the readers do not know and what is
in them.
-/

set_option linter.unusedSectionVars false

namespace Cdx.Props
open Cdx

section
variable [F32Format] [ReadLimit] {α : Type} {v : SpecVersion} {tag inner : String}

/-- C42: the readers of texts, numbers and truth values. -/
theorem C42_bounded_values :
    BoundedAt tag readSimple ∧ BoundedAt tag readOptional ∧ BoundedAt tag readInner ∧
    BoundedAt tag readBool ∧ BoundedAt tag readU32 ∧ BoundedAt tag readF32 ∧ BoundedAt tag readScore ∧
    BoundedAt tag readRef :=
  ⟨readSimple_bounded, readOptional_bounded, readInner_bounded, readBool_bounded, readU32_bounded,
    readF32_bounded, readScore_bounded, readRef_bounded⟩

/-- C42: the readers of lists. -/
theorem C42_bounded_lists {r : XElem α} (h : BoundedAt inner r) :
    BoundedAt tag (readList inner r) ∧ BoundedAt tag (readListLax inner r) :=
  ⟨readList_bounded h, readListLax_bounded h⟩

/-- C42: the readers of elements that do not drop unknown content event by event. -/
theorem C42_bounded_elements :
    BoundedAt tag Advisory.readXml ∧
    BoundedAt tag (Annotation.readXml v) ∧
    BoundedAt tag (Annotator.readXml v) ∧
    BoundedAt tag AttachedText.readXml ∧
    BoundedAt tag Command.readXml ∧
    BoundedAt tag Commit.readXml ∧
    BoundedAt tag (Component.readXml v) ∧
    BoundedAt tag (Composition.readXml v) ∧
    BoundedAt tag Condition.readXml ∧
    BoundedAt tag DataClassification.readXml ∧
    BoundedAt tag DataGovernanceResponsibleParty.readXml ∧
    BoundedAt tag Dependency.readXml ∧
    BoundedAt tag Diff.readXml ∧
    BoundedAt tag ExternalReference.readXml ∧
    BoundedAt tag (Formula.readXml v) ∧
    BoundedAt tag Hash.readXml ∧
    BoundedAt tag IdentifiableAction.readXml ∧
    BoundedAt tag Input.readXml ∧
    BoundedAt tag Issue.readXml ∧
    BoundedAt tag (License.readXml v) ∧
    BoundedAt tag LicenseContact.readXml ∧
    BoundedAt tag (Licenses.readXml v) ∧
    BoundedAt tag Licensing.readXml ∧
    BoundedAt tag Lifecycle.readXml ∧
    BoundedAt tag (Metadata.readXml v) ∧
    BoundedAt tag Occurrence.readXml ∧
    BoundedAt tag OrganizationalContact.readXml ∧
    BoundedAt tag OrganizationalEntity.readXml ∧
    BoundedAt tag Output.readXml ∧
    BoundedAt tag Parameter.readXml ∧
    BoundedAt tag Patch.readXml ∧
    BoundedAt tag Property.readXml ∧
    BoundedAt tag ResourceReference.readXml ∧
    BoundedAt tag (Service.readXml v) ∧
    BoundedAt tag Signer.readXml ∧
    BoundedAt tag Source.readXml ∧
    BoundedAt tag SpdxExpression.readXml ∧
    BoundedAt tag Step.readXml ∧
    BoundedAt tag Swid.readXml ∧
    BoundedAt tag TargetVersion.readXml ∧
    BoundedAt tag (Tool.readXml v) ∧
    BoundedAt tag (Tools.readXml v) ∧
    BoundedAt tag Trigger.readXml ∧
    BoundedAt tag TriggerEvent.readXml ∧
    BoundedAt tag Volume.readXml ∧
    BoundedAt tag (Vulnerability.readXml v) ∧
    BoundedAt tag (VulnerabilityAnalysis.readXml v) ∧
    BoundedAt tag VulnerabilityCredits.readXml ∧
    BoundedAt tag VulnerabilityRating.readXml ∧
    BoundedAt tag VulnerabilityReference.readXml ∧
    BoundedAt tag VulnerabilitySource.readXml ∧
    BoundedAt tag VulnerabilityTarget.readXml ∧
    BoundedAt tag Workflow.readXml ∧
    BoundedAt tag WorkflowTask.readXml ∧
    BoundedAt tag Workspace.readXml :=
  ⟨Advisory.xml_bounded, Annotation.xml_bounded v, Annotator.xml_bounded v,
    AttachedText.xml_bounded, Command.xml_bounded, Commit.xml_bounded, Component.xml_bounded v,
    Composition.xml_bounded v, Condition.xml_bounded, DataClassification.xml_bounded,
    DataGovernanceResponsibleParty.xml_bounded, Dependency.xml_bounded, Diff.xml_bounded,
    ExternalReference.xml_bounded, Formula.xml_bounded v, Hash.xml_bounded,
    IdentifiableAction.xml_bounded, Input.xml_bounded, Issue.xml_bounded, License.xml_bounded v,
    LicenseContact.xml_bounded, Licenses.xml_bounded v, Licensing.xml_bounded,
    Lifecycle.xml_bounded, Metadata.xml_bounded v, Occurrence.xml_bounded,
    OrganizationalContact.xml_bounded, OrganizationalEntity.xml_bounded, Output.xml_bounded,
    Parameter.xml_bounded, Patch.xml_bounded, Property.xml_bounded,
    ResourceReference.xml_bounded, Service.xml_bounded v, Signer.xml_bounded,
    Source.xml_bounded, SpdxExpression.xml_bounded, Step.xml_bounded, Swid.xml_bounded,
    TargetVersion.xml_bounded, Tool.xml_bounded v, Tools.xml_bounded v, Trigger.xml_bounded,
    TriggerEvent.xml_bounded, Volume.xml_bounded, Vulnerability.xml_bounded v,
    VulnerabilityAnalysis.xml_bounded v, VulnerabilityCredits.xml_bounded,
    VulnerabilityRating.xml_bounded, VulnerabilityReference.xml_bounded,
    VulnerabilitySource.xml_bounded, VulnerabilityTarget.xml_bounded, Workflow.xml_bounded,
    WorkflowTask.xml_bounded, Workspace.xml_bounded⟩

/-- C42: the readers of elements that drop unknown content event by event. They can return too early
(`C42_fails`), but not too late. -/
theorem C42_bounded_dropping :
    BoundedAt tag DataGovernance.readXml ∧
    BoundedAt tag Attachment.readXml ∧
    BoundedAt tag Graphic.readXml ∧
    BoundedAt tag GraphicsCollection.readXml ∧
    BoundedAt tag DataContents.readXml ∧
    BoundedAt tag ComponentData.readXml ∧
    BoundedAt tag ModelParametersApproach.readXml ∧
    BoundedAt tag Dataset.readXml ∧
    BoundedAt tag MLParameter.readXml ∧
    BoundedAt tag ModelParameters.readXml ∧
    BoundedAt tag ConfidenceInterval.readXml ∧
    BoundedAt tag PerformanceMetric.readXml ∧
    BoundedAt tag QuantitativeAnalysis.readXml ∧
    BoundedAt tag ModelCard.readXml ∧
    BoundedAt tag VulnerabilityProofOfConcept.readXml ∧
    BoundedAt tag ServiceData.readXml ∧
    BoundedAt tag (ServiceDataChoice.readXml v) ∧
    BoundedAt tag Frame.readXml ∧
    BoundedAt tag Callstack.readXml ∧
    BoundedAt tag Method.readXml ∧
    BoundedAt tag Identity.readXml ∧
    BoundedAt tag (ComponentEvidence.readXml v) ∧
    BoundedAt "signature" Signature.readXml ∧
    BoundedAt "tools" readToolRefs :=
  ⟨DataGovernance.xml_bounded, Attachment.xml_bounded, Graphic.xml_bounded,
    GraphicsCollection.xml_bounded, DataContents.xml_bounded, ComponentData.xml_bounded,
    ModelParametersApproach.xml_bounded, Dataset.xml_bounded, MLParameter.xml_bounded,
    ModelParameters.xml_bounded, ConfidenceInterval.xml_bounded, PerformanceMetric.xml_bounded,
    QuantitativeAnalysis.xml_bounded, ModelCard.xml_bounded,
    VulnerabilityProofOfConcept.xml_bounded, ServiceData.xml_bounded,
    ServiceDataChoice.xml_bounded v, Frame.xml_bounded, Callstack.xml_bounded,
    Method.xml_bounded, Identity.xml_bounded, ComponentEvidence.xml_bounded v,
    Signature.xml_bounded, readToolRefs_bounded⟩

private theorem readBody_bounded {root : XName} {content : List XNode} {rest left : List XEvent}
    {vars : Bom.Vars} (hn : root.localName = "bom") (hb : XNode.BareAll content)
    (h : Bom.readBody v root (XNode.eventsAll content ++ .stop root :: rest) = .ok (vars, left)) :
    ∃ used unread, used ++ unread = XNode.eventsAll content ++ [.stop root] ∧ left = unread ++ rest ∧
      ∀ other, Bom.readBody v root (used ++ other) = .ok (vars, other) := by
  obtain ⟨used, unread, _, h2, h3, h4⟩ := readLoop_bounded (mode := .skip) (el := root)
    (isEnd := fun n => n.localName = "bom") (Bom.arms_bounded v) hb
    (last := root) (fun h => nomatch h) _ {} _ rest vars left restOf_all
    (by rw [List.append_assoc]; exact h)
  exact ⟨used, unread, h2.symm, h3, fun other => h4 other _ (Nat.lt_succ_self _)⟩

mutual
private theorem no_end_events : ∀ x : XNode, XEvent.endDocument ∉ x.events
  | .chars _ => by simp [XNode.events]
  | .cdata _ => by simp [XNode.events]
  | .other => by simp [XNode.events]
  | .elem _ _ _ c => by simp [XNode.events, no_end_eventsAll c]

private theorem no_end_eventsAll : ∀ l : List XNode, XEvent.endDocument ∉ XNode.eventsAll l
  | [] => by simp [XNode.eventsAll]
  | x :: l => by simp [XNode.eventsAll, no_end_events x, no_end_eventsAll l]
end

/-- C42, for documents: if a document can be read, then the reader has consumed exactly the root element
and the end of the document behind it, whatever is in the document. -/
theorem C42_document {root : XName} {attrs : List (String × String)} {ns : Option String}
    {content : List XNode} {rest : List XEvent} {b : Bom} (hb : XNode.BareAll content)
    (h : Bom.parseXmlWith v (.startDocument :: .start root attrs ns ::
      (XNode.eventsAll content ++ .stop root :: rest)) = .ok b) :
    ∃ behind, rest = .endDocument :: behind ∧ ∀ other,
      Bom.parseXmlWith v (.startDocument :: .start root attrs ns ::
        (XNode.eventsAll content ++ .stop root :: .endDocument :: other)) = .ok b := by
  simp only [Bom.parseXmlWith, Bom.readDocument] at h ⊢
  split at h
  · rename_i hn
    split at h
    · rename_i hs
      simp only [if_pos hn, if_pos hs]
      cases hv : Bom.versionOfAttrs attrs with
      | error e => simp [hv, bind, Except.bind] at h
      | ok n =>
        simp only [hv, bind, Except.bind] at h ⊢
        split at h
        · cases h
        · rename_i p hp
          obtain ⟨used, unread, h2, h3, h4⟩ := readBody_bounded hn hb (show _ = Except.ok (p.1, p.2) from hp)
          split at h
          · rename_i l hl
            rw [h3] at hl
            have hu : unread = [] := by
              cases unread with
              | nil => rfl
              | cons e u =>
                have he := (List.cons.inj hl).1
                have hm : XEvent.endDocument ∈ XNode.eventsAll content ++ [.stop root] := by
                  rw [← h2, ← he]
                  simp
                simp [no_end_eventsAll] at hm
            subst hu
            rw [List.append_nil] at h2
            refine ⟨l, hl, fun other => ?_⟩
            have := h4 (.endDocument :: other)
            rw [h2, List.append_assoc] at this
            simp only [List.cons_append, List.nil_append] at this
            rw [this]
            exact h
          · cases h
          · cases h
    · cases h
  · cases h

end

/-! ### Non-vacuity, and why signatures may have no text of their own -/

/-- C42: the reader of a signature with a text of its own goes beyond the signature: it consumes the end
tag of the element around it, if that is called the same. -/
theorem C42_beyond : ∃ (content : List XNode) (x : Signature) (rest : List XEvent), rest ≠ [] ∧
    Signature.readXml ⟨"signature", none, none⟩ []
      (XNode.eventsAll content ++ .stop ⟨"signature", none, none⟩ :: rest) = .ok (x, []) :=
  ⟨[.chars "t", .elem ⟨"algorithm", none, none⟩ [] none [.chars "RS256"],
    .elem ⟨"value", none, none⟩ [] none [.chars "v"]],
    .single { algorithm := .rs256, value := "v" }, [.stop ⟨"signature", none, none⟩], by simp, rfl⟩

/-- What is asked is met by content that is not tame: here a reader stops inside its element, and what
it has not read is the rest of the element. -/
example : let content := [XNode.elem ⟨"module", none, none⟩ [] none [.chars "m"],
      .elem ⟨"unknown", none, none⟩ [] none [.elem ⟨"frame", none, none⟩ [] none []]]
    BareContent "frame" content ∧ XNode.BareAll content ∧ ¬ TameContent "frame" content ∧
    ∃ x, Frame.readXml ⟨"frame", none, none⟩ [] (XNode.eventsAll content ++
      [.stop ⟨"frame", none, none⟩]) = .ok (x, [.stop ⟨"unknown", none, none⟩, .stop ⟨"frame", none, none⟩]) :=
  ⟨fun h => absurd h (by decide), by simp [XNode.BareAll, XNode.Bare, BareContent],
    fun h => h.1 (by decide) (by simp [XNode.namesAll, XNode.names]), _, rfl⟩

section
attribute [local instance] Example.f32 Example.limit

/-- A document that is read although an element in it that no reader knows has a root in it. -/
example : let content := [XNode.elem ⟨"unknown", none, none⟩ [] none
      [.elem ⟨"bom", none, none⟩ [] none [.chars "t"]], .elem ⟨"components", none, none⟩ [] none []]
    XNode.BareAll content ∧
    (Bom.parseXmlWith .v1_4 (.startDocument :: .start ⟨"bom", none, none⟩ [("version", "1")]
      (some SpecVersion.v1_4.namespace) :: (XNode.eventsAll content ++ .stop ⟨"bom", none, none⟩ ::
        [.endDocument]))).toOption.isSome = true :=
  ⟨by simp [XNode.BareAll, XNode.Bare, BareContent], by decide +kernel⟩

end

end Cdx.Props
