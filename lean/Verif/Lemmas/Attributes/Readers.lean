import Verif.Lemmas.Attributes.Basic
import Verif.Model.Format.Bom

set_option linter.unusedSectionVars false
set_option linter.unusedSimpArgs false
set_option linter.unusedVariables false

/-!
# The readers of the format look only at attributes of the format
-/

namespace Cdx.Attributes

open Spec

variable {R : XName → XName → Prop} [Correspondence R] {v : SpecVersion} [F32Format] [ReadLimit]

instance attachedText_blind : Blind R ["content-type", "encoding"] AttachedText.readXml :=
  with_blind (by blind_reader) (by same_pre) (by decide)

instance property_blind : Blind R ["name"] Property.readXml :=
  with_blind (by blind_reader) (by same_pre) (by decide)

instance hash_blind : Blind R ["alg"] Hash.readXml :=
  with_blind (by blind_reader) (by same_pre) (by decide)

instance organizationalContact_blind : Blind R ["bom-ref"] OrganizationalContact.readXml :=
  struct_blind (by same_pre) (by unfold OrganizationalContact.arms; blind_arms) (by same_fin)

instance organizationalEntity_blind : Blind R ["bom-ref"] OrganizationalEntity.readXml :=
  struct_blind (by same_pre) (by unfold OrganizationalEntity.arms; blind_arms) (by same_fin)

instance externalReference_blind : Blind R ["type"] ExternalReference.readXml :=
  struct_blind (by same_pre) (by unfold ExternalReference.arms; blind_arms) (by same_fin)

instance vulnerabilitySource_blind : Blind R [] VulnerabilitySource.readXml :=
  struct_blind (by same_pre) (by unfold VulnerabilitySource.arms; blind_arms) (by same_fin)

instance vulnerabilityReference_blind : Blind R [] VulnerabilityReference.readXml :=
  struct_blind (by same_pre) (by unfold VulnerabilityReference.arms; blind_arms) (by same_fin)

instance advisory_blind : Blind R [] Advisory.readXml :=
  struct_blind (by same_pre) (by unfold Advisory.arms; blind_arms) (by same_fin)

instance vulnerabilityCredits_blind : Blind R [] VulnerabilityCredits.readXml :=
  struct_blind (by same_pre) (by unfold VulnerabilityCredits.arms; blind_arms) (by same_fin)

instance licenseContact_blind : Blind R [] LicenseContact.readXml :=
  struct_blind (by same_pre) (by unfold LicenseContact.arms; blind_arms) (by same_fin)

instance licensing_blind : Blind R [] Licensing.readXml :=
  struct_blind (by same_pre) (by unfold Licensing.arms; blind_arms) (by same_fin)

instance license_blind : Blind R ["bom-ref"] (License.readXml v) :=
  struct_blind (by same_pre) (by unfold License.arms; blind_arms) (by same_fin)

instance spdxExpression_blind : Blind R ["bom-ref"] SpdxExpression.readXml :=
  with_blind (by blind_reader) (by same_pre) (by decide)

instance licenses_blind : Blind R [] (Licenses.readXml v) :=
  struct_blind (by same_pre) (by unfold Licenses.arms; blind_arms) (by same_fin)

instance signer_blind : Blind R [] Signer.readXml :=
  struct_blind (by same_pre) (by unfold Signer.arms; blind_arms) (by same_fin)

/-- One turn of the loop that reads a signature, with the same outcome. -/
inductive SameTurn (R : XName → XName → Prop) :
    Except XErr (Bool × Signature.Vars × List XEvent) → Except XErr (Bool × Signature.Vars × List XEvent) → Prop
  | error {e : XErr} : SameTurn R (.error e) (.error e)
  | ok {b : Bool} {st : Signature.Vars} {l l' : List XEvent} :
      SameEvents R l l' → SameTurn R (.ok (b, st, l)) (.ok (b, st, l'))

theorem signature_other {el el' : XName} {st : Signature.Vars} {l l' : List XEvent} (hn : R el el')
    (h : SameEvents R l l') : SameTurn R (Signature.other el st l) (Signature.other el' st l') := by
  have h := (signer_blind (R := R)).out (a := []) (a' := []) hn (fun _ _ => rfl) h
  revert h
  unfold Signature.other
  generalize Signer.readXml el [] l = x
  generalize Signer.readXml el' [] l' = y
  intro h
  cases h with
  | error => exact .error
  | ok hl => exact .ok hl

theorem signature_arms : BlindArms R Signature.arms := by unfold Signature.arms; blind_arms

theorem signature_step {el el' : XName} {st : Signature.Vars} {e e' : XEvent} {l l' : List XEvent}
    (hn : R el el') (he : SameEvent R e e') (h : SameEvents R l l') :
    SameTurn R (Signature.step el st e l) (Signature.step el' st e' l') := by
  cases he with
  | @start n n' a a' ns h1 h2 =>
    unfold Signature.step
    dsimp only
    rw [← Correspondence.localName h1]
    cases hk : Signature.arms.lookup n.localName with
    | none => exact signature_other hn h
    | some act =>
      have := signature_arms (R := R) _ (mem_of_lookup hk) _ _ _ _ st _ _ h1 h2 h
      revert this
      dsimp only
      generalize act n a st l = x
      generalize act n' a' st l' = y
      intro this
      cases this with
      | error => exact .error
      | ok hl => exact .ok hl
  | @stop n n' h1 =>
    unfold Signature.step
    dsimp only
    by_cases hc : n = el
    · rw [if_pos hc, if_pos ((Correspondence.same h1 hn).mp hc)]; exact .ok h
    · rw [if_neg hc, if_neg fun h' => hc ((Correspondence.same h1 hn).mpr h')]
      exact signature_other hn h
  | _ => unfold Signature.step; exact signature_other hn h

theorem signature_loop {el el' : XName} (hn : R el el') : ∀ (fuel : Nat) (st : Signature.Vars)
    {l l' : List XEvent}, SameEvents R l l' →
      SameOut R (Signature.loop el fuel st l) (Signature.loop el' fuel st l')
  | 0, st, l, l', h => by simp only [Signature.loop]; exact .error
  | fuel + 1, st, l, l', h => by
    cases h with
    | nil => simp only [Signature.loop]; exact .error
    | @cons e e' l l' he hl =>
      simp only [Signature.loop]
      have := signature_step (st := st) hn he hl
      revert this
      generalize Signature.step el st e l = x
      generalize Signature.step el' st e' l' = y
      intro this
      cases this with
      | error => exact .error
      | @ok b st' m m' hr =>
        cases b with
        | true => exact .ok hr
        | false =>
          dsimp only
          rw [same_length hl, same_length hr]
          split
          · exact signature_loop hn fuel _ hr
          · exact .error

theorem signature_fin {el el' : XName} {st : Signature.Vars} (hn : el.localName = el'.localName) :
    Signature.fin el st = Signature.fin el' st := by
  unfold Signature.fin
  cases st.signature with
  | some => rfl
  | none => simp only [required_same hn]

instance signature_blind : Blind R [] Signature.readXml where
  out hn ha h := by
    unfold Signature.readXml
    rw [same_length h]
    refine (signature_loop hn _ _ h).bind fun st l l' hl => ?_
    dsimp only
    rw [signature_fin (Correspondence.localName hn)]
    exact sameOut_value fun _ => .ok hl

instance dependency_blind : Blind R ["ref"] Dependency.readXml :=
  struct_blind (by same_pre) (by unfold Dependency.arms; blind_arms) (by same_fin)

instance composition_blind : Blind R ["bom-ref"] (Composition.readXml v) :=
  struct_blind (by same_pre) (by unfold Composition.arms; blind_arms) (by same_fin)

instance identifiableAction_blind : Blind R [] IdentifiableAction.readXml :=
  struct_blind (by same_pre) (by unfold IdentifiableAction.arms; blind_arms) (by same_fin)

instance commit_blind : Blind R [] Commit.readXml :=
  struct_blind (by same_pre) (by unfold Commit.arms; blind_arms) (by same_fin)

instance diff_blind : Blind R [] Diff.readXml :=
  struct_blind (by same_pre) (by unfold Diff.arms; blind_arms) (by same_fin)

instance source_blind : Blind R [] Source.readXml :=
  struct_blind (by same_pre) (by unfold Source.arms; blind_arms) (by same_fin)

instance issue_blind : Blind R ["type"] Issue.readXml :=
  struct_blind (by same_pre) (by unfold Issue.arms; blind_arms) (by same_fin)

instance patch_blind : Blind R ["type"] Patch.readXml :=
  struct_blind (by same_pre) (by unfold Patch.arms; blind_arms) (by same_fin)

instance vulnerabilityAnalysis_blind : Blind R [] (VulnerabilityAnalysis.readXml v) :=
  struct_blind (by same_pre) (by unfold VulnerabilityAnalysis.arms; blind_arms) (by same_fin)

instance targetVersion_blind : Blind R [] TargetVersion.readXml :=
  struct_blind (by same_pre) (by unfold TargetVersion.arms; blind_arms) (by same_fin)

instance vulnerabilityTarget_blind : Blind R [] VulnerabilityTarget.readXml :=
  struct_blind (by same_pre) (by unfold VulnerabilityTarget.arms; blind_arms) (by same_fin)

instance dataGovernanceResponsibleParty_blind : Blind R [] DataGovernanceResponsibleParty.readXml :=
  struct_blind (by same_pre) (by unfold DataGovernanceResponsibleParty.arms; blind_arms) (by same_fin)

instance dataGovernance_blind : Blind R [] DataGovernance.readXml :=
  struct_blind (by same_pre) (by unfold DataGovernance.arms; blind_arms) (by same_fin)

theorem lastText_blind {el el' : XName} (hn : R el el') {l l' : List XEvent} (h : SameEvents R l l') :
    ∀ (st : Option String), SameOut R (Attachment.lastText el st l) (Attachment.lastText el' st l') := by
  induction h with
  | nil => intro st; simp only [Attachment.lastText]; exact .error
  | cons he hl ih =>
    intro st
    cases he with
    | @stop n n' h1 =>
      simp only [Attachment.lastText]
      by_cases hc : n = el
      · rw [if_pos hc, if_pos ((Correspondence.same h1 hn).mp hc)]; exact .ok hl
      · rw [if_neg hc, if_neg fun h' => hc ((Correspondence.same h1 hn).mpr h')]; exact ih _
    | _ => simp only [Attachment.lastText]; exact ih _

instance attachment_content_blind : Blind R [] Attachment.readContent where
  out hn ha h := (lastText_blind hn h _).bind fun o l l' hl => by
    dsimp only
    rw [required_same (Correspondence.localName hn)]
    exact sameOut_value fun _ => .ok hl

instance attachment_blind : Blind R ["content-type", "encoding"] Attachment.readXml :=
  with_blind (by blind_reader) (by same_pre) (by decide)

instance graphic_blind : Blind R [] Graphic.readXml :=
  struct_blind (by same_pre) (by unfold Graphic.arms; blind_arms) (by same_fin)

instance graphicsCollection_blind : Blind R [] GraphicsCollection.readXml :=
  struct_blind (by same_pre) (by unfold GraphicsCollection.arms; blind_arms) (by same_fin)

instance dataContents_blind : Blind R [] DataContents.readXml :=
  struct_blind (by same_pre) (by unfold DataContents.arms; blind_arms) (by same_fin)

instance componentData_blind : Blind R ["bom-ref"] ComponentData.readXml :=
  struct_blind (by same_pre) (by unfold ComponentData.arms; blind_arms) (by same_fin)

instance modelParametersApproach_blind : Blind R [] ModelParametersApproach.readXml :=
  struct_blind (by same_pre) (by unfold ModelParametersApproach.arms; blind_arms) (by same_fin)

instance dataset_blind : Blind R ["bom-ref"] Dataset.readXml :=
  inferInstanceAs (Blind R ["bom-ref"] (ComponentData.readXml.map Dataset.component))

instance mLParameter_blind : Blind R [] MLParameter.readXml :=
  struct_blind (by same_pre) (by unfold MLParameter.arms; blind_arms) (by same_fin)

instance modelParameters_blind : Blind R [] ModelParameters.readXml :=
  struct_blind (by same_pre) (by unfold ModelParameters.arms; blind_arms) (by same_fin)

instance confidenceInterval_blind : Blind R [] ConfidenceInterval.readXml :=
  struct_blind (by same_pre) (by unfold ConfidenceInterval.arms; blind_arms) (by same_fin)

instance performanceMetric_blind : Blind R [] PerformanceMetric.readXml :=
  struct_blind (by same_pre) (by unfold PerformanceMetric.arms; blind_arms) (by same_fin)

instance quantitativeAnalysis_blind : Blind R [] QuantitativeAnalysis.readXml :=
  struct_blind (by same_pre) (by unfold QuantitativeAnalysis.arms; blind_arms) (by same_fin)

instance modelCard_blind : Blind R ["bom-ref"] ModelCard.readXml :=
  struct_blind (by same_pre) (by unfold ModelCard.arms; blind_arms) (by same_fin)

instance vulnerabilityProofOfConcept_blind : Blind R [] VulnerabilityProofOfConcept.readXml :=
  struct_blind (by same_pre) (by unfold VulnerabilityProofOfConcept.arms; blind_arms) (by same_fin)

instance dataClassification_blind : Blind R ["flow"] DataClassification.readXml :=
  with_blind (by blind_reader) (by same_pre) (by decide)

instance serviceData_blind : Blind R ["name", "description"] ServiceData.readXml :=
  struct_blind (by same_pre) (by unfold ServiceData.arms; blind_arms) (by same_fin)

instance serviceDataChoice_blind : Blind R [] (ServiceDataChoice.readXml v) :=
  struct_blind (by same_pre) (by unfold ServiceDataChoice.arms; blind_arms) (by same_fin)

instance swid_blind : Blind R ["tagId", "name", "tagVersion", "patch", "version"] Swid.readXml :=
  struct_blind (by same_pre) (by unfold Swid.arms; blind_arms) (by same_fin)

instance lifecycle_blind : Blind R [] Lifecycle.readXml :=
  struct_blind (by same_pre) (by unfold Lifecycle.arms; blind_arms) (by same_fin)

theorem service_with {sub : XElem Service} (hsub : Blind R ["bom-ref"] sub) :
    Blind R ["bom-ref"] (Service.readXmlWith sub v) :=
  struct_blind (by same_pre) (by unfold Service.armsWith; blind_arms) (by same_fin)

theorem service_n : ∀ n, Blind R ["bom-ref"] (Service.readXmlN v n)
  | 0 => ⟨fun _ _ _ => .error⟩
  | n + 1 => service_with (service_n n)

instance service_blind : Blind R ["bom-ref"] (Service.readXml v) := service_n _

instance vulnerabilityRating_blind : Blind R [] VulnerabilityRating.readXml :=
  struct_blind (by same_pre) (by unfold VulnerabilityRating.arms; blind_arms) (by same_fin)

theorem toolRefs_loop {el el' : XName} (hn : R el el') {l l' : List XEvent} (h : SameEvents R l l') :
    ∀ (acc : List String), SameOut R (toolRefsLoop el acc l) (toolRefsLoop el' acc l') := by
  induction h with
  | nil => intro acc; simp only [toolRefsLoop]; exact .error
  | cons he hl ih =>
    intro acc
    cases he with
    | @start n n' a a' ns h1 h2 =>
      simp only [toolRefsLoop]
      rw [← Correspondence.localName h1]
      by_cases hc : n.localName = "tool"
      · rw [if_pos hc, if_pos hc]
        rw [hc] at h2
        have : reqAttr n a "ref" = reqAttr n' a' "ref" := by
          unfold reqAttr
          rw [h2 "ref" (by decide +kernel), Correspondence.localName h1]
        rw [this]
        cases reqAttr n' a' "ref" with
        | ok r => exact ih _
        | error e => exact .error
      · rw [if_neg hc, if_neg hc, Correspondence.localName hn]; exact .error
    | @stop n n' h1 =>
      simp only [toolRefsLoop]
      rw [← Correspondence.localName h1]
      split
      · exact ih _
      · by_cases hc : n = el
        · rw [if_pos hc, if_pos ((Correspondence.same h1 hn).mp hc)]; exact .ok hl
        · rw [if_neg hc, if_neg fun h' => hc ((Correspondence.same h1 hn).mpr h'), Correspondence.localName hn]
          exact .error
    | _ => simp only [toolRefsLoop, Correspondence.localName hn]; exact .error

instance toolRefs_blind : Blind R [] readToolRefs where
  out hn ha h := toolRefs_loop hn h _

instance occurrence_blind : Blind R ["bom-ref"] Occurrence.readXml :=
  struct_blind (by same_pre) (by unfold Occurrence.arms; blind_arms) (by same_fin)

instance frame_blind : Blind R [] Frame.readXml :=
  struct_blind (by same_pre) (by unfold Frame.arms; blind_arms) (by same_fin)

instance callstack_blind : Blind R [] Callstack.readXml :=
  struct_blind (by same_pre) (by unfold Callstack.arms; blind_arms) (by same_fin)

instance method_blind : Blind R [] Method.readXml :=
  struct_blind (by same_pre) (by unfold Method.arms; blind_arms) (by same_fin)

instance identity_blind : Blind R [] Identity.readXml :=
  struct_blind (by same_pre) (by unfold Identity.arms; blind_arms) (by same_fin)

instance componentEvidence_blind : Blind R [] (ComponentEvidence.readXml v) :=
  struct_blind (by same_pre) (by unfold ComponentEvidence.arms; blind_arms) (by same_fin)

theorem pedigree_with {sub : XElem Component} (hsub : Blind R ["type", "mime-type", "bom-ref"] sub) :
    Blind R [] (Pedigree.readXmlWith sub v) :=
  struct_blind (by same_pre) (by unfold Pedigree.armsWith; blind_arms) (by same_fin)

theorem component_with {sub : XElem Component} (hsub : Blind R ["type", "mime-type", "bom-ref"] sub) :
    Blind R ["type", "mime-type", "bom-ref"] (Component.readXmlWith sub v) := by
  have := pedigree_with (v := v) hsub
  exact struct_blind (by same_pre) (by unfold Component.armsWith; blind_arms) (by same_fin)

theorem component_n : ∀ n, Blind R ["type", "mime-type", "bom-ref"] (Component.readXmlN v n)
  | 0 => ⟨fun _ _ _ => .error⟩
  | n + 1 => component_with (component_n n)

instance component_blind : Blind R ["type", "mime-type", "bom-ref"] (Component.readXml v) := component_n _

instance tool_blind : Blind R [] (Tool.readXml v) :=
  struct_blind (by same_pre) (by unfold Tool.arms; blind_arms) (by same_fin)

instance tools_blind : Blind R [] (Tools.readXml v) :=
  struct_blind (by same_pre) (by unfold Tools.arms; blind_arms) (by same_fin)

instance metadata_blind : Blind R [] (Metadata.readXml v) :=
  struct_blind (by same_pre) (by unfold Metadata.arms; blind_arms) (by same_fin)

instance vulnerability_blind : Blind R ["bom-ref"] (Vulnerability.readXml v) :=
  struct_blind (by same_pre) (by unfold Vulnerability.arms; blind_arms) (by same_fin)

instance annotator_blind : Blind R [] (Annotator.readXml v) :=
  struct_blind (by same_pre) (by unfold Annotator.arms; blind_arms) (by same_fin)

instance annotation_blind : Blind R ["bom-ref"] (Annotation.readXml v) :=
  struct_blind (by same_pre) (by unfold Annotation.arms; blind_arms) (by same_fin)

instance resourceReference_blind : Blind R [] ResourceReference.readXml :=
  struct_blind (by same_pre) (by unfold ResourceReference.arms; blind_arms) (by same_fin)

instance environmentProperty_blind : Blind R ["name"] EnvironmentVar.readProperty where
  out hn ha h := (simple_blind.out hn (fun _ h => absurd h (by simp)) h).bind fun s l l' hl => by
    dsimp only
    rw [reqAttr_blind (Correspondence.localName hn) ha (.head _)]
    exact sameOut_value fun _ => .ok hl

instance environmentVar_readAll_blind : Blind R [] EnvironmentVar.readAll :=
  struct_blind (by same_pre) (by unfold EnvironmentVar.arms; blind_arms) (by same_fin)

instance parameter_blind : Blind R [] Parameter.readXml :=
  struct_blind (by same_pre) (by unfold Parameter.arms; blind_arms) (by same_fin)

instance input_blind : Blind R [] Input.readXml :=
  struct_blind (by same_pre) (by unfold Input.arms; blind_arms) (by same_fin)

instance output_blind : Blind R [] Output.readXml :=
  struct_blind (by same_pre) (by unfold Output.arms; blind_arms) (by same_fin)

instance command_blind : Blind R [] Command.readXml :=
  struct_blind (by same_pre) (by unfold Command.arms; blind_arms) (by same_fin)

instance step_blind : Blind R [] Step.readXml :=
  struct_blind (by same_pre) (by unfold Step.arms; blind_arms) (by same_fin)

instance triggerEvent_blind : Blind R [] TriggerEvent.readXml :=
  struct_blind (by same_pre) (by unfold TriggerEvent.arms; blind_arms) (by same_fin)

instance condition_blind : Blind R [] Condition.readXml :=
  struct_blind (by same_pre) (by unfold Condition.arms; blind_arms) (by same_fin)

instance trigger_blind : Blind R ["bom-ref"] Trigger.readXml :=
  struct_blind (by same_pre) (by unfold Trigger.arms; blind_arms) (by same_fin)

instance volume_blind : Blind R [] Volume.readXml :=
  struct_blind (by same_pre) (by unfold Volume.arms; blind_arms) (by same_fin)

instance workspace_blind : Blind R ["bom-ref"] Workspace.readXml :=
  struct_blind (by same_pre) (by unfold Workspace.arms; blind_arms) (by same_fin)

instance workflowTask_blind : Blind R ["bom-ref"] WorkflowTask.readXml :=
  struct_blind (by same_pre) (by unfold WorkflowTask.arms; blind_arms) (by same_fin)

instance workflow_blind : Blind R ["bom-ref"] Workflow.readXml :=
  struct_blind (by same_pre) (by unfold Workflow.arms; blind_arms) (by same_fin)

instance formula_blind : Blind R ["bom-ref"] (Formula.readXml v) :=
  struct_blind (by same_pre) (by unfold Formula.arms; blind_arms) (by same_fin)

end Cdx.Attributes
