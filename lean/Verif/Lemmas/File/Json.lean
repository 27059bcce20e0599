import Verif.Model.File.Json
import Verif.Lemmas.File.Convert

set_option linter.unusedVariables false
set_option linter.unusedSimpArgs false
set_option linter.unusedSectionVars false

/-!
# The structures of the files as JSON: lemmas

`X.json_file`: converting and then writing is what `X.toJson` does.
-/

namespace Cdx

variable [F32Format]

variable [ReadLimit]

theorem ofList_map {α β : Type} (f : α → β) (g : β → Json) : Json.ofList g ∘ List.map f = Json.ofList (g ∘ f) := by
  funext l
  simp only [Function.comp_apply, Json.ofList, List.map_map]

theorem ofList_map_apply {α β : Type} (f : α → β) (g : β → Json) (l : List α) :
    Json.ofList g (l.map f) = Json.ofList (g ∘ f) l := congrFun (ofList_map f g) l

theorem str_display {α : Type} (d : α → String) : Json.str ∘ d = Json.ofEnum d := rfl

theorem Licenses.toJson_eq (v : SpecVersion) : Licenses.toJson v = Json.ofList (LicenseChoice.toJson v) := rfl

theorem orNull_map {α β : Type} (f : α → β) (g : β → Json) (o : Option α) :
    Json.orNull g (o.map f) = Json.orNull (g ∘ f) o := by cases o <;> rfl

theorem unlessEmpty_map {α β : Type} (f : α → β) (g : β → Json) (l : List α) :
    Json.unlessEmpty g (l.map f) = Json.unlessEmpty (g ∘ f) l := by
  cases l <;> simp [Json.unlessEmpty, Json.ofList]

/-- Both sides as the same list of members. -/
macro "json_simp" "[" ls:Lean.Parser.Tactic.simpLemma,* "]" : tactic =>
  `(tactic| simp only [Option.map_map, ofList_map, ofList_map_apply, str_display, Json.ofEnum, orNull_map,
    unlessEmpty_map, Licenses.toJson_eq, Since14.get, Since14.put, Since15.get, Since15.put, since14, since15,
    Option.map_some, $ls,*])

theorem Algorithm.json_file : File.Algorithm.toJson ∘ Algorithm.toFile = Algorithm.toJson := by
  funext x
  cases x <;> rfl

theorem Algorithm.json_file_apply (x : Algorithm) : File.Algorithm.toJson (Algorithm.toFile x) = Algorithm.toJson x :=
  congrFun Algorithm.json_file x

theorem SpdxExpression.json_file_apply (x : SpdxExpression) : File.SpdxExpression.toJson (SpdxExpression.toFile x) = SpdxExpression.toJson x := by
  json_simp [SpdxExpression.toFile, File.SpdxExpression.toJson, SpdxExpression.toJson]

theorem SpdxExpression.json_file : File.SpdxExpression.toJson ∘ SpdxExpression.toFile = SpdxExpression.toJson :=
  funext (SpdxExpression.json_file_apply)

theorem AttachedText.json_file_apply (x : AttachedText) : File.AttachedText.toJson (AttachedText.toFile x) = AttachedText.toJson x := by
  json_simp [AttachedText.toFile, File.AttachedText.toJson, AttachedText.toJson]

theorem AttachedText.json_file : File.AttachedText.toJson ∘ AttachedText.toFile = AttachedText.toJson :=
  funext (AttachedText.json_file_apply)

theorem Attachment.json_file_apply (x : Attachment) : File.Attachment.toJson (Attachment.toFile x) = Attachment.toJson x := by
  json_simp [Attachment.toFile, File.Attachment.toJson, Attachment.toJson]

theorem Attachment.json_file : File.Attachment.toJson ∘ Attachment.toFile = Attachment.toJson :=
  funext (Attachment.json_file_apply)

theorem OrganizationalContact.json_file_apply (x : OrganizationalContact) : File.OrganizationalContact.toJson (OrganizationalContact.toFile x) = OrganizationalContact.toJson x := by
  json_simp [OrganizationalContact.toFile, File.OrganizationalContact.toJson, OrganizationalContact.toJson]

theorem OrganizationalContact.json_file : File.OrganizationalContact.toJson ∘ OrganizationalContact.toFile = OrganizationalContact.toJson :=
  funext (OrganizationalContact.json_file_apply)

theorem OrganizationalEntity.json_file_apply (x : OrganizationalEntity) : File.OrganizationalEntity.toJson (OrganizationalEntity.toFile x) = OrganizationalEntity.toJson x := by
  json_simp [OrganizationalEntity.toFile, File.OrganizationalEntity.toJson, OrganizationalEntity.toJson, OrganizationalContact.json_file, OrganizationalContact.json_file_apply]

theorem OrganizationalEntity.json_file : File.OrganizationalEntity.toJson ∘ OrganizationalEntity.toFile = OrganizationalEntity.toJson :=
  funext (OrganizationalEntity.json_file_apply)

theorem Property.json_file_apply (x : Property) : File.Property.toJson (Property.toFile x) = Property.toJson x := by
  json_simp [Property.toFile, File.Property.toJson, Property.toJson]

theorem Property.json_file : File.Property.toJson ∘ Property.toFile = Property.toJson :=
  funext (Property.json_file_apply)

theorem Hash.json_file_apply (x : Hash) : File.Hash.toJson (Hash.toFile x) = Hash.toJson x := by
  json_simp [Hash.toFile, File.Hash.toJson, Hash.toJson]

theorem Hash.json_file : File.Hash.toJson ∘ Hash.toFile = Hash.toJson :=
  funext (Hash.json_file_apply)

theorem ExternalReference.json_file_apply (x : ExternalReference) : File.ExternalReference.toJson (ExternalReference.toFile x) = ExternalReference.toJson x := by
  json_simp [ExternalReference.toFile, File.ExternalReference.toJson, ExternalReference.toJson, Hash.json_file, Hash.json_file_apply]

theorem ExternalReference.json_file : File.ExternalReference.toJson ∘ ExternalReference.toFile = ExternalReference.toJson :=
  funext (ExternalReference.json_file_apply)

theorem LicenseIdentifier.fields_file_apply (x : LicenseIdentifier) : File.LicenseIdentifier.toFields (LicenseIdentifier.toFile x) = LicenseIdentifier.toFields x := by
  cases x <;> json_simp [LicenseIdentifier.toFile, File.LicenseIdentifier.toFields, LicenseIdentifier.toFields]

theorem LicenseIdentifier.fields_file : File.LicenseIdentifier.toFields ∘ LicenseIdentifier.toFile = LicenseIdentifier.toFields :=
  funext (LicenseIdentifier.fields_file_apply)

theorem LicenseContact.json_file_apply (x : LicenseContact) : File.LicenseContact.toJson (LicenseContact.toFile x) = LicenseContact.toJson x := by
  cases x <;> json_simp [LicenseContact.toFile, File.LicenseContact.toJson, LicenseContact.toJson, OrganizationalContact.json_file, OrganizationalContact.json_file_apply, OrganizationalEntity.json_file, OrganizationalEntity.json_file_apply]

theorem LicenseContact.json_file : File.LicenseContact.toJson ∘ LicenseContact.toFile = LicenseContact.toJson :=
  funext (LicenseContact.json_file_apply)

theorem Licensing.json_file_apply (x : Licensing) : File.Licensing.toJson (Licensing.toFile x) = Licensing.toJson x := by
  json_simp [Licensing.toFile, File.Licensing.toJson, Licensing.toJson, LicenseContact.json_file, LicenseContact.json_file_apply]

theorem Licensing.json_file : File.Licensing.toJson ∘ Licensing.toFile = Licensing.toJson :=
  funext (Licensing.json_file_apply)

theorem License.json_file_apply (v : SpecVersion) (x : License) : File.License.toJson (License.toFile v x) = License.toJson v x := by
  cases v <;>
    json_simp [License.toFile, File.License.toJson, License.toJson, AttachedText.json_file, AttachedText.json_file_apply, LicenseIdentifier.fields_file, LicenseIdentifier.fields_file_apply, Licensing.json_file, Licensing.json_file_apply, Property.json_file, Property.json_file_apply]

theorem License.json_file (v : SpecVersion) : File.License.toJson ∘ License.toFile v = License.toJson v :=
  funext (License.json_file_apply v)

theorem LicenseChoice.json_file_apply (v : SpecVersion) (x : LicenseChoice) : File.LicenseChoice.toJson (LicenseChoice.toFile v x) = LicenseChoice.toJson v x := by
  cases v <;>
    cases x <;> json_simp [LicenseChoice.toFile, File.LicenseChoice.toJson, LicenseChoice.toJson, License.json_file, License.json_file_apply, SpdxExpression.json_file, SpdxExpression.json_file_apply]

theorem LicenseChoice.json_file (v : SpecVersion) : File.LicenseChoice.toJson ∘ LicenseChoice.toFile v = LicenseChoice.toJson v :=
  funext (LicenseChoice.json_file_apply v)

theorem IdentifiableAction.json_file_apply (x : IdentifiableAction) : File.IdentifiableAction.toJson (IdentifiableAction.toFile x) = IdentifiableAction.toJson x := by
  json_simp [IdentifiableAction.toFile, File.IdentifiableAction.toJson, IdentifiableAction.toJson]

theorem IdentifiableAction.json_file : File.IdentifiableAction.toJson ∘ IdentifiableAction.toFile = IdentifiableAction.toJson :=
  funext (IdentifiableAction.json_file_apply)

theorem Commit.json_file_apply (x : Commit) : File.Commit.toJson (Commit.toFile x) = Commit.toJson x := by
  json_simp [Commit.toFile, File.Commit.toJson, Commit.toJson, IdentifiableAction.json_file, IdentifiableAction.json_file_apply]

theorem Commit.json_file : File.Commit.toJson ∘ Commit.toFile = Commit.toJson :=
  funext (Commit.json_file_apply)

theorem Diff.json_file_apply (x : Diff) : File.Diff.toJson (Diff.toFile x) = Diff.toJson x := by
  json_simp [Diff.toFile, File.Diff.toJson, Diff.toJson, AttachedText.json_file, AttachedText.json_file_apply]

theorem Diff.json_file : File.Diff.toJson ∘ Diff.toFile = Diff.toJson :=
  funext (Diff.json_file_apply)

theorem Source.json_file_apply (x : Source) : File.Source.toJson (Source.toFile x) = Source.toJson x := by
  json_simp [Source.toFile, File.Source.toJson, Source.toJson]

theorem Source.json_file : File.Source.toJson ∘ Source.toFile = Source.toJson :=
  funext (Source.json_file_apply)

theorem Issue.json_file_apply (x : Issue) : File.Issue.toJson (Issue.toFile x) = Issue.toJson x := by
  json_simp [Issue.toFile, File.Issue.toJson, Issue.toJson, Source.json_file, Source.json_file_apply]

theorem Issue.json_file : File.Issue.toJson ∘ Issue.toFile = Issue.toJson :=
  funext (Issue.json_file_apply)

theorem Patch.json_file_apply (x : Patch) : File.Patch.toJson (Patch.toFile x) = Patch.toJson x := by
  json_simp [Patch.toFile, File.Patch.toJson, Patch.toJson, Diff.json_file, Diff.json_file_apply, Issue.json_file, Issue.json_file_apply]

theorem Patch.json_file : File.Patch.toJson ∘ Patch.toFile = Patch.toJson :=
  funext (Patch.json_file_apply)

theorem Signer.json_file_apply (x : Signer) : File.Signer.toJson (Signer.toFile x) = Signer.toJson x := by
  json_simp [Signer.toFile, File.Signer.toJson, Signer.toJson, Algorithm.json_file, Algorithm.json_file_apply]

theorem Signer.json_file : File.Signer.toJson ∘ Signer.toFile = Signer.toJson :=
  funext (Signer.json_file_apply)

theorem Signature.json_file_apply (x : Signature) : File.Signature.toJson (Signature.toFile x) = Signature.toJson x := by
  cases x <;> json_simp [Signature.toFile, File.Signature.toJson, Signature.toJson, Signer.json_file, Signer.json_file_apply]

theorem Signature.json_file : File.Signature.toJson ∘ Signature.toFile = Signature.toJson :=
  funext (Signature.json_file_apply)

theorem DataGovernanceResponsibleParty.json_file_apply (x : DataGovernanceResponsibleParty) : File.DataGovernanceResponsibleParty.toJson (DataGovernanceResponsibleParty.toFile x) = DataGovernanceResponsibleParty.toJson x := by
  cases x <;> json_simp [DataGovernanceResponsibleParty.toFile, File.DataGovernanceResponsibleParty.toJson, DataGovernanceResponsibleParty.toJson, OrganizationalContact.json_file, OrganizationalContact.json_file_apply, OrganizationalEntity.json_file, OrganizationalEntity.json_file_apply]

theorem DataGovernanceResponsibleParty.json_file : File.DataGovernanceResponsibleParty.toJson ∘ DataGovernanceResponsibleParty.toFile = DataGovernanceResponsibleParty.toJson :=
  funext (DataGovernanceResponsibleParty.json_file_apply)

theorem DataGovernance.json_file_apply (x : DataGovernance) : File.DataGovernance.toJson (DataGovernance.toFile x) = DataGovernance.toJson x := by
  json_simp [DataGovernance.toFile, File.DataGovernance.toJson, DataGovernance.toJson, DataGovernanceResponsibleParty.json_file, DataGovernanceResponsibleParty.json_file_apply]

theorem DataGovernance.json_file : File.DataGovernance.toJson ∘ DataGovernance.toFile = DataGovernance.toJson :=
  funext (DataGovernance.json_file_apply)

theorem Graphic.json_file_apply (x : Graphic) : File.Graphic.toJson (Graphic.toFile x) = Graphic.toJson x := by
  json_simp [Graphic.toFile, File.Graphic.toJson, Graphic.toJson, Attachment.json_file, Attachment.json_file_apply]

theorem Graphic.json_file : File.Graphic.toJson ∘ Graphic.toFile = Graphic.toJson :=
  funext (Graphic.json_file_apply)

theorem GraphicsCollection.json_file_apply (x : GraphicsCollection) : File.GraphicsCollection.toJson (GraphicsCollection.toFile x) = GraphicsCollection.toJson x := by
  json_simp [GraphicsCollection.toFile, File.GraphicsCollection.toJson, GraphicsCollection.toJson, Graphic.json_file, Graphic.json_file_apply]

theorem GraphicsCollection.json_file : File.GraphicsCollection.toJson ∘ GraphicsCollection.toFile = GraphicsCollection.toJson :=
  funext (GraphicsCollection.json_file_apply)

theorem DataContents.json_file_apply (x : DataContents) : File.DataContents.toJson (DataContents.toFile x) = DataContents.toJson x := by
  json_simp [DataContents.toFile, File.DataContents.toJson, DataContents.toJson, Attachment.json_file, Attachment.json_file_apply, Property.json_file, Property.json_file_apply]

theorem DataContents.json_file : File.DataContents.toJson ∘ DataContents.toFile = DataContents.toJson :=
  funext (DataContents.json_file_apply)

theorem ComponentData.json_file_apply (x : ComponentData) : File.ComponentData.toJson (ComponentData.toFile x) = ComponentData.toJson x := by
  json_simp [ComponentData.toFile, File.ComponentData.toJson, ComponentData.toJson, DataContents.json_file, DataContents.json_file_apply, DataGovernance.json_file, DataGovernance.json_file_apply, GraphicsCollection.json_file, GraphicsCollection.json_file_apply]

theorem ComponentData.json_file : File.ComponentData.toJson ∘ ComponentData.toFile = ComponentData.toJson :=
  funext (ComponentData.json_file_apply)

theorem ModelParametersApproach.json_file_apply (x : ModelParametersApproach) : File.ModelParametersApproach.toJson (ModelParametersApproach.toFile x) = ModelParametersApproach.toJson x := by
  json_simp [ModelParametersApproach.toFile, File.ModelParametersApproach.toJson, ModelParametersApproach.toJson]

theorem ModelParametersApproach.json_file : File.ModelParametersApproach.toJson ∘ ModelParametersApproach.toFile = ModelParametersApproach.toJson :=
  funext (ModelParametersApproach.json_file_apply)

theorem Dataset.json_file_apply (x : Dataset) : File.Dataset.toJson (Dataset.toFile x) = Dataset.toJson x := by
  cases x <;> json_simp [Dataset.toFile, File.Dataset.toJson, Dataset.toJson, ComponentData.json_file, ComponentData.json_file_apply]

theorem Dataset.json_file : File.Dataset.toJson ∘ Dataset.toFile = Dataset.toJson :=
  funext (Dataset.json_file_apply)

theorem MLParameter.json_file_apply (x : MLParameter) : File.MLParameter.toJson (MLParameter.toFile x) = MLParameter.toJson x := by
  json_simp [MLParameter.toFile, File.MLParameter.toJson, MLParameter.toJson]

theorem MLParameter.json_file : File.MLParameter.toJson ∘ MLParameter.toFile = MLParameter.toJson :=
  funext (MLParameter.json_file_apply)

theorem ModelParameters.json_file_apply (x : ModelParameters) : File.ModelParameters.toJson (ModelParameters.toFile x) = ModelParameters.toJson x := by
  json_simp [ModelParameters.toFile, File.ModelParameters.toJson, ModelParameters.toJson, Dataset.json_file, Dataset.json_file_apply, MLParameter.json_file, MLParameter.json_file_apply, ModelParametersApproach.json_file, ModelParametersApproach.json_file_apply]

theorem ModelParameters.json_file : File.ModelParameters.toJson ∘ ModelParameters.toFile = ModelParameters.toJson :=
  funext (ModelParameters.json_file_apply)

theorem ConfidenceInterval.json_file_apply (x : ConfidenceInterval) : File.ConfidenceInterval.toJson (ConfidenceInterval.toFile x) = ConfidenceInterval.toJson x := by
  json_simp [ConfidenceInterval.toFile, File.ConfidenceInterval.toJson, ConfidenceInterval.toJson]

theorem ConfidenceInterval.json_file : File.ConfidenceInterval.toJson ∘ ConfidenceInterval.toFile = ConfidenceInterval.toJson :=
  funext (ConfidenceInterval.json_file_apply)

theorem PerformanceMetric.json_file_apply (x : PerformanceMetric) : File.PerformanceMetric.toJson (PerformanceMetric.toFile x) = PerformanceMetric.toJson x := by
  json_simp [PerformanceMetric.toFile, File.PerformanceMetric.toJson, PerformanceMetric.toJson, ConfidenceInterval.json_file, ConfidenceInterval.json_file_apply]

theorem PerformanceMetric.json_file : File.PerformanceMetric.toJson ∘ PerformanceMetric.toFile = PerformanceMetric.toJson :=
  funext (PerformanceMetric.json_file_apply)

theorem QuantitativeAnalysis.json_file_apply (x : QuantitativeAnalysis) : File.QuantitativeAnalysis.toJson (QuantitativeAnalysis.toFile x) = QuantitativeAnalysis.toJson x := by
  json_simp [QuantitativeAnalysis.toFile, File.QuantitativeAnalysis.toJson, QuantitativeAnalysis.toJson, GraphicsCollection.json_file, GraphicsCollection.json_file_apply, PerformanceMetric.json_file, PerformanceMetric.json_file_apply]

theorem QuantitativeAnalysis.json_file : File.QuantitativeAnalysis.toJson ∘ QuantitativeAnalysis.toFile = QuantitativeAnalysis.toJson :=
  funext (QuantitativeAnalysis.json_file_apply)

theorem Considerations.json_file_apply (x : Considerations) : File.Considerations.toJson (Considerations.toFile x) = Considerations.toJson x := rfl

theorem Considerations.json_file : File.Considerations.toJson ∘ Considerations.toFile = Considerations.toJson :=
  funext (Considerations.json_file_apply)

theorem ModelCard.json_file_apply (x : ModelCard) : File.ModelCard.toJson (ModelCard.toFile x) = ModelCard.toJson x := by
  json_simp [ModelCard.toFile, File.ModelCard.toJson, ModelCard.toJson, Considerations.json_file, Considerations.json_file_apply, ModelParameters.json_file, ModelParameters.json_file_apply, Property.json_file, Property.json_file_apply, QuantitativeAnalysis.json_file, QuantitativeAnalysis.json_file_apply]

theorem ModelCard.json_file : File.ModelCard.toJson ∘ ModelCard.toFile = ModelCard.toJson :=
  funext (ModelCard.json_file_apply)

theorem Swid.json_file_apply (x : Swid) : File.Swid.toJson (Swid.toFile x) = Swid.toJson x := by
  json_simp [Swid.toFile, File.Swid.toJson, Swid.toJson, AttachedText.json_file, AttachedText.json_file_apply]

theorem Swid.json_file : File.Swid.toJson ∘ Swid.toFile = Swid.toJson :=
  funext (Swid.json_file_apply)

theorem Occurrence.json_file_apply (x : Occurrence) : File.Occurrence.toJson (Occurrence.toFile x) = Occurrence.toJson x := by
  json_simp [Occurrence.toFile, File.Occurrence.toJson, Occurrence.toJson]

theorem Occurrence.json_file : File.Occurrence.toJson ∘ Occurrence.toFile = Occurrence.toJson :=
  funext (Occurrence.json_file_apply)

theorem Frame.json_file_apply (x : Frame) : File.Frame.toJson (Frame.toFile x) = Frame.toJson x := by
  json_simp [Frame.toFile, File.Frame.toJson, Frame.toJson]

theorem Frame.json_file : File.Frame.toJson ∘ Frame.toFile = Frame.toJson :=
  funext (Frame.json_file_apply)

theorem Callstack.json_file_apply (x : Callstack) : File.Callstack.toJson (Callstack.toFile x) = Callstack.toJson x := by
  json_simp [Callstack.toFile, File.Callstack.toJson, Callstack.toJson, Frame.json_file, Frame.json_file_apply]

theorem Callstack.json_file : File.Callstack.toJson ∘ Callstack.toFile = Callstack.toJson :=
  funext (Callstack.json_file_apply)

theorem Method.json_file_apply (x : Method) : File.Method.toJson (Method.toFile x) = Method.toJson x := by
  json_simp [Method.toFile, File.Method.toJson, Method.toJson]

theorem Method.json_file : File.Method.toJson ∘ Method.toFile = Method.toJson :=
  funext (Method.json_file_apply)

theorem Identity.json_file_apply (x : Identity) : File.Identity.toJson (Identity.toFile x) = Identity.toJson x := by
  json_simp [Identity.toFile, File.Identity.toJson, Identity.toJson, Method.json_file, Method.json_file_apply]

theorem Identity.json_file : File.Identity.toJson ∘ Identity.toFile = Identity.toJson :=
  funext (Identity.json_file_apply)

theorem ComponentEvidence.json_file_apply (v : SpecVersion) (x : ComponentEvidence) : File.ComponentEvidence.toJson (ComponentEvidence.toFile v x) = ComponentEvidence.toJson v x := by
  cases v <;>
    json_simp [ComponentEvidence.toFile, File.ComponentEvidence.toJson, ComponentEvidence.toJson, Callstack.json_file, Callstack.json_file_apply, Identity.json_file, Identity.json_file_apply, LicenseChoice.json_file, LicenseChoice.json_file_apply, Occurrence.json_file, Occurrence.json_file_apply]

theorem ComponentEvidence.json_file (v : SpecVersion) : File.ComponentEvidence.toJson ∘ ComponentEvidence.toFile v = ComponentEvidence.toJson v :=
  funext (ComponentEvidence.json_file_apply v)

theorem DataClassification.json_file_apply (x : DataClassification) : File.DataClassification.toJson (DataClassification.toFile x) = DataClassification.toJson x := by
  json_simp [DataClassification.toFile, File.DataClassification.toJson, DataClassification.toJson]

theorem DataClassification.json_file : File.DataClassification.toJson ∘ DataClassification.toFile = DataClassification.toJson :=
  funext (DataClassification.json_file_apply)

theorem ServiceData.json_file_apply (x : ServiceData) : File.ServiceData.toJson (ServiceData.toFile x) = ServiceData.toJson x := by
  json_simp [ServiceData.toFile, DataClassification.toFile, File.ServiceData.toJson, ServiceData.toJson, DataClassification.json_file, DataClassification.json_file_apply, DataGovernance.json_file, DataGovernance.json_file_apply]

theorem ServiceData.json_file : File.ServiceData.toJson ∘ ServiceData.toFile = ServiceData.toJson :=
  funext (ServiceData.json_file_apply)

theorem ServiceDataChoice.json_file_apply (v : SpecVersion) (x : ServiceDataChoice) :
    File.ServiceDataChoice.toJson (ServiceDataChoice.toFile v x) = ServiceDataChoice.toJson v x := by
  cases v <;> cases x <;>
    json_simp [ServiceDataChoice.toFile, File.ServiceDataChoice.toJson, ServiceDataChoice.toJson,
      DataClassification.json_file, ServiceData.json_file] <;>
    simp only [← DataClassification.json_file] <;> rfl

theorem ServiceDataChoice.json_file (v : SpecVersion) :
    File.ServiceDataChoice.toJson ∘ ServiceDataChoice.toFile v = ServiceDataChoice.toJson v :=
  funext (ServiceDataChoice.json_file_apply v)

mutual

theorem Service.json_fileOpt (v : SpecVersion) : ∀ x : Option (List Service),
    File.Service.toJsonOpt (Service.toFileOpt v x) = Service.toJsonOpt v x
  | none => rfl
  | some l => by
    rw [Service.toFileOpt, File.Service.toJsonOpt, Service.toJsonOpt, Service.json_fileAll v l]
termination_by structural x => x

theorem Service.json_fileAll (v : SpecVersion) : ∀ x : List Service,
    File.Service.toJsonAll (Service.toFileAll v x) = Service.toJsonAll v x
  | [] => rfl
  | x :: l => by
    rw [Service.toFileAll, File.Service.toJsonAll, Service.toJsonAll, Service.json_fileAll v l,
      Service.json_file_apply v x]
termination_by structural x => x

theorem Service.json_file_apply (v : SpecVersion) : ∀ x : Service,
    File.Service.toJson (Service.toFile v x) = Service.toJson v x
  | ⟨bomRef, provider, group, name, version, description, endpoints, authenticated, xTrustBoundary, data, licenses, externalReferences, properties, services, signature, trustZone⟩ => by
    have h := Service.json_fileOpt v services
    cases v <;>
    json_simp [Service.toFile, File.Service.toJson, Service.toJson, h, ExternalReference.json_file, ExternalReference.json_file_apply, LicenseChoice.json_file, LicenseChoice.json_file_apply, OrganizationalEntity.json_file, OrganizationalEntity.json_file_apply, Property.json_file, Property.json_file_apply, ServiceDataChoice.json_file, ServiceDataChoice.json_file_apply, Signature.json_file, Signature.json_file_apply]
termination_by structural x => x

end

theorem Service.json_file (v : SpecVersion) : File.Service.toJson ∘ Service.toFile v = Service.toJson v :=
  funext (Service.json_file_apply v)

theorem Tool.json_file_apply (v : SpecVersion) (x : Tool) : File.Tool.toJson (Tool.toFile v x) = Tool.toJson v x := by
  cases v <;>
    json_simp [Tool.toFile, File.Tool.toJson, Tool.toJson, ExternalReference.json_file, ExternalReference.json_file_apply, Hash.json_file, Hash.json_file_apply]

theorem Tool.json_file (v : SpecVersion) : File.Tool.toJson ∘ Tool.toFile v = Tool.toJson v :=
  funext (Tool.json_file_apply v)

theorem LifecycleDescription.json_file_apply (x : LifecycleDescription) : File.LifecycleDescription.toJson (LifecycleDescription.toFile x) = LifecycleDescription.toJson x := by
  json_simp [LifecycleDescription.toFile, File.LifecycleDescription.toJson, LifecycleDescription.toJson]

theorem LifecycleDescription.json_file : File.LifecycleDescription.toJson ∘ LifecycleDescription.toFile = LifecycleDescription.toJson :=
  funext (LifecycleDescription.json_file_apply)

theorem Lifecycle.json_file_apply (x : Lifecycle) : File.Lifecycle.toJson (Lifecycle.toFile x) = Lifecycle.toJson x := by
  cases x <;> json_simp [Lifecycle.toFile, File.Lifecycle.toJson, Lifecycle.toJson, LifecycleDescription.json_file, LifecycleDescription.json_file_apply]

theorem Lifecycle.json_file : File.Lifecycle.toJson ∘ Lifecycle.toFile = Lifecycle.toJson :=
  funext (Lifecycle.json_file_apply)

theorem Dependency.json_file_apply (x : Dependency) : File.Dependency.toJson (Dependency.toFile x) = Dependency.toJson x := by
  json_simp [Dependency.toFile, File.Dependency.toJson, Dependency.toJson]

theorem Dependency.json_file : File.Dependency.toJson ∘ Dependency.toFile = Dependency.toJson :=
  funext (Dependency.json_file_apply)

theorem Composition.json_file_apply (v : SpecVersion) (x : Composition) : File.Composition.toJson (Composition.toFile v x) = Composition.toJson v x := by
  cases v <;>
    json_simp [Composition.toFile, File.Composition.toJson, Composition.toJson, Signature.json_file, Signature.json_file_apply]

theorem Composition.json_file (v : SpecVersion) : File.Composition.toJson ∘ Composition.toFile v = Composition.toJson v :=
  funext (Composition.json_file_apply v)

theorem Advisory.json_file_apply (x : Advisory) : File.Advisory.toJson (Advisory.toFile x) = Advisory.toJson x := by
  json_simp [Advisory.toFile, File.Advisory.toJson, Advisory.toJson]

theorem Advisory.json_file : File.Advisory.toJson ∘ Advisory.toFile = Advisory.toJson :=
  funext (Advisory.json_file_apply)

theorem VulnerabilitySource.json_file_apply (x : VulnerabilitySource) : File.VulnerabilitySource.toJson (VulnerabilitySource.toFile x) = VulnerabilitySource.toJson x := by
  json_simp [VulnerabilitySource.toFile, File.VulnerabilitySource.toJson, VulnerabilitySource.toJson]

theorem VulnerabilitySource.json_file : File.VulnerabilitySource.toJson ∘ VulnerabilitySource.toFile = VulnerabilitySource.toJson :=
  funext (VulnerabilitySource.json_file_apply)

theorem VulnerabilityReference.json_file_apply (x : VulnerabilityReference) : File.VulnerabilityReference.toJson (VulnerabilityReference.toFile x) = VulnerabilityReference.toJson x := by
  json_simp [VulnerabilityReference.toFile, File.VulnerabilityReference.toJson, VulnerabilityReference.toJson, VulnerabilitySource.json_file, VulnerabilitySource.json_file_apply]

theorem VulnerabilityReference.json_file : File.VulnerabilityReference.toJson ∘ VulnerabilityReference.toFile = VulnerabilityReference.toJson :=
  funext (VulnerabilityReference.json_file_apply)

theorem VulnerabilityRating.json_file_apply (x : VulnerabilityRating) : File.VulnerabilityRating.toJson (VulnerabilityRating.toFile x) = VulnerabilityRating.toJson x := by
  json_simp [VulnerabilityRating.toFile, File.VulnerabilityRating.toJson, VulnerabilityRating.toJson, VulnerabilitySource.json_file, VulnerabilitySource.json_file_apply]

theorem VulnerabilityRating.json_file : File.VulnerabilityRating.toJson ∘ VulnerabilityRating.toFile = VulnerabilityRating.toJson :=
  funext (VulnerabilityRating.json_file_apply)

theorem VulnerabilityCredits.json_file_apply (x : VulnerabilityCredits) : File.VulnerabilityCredits.toJson (VulnerabilityCredits.toFile x) = VulnerabilityCredits.toJson x := by
  json_simp [VulnerabilityCredits.toFile, File.VulnerabilityCredits.toJson, VulnerabilityCredits.toJson, OrganizationalContact.json_file, OrganizationalContact.json_file_apply, OrganizationalEntity.json_file, OrganizationalEntity.json_file_apply]

theorem VulnerabilityCredits.json_file : File.VulnerabilityCredits.toJson ∘ VulnerabilityCredits.toFile = VulnerabilityCredits.toJson :=
  funext (VulnerabilityCredits.json_file_apply)

theorem VulnerabilityAnalysis.json_file_apply (v : SpecVersion) (x : VulnerabilityAnalysis) : File.VulnerabilityAnalysis.toJson (VulnerabilityAnalysis.toFile v x) = VulnerabilityAnalysis.toJson v x := by
  cases v <;>
    json_simp [VulnerabilityAnalysis.toFile, File.VulnerabilityAnalysis.toJson, VulnerabilityAnalysis.toJson]

theorem VulnerabilityAnalysis.json_file (v : SpecVersion) : File.VulnerabilityAnalysis.toJson ∘ VulnerabilityAnalysis.toFile v = VulnerabilityAnalysis.toJson v :=
  funext (VulnerabilityAnalysis.json_file_apply v)

theorem VersionRange.fields_file_apply (x : VersionRange) : File.VersionRange.toFields (VersionRange.toFile x) = VersionRange.toFields x := by
  cases x <;> json_simp [VersionRange.toFile, File.VersionRange.toFields, VersionRange.toFields]

theorem VersionRange.fields_file : File.VersionRange.toFields ∘ VersionRange.toFile = VersionRange.toFields :=
  funext (VersionRange.fields_file_apply)

theorem TargetVersion.json_file_apply (x : TargetVersion) : File.TargetVersion.toJson (TargetVersion.toFile x) = TargetVersion.toJson x := by
  json_simp [TargetVersion.toFile, File.TargetVersion.toJson, TargetVersion.toJson, VersionRange.fields_file, VersionRange.fields_file_apply]

theorem TargetVersion.json_file : File.TargetVersion.toJson ∘ TargetVersion.toFile = TargetVersion.toJson :=
  funext (TargetVersion.json_file_apply)

theorem VulnerabilityTarget.json_file_apply (x : VulnerabilityTarget) : File.VulnerabilityTarget.toJson (VulnerabilityTarget.toFile x) = VulnerabilityTarget.toJson x := by
  json_simp [VulnerabilityTarget.toFile, File.VulnerabilityTarget.toJson, VulnerabilityTarget.toJson, TargetVersion.json_file, TargetVersion.json_file_apply]

theorem VulnerabilityTarget.json_file : File.VulnerabilityTarget.toJson ∘ VulnerabilityTarget.toFile = VulnerabilityTarget.toJson :=
  funext (VulnerabilityTarget.json_file_apply)

theorem VulnerabilityProofOfConcept.json_file_apply (x : VulnerabilityProofOfConcept) : File.VulnerabilityProofOfConcept.toJson (VulnerabilityProofOfConcept.toFile x) = VulnerabilityProofOfConcept.toJson x := by
  json_simp [VulnerabilityProofOfConcept.toFile, File.VulnerabilityProofOfConcept.toJson, VulnerabilityProofOfConcept.toJson, Attachment.json_file, Attachment.json_file_apply]

theorem VulnerabilityProofOfConcept.json_file : File.VulnerabilityProofOfConcept.toJson ∘ VulnerabilityProofOfConcept.toFile = VulnerabilityProofOfConcept.toJson :=
  funext (VulnerabilityProofOfConcept.json_file_apply)

theorem ResourceReference.fields_file_apply (x : ResourceReference) : File.ResourceReference.toFields (ResourceReference.toFile x) = ResourceReference.toFields x := by
  cases x <;> json_simp [ResourceReference.toFile, File.ResourceReference.toFields, ResourceReference.toFields, ExternalReference.json_file, ExternalReference.json_file_apply]

theorem ResourceReference.fields_file : File.ResourceReference.toFields ∘ ResourceReference.toFile = ResourceReference.toFields :=
  funext (ResourceReference.fields_file_apply)

theorem ResourceReference.json_file_apply (x : ResourceReference) : File.ResourceReference.toJson (ResourceReference.toFile x) = ResourceReference.toJson x :=
  congrArg Json.mk (ResourceReference.fields_file_apply x)

theorem ResourceReference.json_file : File.ResourceReference.toJson ∘ ResourceReference.toFile = ResourceReference.toJson :=
  funext (ResourceReference.json_file_apply)

theorem EnvironmentVar.json_file_apply (x : EnvironmentVar) : File.EnvironmentVar.toJson (EnvironmentVar.toFile x) = EnvironmentVar.toJson x := by
  cases x <;> json_simp [EnvironmentVar.toFile, File.EnvironmentVar.toJson, EnvironmentVar.toJson]

theorem EnvironmentVar.json_file : File.EnvironmentVar.toJson ∘ EnvironmentVar.toFile = EnvironmentVar.toJson :=
  funext (EnvironmentVar.json_file_apply)

theorem Parameter.json_file_apply (x : Parameter) : File.Parameter.toJson (Parameter.toFile x) = Parameter.toJson x := by
  json_simp [Parameter.toFile, File.Parameter.toJson, Parameter.toJson]

theorem Parameter.json_file : File.Parameter.toJson ∘ Parameter.toFile = Parameter.toJson :=
  funext (Parameter.json_file_apply)

theorem RequiredInputField.fields_file_apply (x : RequiredInputField) : File.RequiredInputField.toFields (RequiredInputField.toFile x) = RequiredInputField.toFields x := by
  cases x <;> json_simp [RequiredInputField.toFile, File.RequiredInputField.toFields, RequiredInputField.toFields, Attachment.json_file, Attachment.json_file_apply, EnvironmentVar.json_file, EnvironmentVar.json_file_apply, Parameter.json_file, Parameter.json_file_apply, ResourceReference.fields_file, ResourceReference.fields_file_apply, ResourceReference.json_file, ResourceReference.json_file_apply]

theorem RequiredInputField.fields_file : File.RequiredInputField.toFields ∘ RequiredInputField.toFile = RequiredInputField.toFields :=
  funext (RequiredInputField.fields_file_apply)

theorem Input.json_file_apply (x : Input) : File.Input.toJson (Input.toFile x) = Input.toJson x := by
  json_simp [Input.toFile, File.Input.toJson, Input.toJson, Property.json_file, Property.json_file_apply, RequiredInputField.fields_file, RequiredInputField.fields_file_apply, ResourceReference.fields_file, ResourceReference.fields_file_apply, ResourceReference.json_file, ResourceReference.json_file_apply]

theorem Input.json_file : File.Input.toJson ∘ Input.toFile = Input.toJson :=
  funext (Input.json_file_apply)

theorem RequiredOutputField.fields_file_apply (x : RequiredOutputField) : File.RequiredOutputField.toFields (RequiredOutputField.toFile x) = RequiredOutputField.toFields x := by
  cases x <;> json_simp [RequiredOutputField.toFile, File.RequiredOutputField.toFields, RequiredOutputField.toFields, Attachment.json_file, Attachment.json_file_apply, EnvironmentVar.json_file, EnvironmentVar.json_file_apply, ResourceReference.fields_file, ResourceReference.fields_file_apply, ResourceReference.json_file, ResourceReference.json_file_apply]

theorem RequiredOutputField.fields_file : File.RequiredOutputField.toFields ∘ RequiredOutputField.toFile = RequiredOutputField.toFields :=
  funext (RequiredOutputField.fields_file_apply)

theorem Output.json_file_apply (x : Output) : File.Output.toJson (Output.toFile x) = Output.toJson x := by
  json_simp [Output.toFile, File.Output.toJson, Output.toJson, Property.json_file, Property.json_file_apply, RequiredOutputField.fields_file, RequiredOutputField.fields_file_apply, ResourceReference.fields_file, ResourceReference.fields_file_apply, ResourceReference.json_file, ResourceReference.json_file_apply]

theorem Output.json_file : File.Output.toJson ∘ Output.toFile = Output.toJson :=
  funext (Output.json_file_apply)

theorem Command.json_file_apply (x : Command) : File.Command.toJson (Command.toFile x) = Command.toJson x := by
  json_simp [Command.toFile, File.Command.toJson, Command.toJson, Property.json_file, Property.json_file_apply]

theorem Command.json_file : File.Command.toJson ∘ Command.toFile = Command.toJson :=
  funext (Command.json_file_apply)

theorem Step.json_file_apply (x : Step) : File.Step.toJson (Step.toFile x) = Step.toJson x := by
  json_simp [Step.toFile, File.Step.toJson, Step.toJson, Command.json_file, Command.json_file_apply, Property.json_file, Property.json_file_apply]

theorem Step.json_file : File.Step.toJson ∘ Step.toFile = Step.toJson :=
  funext (Step.json_file_apply)

theorem TriggerEvent.json_file_apply (x : TriggerEvent) : File.TriggerEvent.toJson (TriggerEvent.toFile x) = TriggerEvent.toJson x := by
  json_simp [TriggerEvent.toFile, File.TriggerEvent.toJson, TriggerEvent.toJson, Attachment.json_file, Attachment.json_file_apply, Property.json_file, Property.json_file_apply, ResourceReference.fields_file, ResourceReference.fields_file_apply, ResourceReference.json_file, ResourceReference.json_file_apply]

theorem TriggerEvent.json_file : File.TriggerEvent.toJson ∘ TriggerEvent.toFile = TriggerEvent.toJson :=
  funext (TriggerEvent.json_file_apply)

theorem Condition.json_file_apply (x : Condition) : File.Condition.toJson (Condition.toFile x) = Condition.toJson x := by
  json_simp [Condition.toFile, File.Condition.toJson, Condition.toJson, Property.json_file, Property.json_file_apply]

theorem Condition.json_file : File.Condition.toJson ∘ Condition.toFile = Condition.toJson :=
  funext (Condition.json_file_apply)

theorem Trigger.json_file_apply (x : Trigger) : File.Trigger.toJson (Trigger.toFile x) = Trigger.toJson x := by
  json_simp [Trigger.toFile, File.Trigger.toJson, Trigger.toJson, Condition.json_file, Condition.json_file_apply, Input.json_file, Input.json_file_apply, Output.json_file, Output.json_file_apply, Property.json_file, Property.json_file_apply, ResourceReference.fields_file, ResourceReference.fields_file_apply, ResourceReference.json_file, ResourceReference.json_file_apply, TriggerEvent.json_file, TriggerEvent.json_file_apply]

theorem Trigger.json_file : File.Trigger.toJson ∘ Trigger.toFile = Trigger.toJson :=
  funext (Trigger.json_file_apply)

theorem Volume.json_file_apply (x : Volume) : File.Volume.toJson (Volume.toFile x) = Volume.toJson x := by
  json_simp [Volume.toFile, File.Volume.toJson, Volume.toJson, Property.json_file, Property.json_file_apply]

theorem Volume.json_file : File.Volume.toJson ∘ Volume.toFile = Volume.toJson :=
  funext (Volume.json_file_apply)

theorem Workspace.json_file_apply (x : Workspace) : File.Workspace.toJson (Workspace.toFile x) = Workspace.toJson x := by
  json_simp [Workspace.toFile, File.Workspace.toJson, Workspace.toJson, Property.json_file, Property.json_file_apply, ResourceReference.fields_file, ResourceReference.fields_file_apply, ResourceReference.json_file, ResourceReference.json_file_apply, Volume.json_file, Volume.json_file_apply]

theorem Workspace.json_file : File.Workspace.toJson ∘ Workspace.toFile = Workspace.toJson :=
  funext (Workspace.json_file_apply)

theorem WorkflowTask.json_file_apply (x : WorkflowTask) : File.WorkflowTask.toJson (WorkflowTask.toFile x) = WorkflowTask.toJson x := by
  json_simp [WorkflowTask.toFile, File.WorkflowTask.toJson, WorkflowTask.toJson, Dependency.json_file, Dependency.json_file_apply, Input.json_file, Input.json_file_apply, Output.json_file, Output.json_file_apply, Property.json_file, Property.json_file_apply, ResourceReference.fields_file, ResourceReference.fields_file_apply, ResourceReference.json_file, ResourceReference.json_file_apply, Step.json_file, Step.json_file_apply, Trigger.json_file, Trigger.json_file_apply, Workspace.json_file, Workspace.json_file_apply]

theorem WorkflowTask.json_file : File.WorkflowTask.toJson ∘ WorkflowTask.toFile = WorkflowTask.toJson :=
  funext (WorkflowTask.json_file_apply)

theorem Workflow.json_file_apply (x : Workflow) : File.Workflow.toJson (Workflow.toFile x) = Workflow.toJson x := by
  json_simp [Workflow.toFile, File.Workflow.toJson, Workflow.toJson, Dependency.json_file, Dependency.json_file_apply, Input.json_file, Input.json_file_apply, Output.json_file, Output.json_file_apply, Property.json_file, Property.json_file_apply, ResourceReference.fields_file, ResourceReference.fields_file_apply, ResourceReference.json_file, ResourceReference.json_file_apply, Step.json_file, Step.json_file_apply, Trigger.json_file, Trigger.json_file_apply, WorkflowTask.json_file, WorkflowTask.json_file_apply, Workspace.json_file, Workspace.json_file_apply]

theorem Workflow.json_file : File.Workflow.toJson ∘ Workflow.toFile = Workflow.toJson :=
  funext (Workflow.json_file_apply)

/-! ### Conversions that may fail -/

mutual

theorem Component.json_fileOpt (v : SpecVersion) : ∀ (x : Option (List Component)) (y),
    Component.toFileOpt v x = .ok y → File.Component.toJsonOpt y = Component.toJsonOpt v x
  | none, y, h => by
    rw [Component.toFileOpt] at h
    injection h with h
    subst h
    rfl
  | some l, y, h => by
    rw [Component.toFileOpt, map_ok] at h
    obtain ⟨z, hz, rfl⟩ := h
    rw [File.Component.toJsonOpt, Component.toJsonOpt, Component.json_fileAll v l z hz]
termination_by structural x => x

theorem Component.json_fileAll (v : SpecVersion) : ∀ (x : List Component) (y),
    Component.toFileAll v x = .ok y → File.Component.toJsonAll y = Component.toJsonAll v x
  | [], y, h => by
    rw [Component.toFileAll] at h
    injection h with h
    subst h
    rfl
  | x :: l, y, h => by
    rw [Component.toFileAll, bind_ok] at h
    obtain ⟨a, ha, h⟩ := h
    rw [bind_ok] at h
    obtain ⟨b, hb, h⟩ := h
    injection h with h
    subst h
    rw [File.Component.toJsonAll, Component.toJsonAll, Component.json_file_apply v x a ha,
      Component.json_fileAll v l b hb]
termination_by structural x => x

theorem Pedigree.json_fileOpt (v : SpecVersion) : ∀ (x : Option Pedigree) (y),
    Pedigree.toFileOpt v x = .ok y → File.Pedigree.toJsonOpt y = Pedigree.toJsonOpt v x
  | none, y, h => by
    rw [Pedigree.toFileOpt] at h
    injection h with h
    subst h
    rfl
  | some l, y, h => by
    rw [Pedigree.toFileOpt, map_ok] at h
    obtain ⟨z, hz, rfl⟩ := h
    rw [File.Pedigree.toJsonOpt, Pedigree.toJsonOpt, Pedigree.json_file_apply v l z hz]
termination_by structural x => x

theorem Pedigree.json_file_apply (v : SpecVersion) : ∀ (x : Pedigree) (y),
    Pedigree.toFile v x = .ok y → File.Pedigree.toJson y = Pedigree.toJson v x
  | ⟨ancestors, descendants, variants, commits, patches, notes⟩, y, h => by
    rw [Pedigree.toFile, bind_ok] at h
    obtain ⟨a, ha, h⟩ := h
    rw [bind_ok] at h
    obtain ⟨b, hb, h⟩ := h
    rw [bind_ok] at h
    obtain ⟨c, hc, h⟩ := h
    injection h with h
    subst h
    have h1 := Component.json_fileOpt v ancestors a ha
    have h2 := Component.json_fileOpt v descendants b hb
    have h3 := Component.json_fileOpt v variants c hc
    json_simp [File.Pedigree.toJson, Pedigree.toJson, h1, h2, h3, Commit.json_file, Commit.json_file_apply, Patch.json_file, Patch.json_file_apply]
termination_by structural x => x

theorem Component.json_file_apply (v : SpecVersion) : ∀ (x : Component) (y),
    Component.toFile v x = .ok y → File.Component.toJson y = Component.toJson v x
  | ⟨componentType, mimeType, bomRef, supplier, author, publisher, group, name, version, description, scope, hashes, licenses, copyright, cpe, purl, swid, modified, pedigree, externalReferences, properties, components, evidence, signature, modelCard, data⟩, y, h => by
    rw [Component.toFile, bind_ok] at h
    obtain ⟨a, ha, h⟩ := h
    rw [bind_ok] at h
    obtain ⟨b, hb, h⟩ := h
    rw [bind_ok] at h
    obtain ⟨c, hc, h⟩ := h
    injection h with h
    subst h
    have h1 := File.Version.rt ha
    have h2 := Pedigree.json_fileOpt v pedigree b hb
    have h3 := Component.json_fileOpt v components c hc
    cases v <;>
    json_simp [File.Component.toJson, Component.toJson, h1, h2, h3, ComponentData.json_file, ComponentData.json_file_apply, ComponentEvidence.json_file, ComponentEvidence.json_file_apply, ExternalReference.json_file, ExternalReference.json_file_apply, Hash.json_file, Hash.json_file_apply, LicenseChoice.json_file, LicenseChoice.json_file_apply, ModelCard.json_file, ModelCard.json_file_apply, OrganizationalEntity.json_file, OrganizationalEntity.json_file_apply, Property.json_file, Property.json_file_apply, Signature.json_file, Signature.json_file_apply, Swid.json_file, Swid.json_file_apply]
termination_by structural x => x

end

/-- What holds for a conversion that may fail holds for lists. -/
theorem tryVec_file {α β : Type} {f : α → Except String β} {g : β → Json} {h : α → Json}
    (hf : ∀ x y, f x = .ok y → g y = h x) : ∀ {l : List α} {ys : List β},
    tryVec f l = .ok ys → Json.ofList g ys = Json.ofList h l
  | [], ys, e => by
    injection e with e
    subst e
    rfl
  | x :: l, ys, e => by
    rw [tryVec, bind_ok] at e
    obtain ⟨y, hy, e⟩ := e
    rw [bind_ok] at e
    obtain ⟨zs, hz, e⟩ := e
    injection e with e
    subst e
    have := tryVec_file hf hz
    rw [Json.ofList, Json.ofList, Json.arr.injEq] at this
    rw [Json.ofList, Json.ofList, List.map_cons, List.map_cons, hf x y hy, this]

theorem tryOptional_file {α β : Type} {f : α → Except String β} {g : β → Json} {h : α → Json}
    (hf : ∀ x y, f x = .ok y → g y = h x) : ∀ {o : Option α} {y : Option β},
    tryOptional f o = .ok y → y.map g = o.map h
  | none, y, e => by
    injection e with e
    subst e
    rfl
  | some x, y, e => by
    rw [tryOptional, map_ok] at e
    obtain ⟨z, hz, rfl⟩ := e
    simp [hf x z hz]

theorem tryOptionalVec_file {α β : Type} {f : α → Except String β} {g : β → Json} {h : α → Json}
    (hf : ∀ x y, f x = .ok y → g y = h x) {o : Option (List α)} {y}
    (e : tryOptional (tryVec f) o = .ok y) : y.map (Json.ofList g) = o.map (Json.ofList h) :=
  tryOptional_file (fun _ _ h => tryVec_file hf h) e

theorem Tools.json_file_apply (v : SpecVersion) (x : Tools) (y) (h : Tools.toFile v x = .ok y) :
    File.Tools.toJson y = Tools.toJson v x := by
  cases x with
  | list l =>
    injection h with h
    subst h
    json_simp [File.Tools.toJson, Tools.toJson, Tool.json_file]
  | object s c =>
    cases v with
    | v1_3 => injection h with h; subst h; rfl
    | v1_4 => injection h with h; subst h; rfl
    | v1_5 =>
      rw [Tools.toFile] at h
      obtain ⟨a, ha, h⟩ := bind_ok.1 h
      injection h with h
      subst h
      have h1 := tryOptionalVec_file (Component.json_file_apply .v1_5) ha
      json_simp [File.Tools.toJson, Tools.toJson, h1, Service.json_file]

theorem Metadata.json_file_apply (v : SpecVersion) (x : Metadata) (y) (h : Metadata.toFile v x = .ok y) :
    File.Metadata.toJson y = Metadata.toJson v x := by
  rw [Metadata.toFile] at h
  obtain ⟨b0, h0, h⟩ := bind_ok.1 h
  obtain ⟨b1, h1, h⟩ := bind_ok.1 h
  injection h with h
  subst h
  have e0 := tryOptional_file (Tools.json_file_apply v) h0
  have e1 := tryOptional_file (Component.json_file_apply v) h1
  cases v <;>
    json_simp [File.Metadata.toJson, Metadata.toJson, e0, e1, LicenseChoice.json_file, LicenseChoice.json_file_apply, Lifecycle.json_file, Lifecycle.json_file_apply, OrganizationalContact.json_file, OrganizationalContact.json_file_apply, OrganizationalEntity.json_file, OrganizationalEntity.json_file_apply, Property.json_file, Property.json_file_apply]

theorem Vulnerability.json_file_apply (v : SpecVersion) (x : Vulnerability) (y) (h : Vulnerability.toFile v x = .ok y) :
    File.Vulnerability.toJson y = Vulnerability.toJson v x := by
  rw [Vulnerability.toFile] at h
  obtain ⟨b0, h0, h⟩ := bind_ok.1 h
  injection h with h
  subst h
  have e0 := tryOptional_file (Tools.json_file_apply v) h0
  cases v <;>
    json_simp [File.Vulnerability.toJson, Vulnerability.toJson, e0, Advisory.json_file, Advisory.json_file_apply, Property.json_file, Property.json_file_apply, VulnerabilityAnalysis.json_file, VulnerabilityAnalysis.json_file_apply, VulnerabilityCredits.json_file, VulnerabilityCredits.json_file_apply, VulnerabilityProofOfConcept.json_file, VulnerabilityProofOfConcept.json_file_apply, VulnerabilityRating.json_file, VulnerabilityRating.json_file_apply, VulnerabilityReference.json_file, VulnerabilityReference.json_file_apply, VulnerabilitySource.json_file, VulnerabilitySource.json_file_apply, VulnerabilityTarget.json_file, VulnerabilityTarget.json_file_apply]

theorem Annotator.json_file_apply (x : Annotator) (y) (h : Annotator.toFile x = .ok y) :
    File.Annotator.toJson y = Annotator.toJson .v1_5 x := by
  cases x with
  | organization o =>
    injection h with h; subst h
    json_simp [File.Annotator.toJson, Annotator.toJson, OrganizationalEntity.json_file_apply]
  | individual o =>
    injection h with h; subst h
    json_simp [File.Annotator.toJson, Annotator.toJson, OrganizationalContact.json_file_apply]
  | component c =>
    obtain ⟨a, ha, rfl⟩ := map_ok.1 h
    json_simp [File.Annotator.toJson, Annotator.toJson, Component.json_file_apply .v1_5 c a ha]
  | service s =>
    injection h with h; subst h
    json_simp [File.Annotator.toJson, Annotator.toJson, Service.json_file_apply]

theorem Annotation.json_file_apply (x : Annotation) (y) (h : Annotation.toFile x = .ok y) :
    File.Annotation.toJson y = Annotation.toJson .v1_5 x := by
  rw [Annotation.toFile] at h
  obtain ⟨b0, h0, h⟩ := bind_ok.1 h
  injection h with h
  subst h
  have e0 := Annotator.json_file_apply _ _ h0
  json_simp [File.Annotation.toJson, Annotation.toJson, e0, Signature.json_file, Signature.json_file_apply]

theorem Formula.json_file_apply (x : Formula) (y) (h : Formula.toFile x = .ok y) :
    File.Formula.toJson y = Formula.toJson .v1_5 x := by
  rw [Formula.toFile] at h
  obtain ⟨b0, h0, h⟩ := bind_ok.1 h
  injection h with h
  subst h
  have e0 := tryOptionalVec_file (Component.json_file_apply .v1_5) h0
  json_simp [File.Formula.toJson, Formula.toJson, e0, Property.json_file, Property.json_file_apply, Service.json_file, Service.json_file_apply, Workflow.json_file, Workflow.json_file_apply]

theorem Bom.json_file_apply (v : SpecVersion) (x : Bom) (y) (h : Bom.toFile v x = .ok y) :
    File.Bom.toJson y = Bom.toJson v x := by
  rw [Bom.toFile] at h
  obtain ⟨b0, h0, h⟩ := bind_ok.1 h
  obtain ⟨b1, h1, h⟩ := bind_ok.1 h
  obtain ⟨b2, h2, h⟩ := bind_ok.1 h
  obtain ⟨b3, h3, h⟩ := bind_ok.1 h
  obtain ⟨b4, h4, h⟩ := bind_ok.1 h
  injection h with h
  subst h
  have e0 := tryOptional_file (Metadata.json_file_apply v) h0
  have e1 := tryOptionalVec_file (Component.json_file_apply v) h1
  cases v with
  | v1_3 =>
    json_simp [File.Bom.toJson, Bom.toJson, e0, e1, Composition.json_file, Composition.json_file_apply, Dependency.json_file, Dependency.json_file_apply, ExternalReference.json_file, ExternalReference.json_file_apply, Property.json_file, Property.json_file_apply, Service.json_file, Service.json_file_apply, Signature.json_file, Signature.json_file_apply]
  | v1_4 =>
    have e2 := tryOptionalVec_file (Vulnerability.json_file_apply .v1_4) h2
    json_simp [File.Bom.toJson, Bom.toJson, e0, e1, e2, Composition.json_file, Composition.json_file_apply, Dependency.json_file, Dependency.json_file_apply, ExternalReference.json_file, ExternalReference.json_file_apply, Property.json_file, Property.json_file_apply, Service.json_file, Service.json_file_apply, Signature.json_file, Signature.json_file_apply]
  | v1_5 =>
    have e2 := tryOptionalVec_file (Vulnerability.json_file_apply .v1_5) h2
    have e3 := tryOptionalVec_file Annotation.json_file_apply h3
    have e4 := tryOptionalVec_file Formula.json_file_apply h4
    json_simp [File.Bom.toJson, Bom.toJson, e0, e1, e2, e3, e4, Composition.json_file, Composition.json_file_apply, Dependency.json_file, Dependency.json_file_apply, ExternalReference.json_file, ExternalReference.json_file_apply, Property.json_file, Property.json_file_apply, Service.json_file, Service.json_file_apply, Signature.json_file, Signature.json_file_apply]

end Cdx
