import Verif.Model.File.Json
import Verif.Lemmas.File.Convert

set_option linter.unusedVariables false
set_option linter.unusedSimpArgs false
set_option linter.unusedSectionVars false

/-!
# Reading the structures of the files from JSON: lemmas

`X.ofJson_file`: reading the structure of the file and then converting is what `X.ofJson` does.
-/

namespace Cdx

variable [F32Format]

variable [ReadLimit]

theorem map_bind' {ε α β γ : Type} (x : Except ε α) (f : α → β) (k : β → Except ε γ) :
    x.map f >>= k = x >>= fun a => k (f a) := by cases x <;> rfl

theorem bind_map' {ε α β γ : Type} (x : Except ε α) (k : α → Except ε β) (f : β → γ) :
    (x >>= k).map f = x >>= fun a => (k a).map f := by cases x <;> rfl

theorem ok_bind' {ε α β : Type} (a : α) (k : α → Except ε β) : (Except.ok a : Except ε α) >>= k = k a := rfl

theorem error_bind' {ε α β : Type} (e : ε) (k : α → Except ε β) : (Except.error e : Except ε α) >>= k = .error e := rfl

theorem map_map' {ε α β γ : Type} (x : Except ε α) (f : α → β) (g : β → γ) :
    (x.map f).map g = x.map fun a => g (f a) := by cases x <;> rfl

theorem ok_map' {ε α β : Type} (a : α) (f : α → β) : (Except.ok a : Except ε α).map f = .ok (f a) := rfl

theorem error_map' {ε α β : Type} (e : ε) (f : α → β) : (Except.error e : Except ε α).map f = .error e := rfl

theorem opt_map' {α β : Type} (o : List (String × Json)) (k : String) (p : Json → Except String α) (f : α → β) :
    Json.opt o k (fun j => (p j).map f) = (Json.opt o k p).map (Option.map f) := by
  unfold Json.opt
  split
  · rfl
  · rfl
  · dsimp only
    cases p _ <;> rfl
  · rfl

theorem req_map' {α β : Type} (o : List (String × Json)) (k : String) (p : Json → Except String α) (f : α → β) :
    Json.req o k (fun j => (p j).map f) = (Json.req o k p).map f := by
  unfold Json.req
  split <;> rfl

theorem mapM_map' {α β : Type} (p : Json → Except String α) (f : α → β) : ∀ l : List Json,
    l.mapM (fun j => (p j).map f) = (l.mapM p).map (List.map f)
  | [] => rfl
  | a :: l => by
    rw [List.mapM_cons, List.mapM_cons, mapM_map' p f l]
    cases p a with
    | error e => rfl
    | ok b => cases List.mapM p l <;> rfl

theorem array_map' {α β : Type} (p : Json → Except String α) (f : α → β) :
    Json.array (fun j => (p j).map f) = fun j => (Json.array p j).map (List.map f) := by
  funext j
  cases j <;> first | exact mapM_map' p f _ | rfl

theorem orEmpty_map' {α β : Type} (o : List (String × Json)) (k : String) (p : Json → Except String α) (f : α → β) :
    Json.orEmpty o k (fun j => (p j).map f) = (Json.orEmpty o k p).map (List.map f) := by
  unfold Json.orEmpty
  split
  · rfl
  · rw [array_map']
  · rfl

theorem enum_map' {α : Type} (new : String → α) : Json.enum new = fun j => (Json.string j).map new := rfl

theorem lookup_map' {α β : Type} (f : α → β) (k : String) : ∀ l : List (String × (Json → Except String α)),
    (l.map fun p => (p.1, fun j => (p.2 j).map f)).lookup k = (l.lookup k).map fun p j => (p j).map f
  | [] => rfl
  | (k', p) :: l => by
    rw [List.map_cons, List.lookup_cons, List.lookup_cons]
    cases k == k' with
    | true => rfl
    | false => exact lookup_map' f k l

theorem tagged_map' {α β : Type} (l : List (String × (Json → Except String α))) (f : α → β) (j : Json) :
    (Json.tagged l j).map f = Json.tagged (l.map fun p => (p.1, fun j => (p.2 j).map f)) j := by
  unfold Json.tagged
  split
  · rw [lookup_map']
    cases List.lookup _ l <;> rfl
  · rfl

theorem flatVariant_map' {α β : Type} (l : List (String × (Json → Except String α))) (f : α → β) :
    ∀ o : List (String × Json),
    (Json.flatVariant o l).map f = Json.flatVariant o (l.map fun p => (p.1, fun j => (p.2 j).map f))
  | [] => rfl
  | (k, j) :: o => by
    rw [Json.flatVariant, Json.flatVariant, lookup_map']
    cases l.lookup k with
    | none => exact flatVariant_map' l f o
    | some p => rfl

theorem flatUntagged_map' {α β : Type} (o : List (String × Json)) (f : α → β) :
    ∀ l : List (String × (Json → Except String α)),
    (Json.flatUntagged o l).map f = Json.flatUntagged o (l.map fun p => (p.1, fun j => (p.2 j).map f))
  | [] => rfl
  | (k, p) :: l => by
    rw [List.map_cons, Json.flatUntagged, Json.flatUntagged]
    cases Json.get o k with
    | error e => exact flatUntagged_map' o f l
    | ok x =>
      cases x with
      | none => exact flatUntagged_map' o f l
      | some j =>
        cases h : p j with
        | error e => simp only [h, error_map']; exact flatUntagged_map' o f l
        | ok x => simp only [h, ok_map']

theorem Licenses.ofJson_eq (v : SpecVersion) : Licenses.ofJson v = Json.array (LicenseChoice.ofJson v) := rfl

/-- Both sides as the same sequence of reads. -/
macro "read_simp" "[" ls:Lean.Parser.Tactic.simpLemma,* "]" : tactic =>
  `(tactic| simp only [map_bind', bind_map', ok_bind', error_bind', map_map', ok_map', error_map', opt_map', req_map',
    array_map', orEmpty_map', enum_map', tagged_map', flatVariant_map', flatUntagged_map', List.map_cons, List.map_nil,
    Licenses.ofJson_eq, Since14.get, Since14.tryPut, Since15.get, Since15.tryPut, since14, since15,
    Option.map_some, Option.map_none, $ls,*])

theorem Algorithm.ofJson_apply (j : Json) : Algorithm.ofJson j = (File.Algorithm.ofJson j).map Algorithm.toModel := by
  unfold Algorithm.ofJson File.Algorithm.ofJson
  split
  · split
    · next h => simp only [h, error_map']
    · next h h' => split <;> simp_all <;> rfl
  · rfl
  · split
    · next h => simp only [h, error_map']
    · next h h' => split <;> simp_all <;> rfl
  · split <;> simp_all <;> rfl

theorem Algorithm.ofJson_file : Algorithm.ofJson = fun j => (File.Algorithm.ofJson j).map Algorithm.toModel :=
  funext Algorithm.ofJson_apply

theorem SpdxExpression.ofJson_apply (j : Json) :
    SpdxExpression.ofJson j = (File.SpdxExpression.ofJson j).map File.SpdxExpression.toModel := by
  read_simp [SpdxExpression.ofJson, File.SpdxExpression.ofJson, File.SpdxExpression.toModel]

theorem SpdxExpression.ofJson_file : SpdxExpression.ofJson = fun j => (File.SpdxExpression.ofJson j).map File.SpdxExpression.toModel :=
  funext (SpdxExpression.ofJson_apply)

theorem AttachedText.ofJson_apply (j : Json) :
    AttachedText.ofJson j = (File.AttachedText.ofJson j).map File.AttachedText.toModel := by
  read_simp [AttachedText.ofJson, File.AttachedText.ofJson, File.AttachedText.toModel]

theorem AttachedText.ofJson_file : AttachedText.ofJson = fun j => (File.AttachedText.ofJson j).map File.AttachedText.toModel :=
  funext (AttachedText.ofJson_apply)

theorem Attachment.ofJson_apply (j : Json) :
    Attachment.ofJson j = (File.Attachment.ofJson j).map File.Attachment.toModel := by
  read_simp [Attachment.ofJson, File.Attachment.ofJson, File.Attachment.toModel]

theorem Attachment.ofJson_file : Attachment.ofJson = fun j => (File.Attachment.ofJson j).map File.Attachment.toModel :=
  funext (Attachment.ofJson_apply)

theorem OrganizationalContact.ofJson_apply (j : Json) :
    OrganizationalContact.ofJson j = (File.OrganizationalContact.ofJson j).map File.OrganizationalContact.toModel := by
  read_simp [OrganizationalContact.ofJson, File.OrganizationalContact.ofJson, File.OrganizationalContact.toModel]

theorem OrganizationalContact.ofJson_file : OrganizationalContact.ofJson = fun j => (File.OrganizationalContact.ofJson j).map File.OrganizationalContact.toModel :=
  funext (OrganizationalContact.ofJson_apply)

theorem OrganizationalEntity.ofJson_apply (j : Json) :
    OrganizationalEntity.ofJson j = (File.OrganizationalEntity.ofJson j).map File.OrganizationalEntity.toModel := by
  read_simp [OrganizationalEntity.ofJson, File.OrganizationalEntity.ofJson, File.OrganizationalEntity.toModel, OrganizationalContact.ofJson_file, OrganizationalContact.ofJson_apply]

theorem OrganizationalEntity.ofJson_file : OrganizationalEntity.ofJson = fun j => (File.OrganizationalEntity.ofJson j).map File.OrganizationalEntity.toModel :=
  funext (OrganizationalEntity.ofJson_apply)

theorem Property.ofJson_apply (j : Json) :
    Property.ofJson j = (File.Property.ofJson j).map File.Property.toModel := by
  read_simp [Property.ofJson, File.Property.ofJson, File.Property.toModel]

theorem Property.ofJson_file : Property.ofJson = fun j => (File.Property.ofJson j).map File.Property.toModel :=
  funext (Property.ofJson_apply)

theorem Hash.ofJson_apply (j : Json) :
    Hash.ofJson j = (File.Hash.ofJson j).map File.Hash.toModel := by
  read_simp [Hash.ofJson, File.Hash.ofJson, File.Hash.toModel]

theorem Hash.ofJson_file : Hash.ofJson = fun j => (File.Hash.ofJson j).map File.Hash.toModel :=
  funext (Hash.ofJson_apply)

theorem ExternalReference.ofJson_apply (j : Json) :
    ExternalReference.ofJson j = (File.ExternalReference.ofJson j).map File.ExternalReference.toModel := by
  read_simp [ExternalReference.ofJson, File.ExternalReference.ofJson, File.ExternalReference.toModel, Hash.ofJson_file, Hash.ofJson_apply]

theorem ExternalReference.ofJson_file : ExternalReference.ofJson = fun j => (File.ExternalReference.ofJson j).map File.ExternalReference.toModel :=
  funext (ExternalReference.ofJson_apply)

theorem LicenseIdentifier.ofFields_apply (o : List (String × Json)) :
    LicenseIdentifier.ofFields o = (File.LicenseIdentifier.ofFields o).map File.LicenseIdentifier.toModel := by
  read_simp [LicenseIdentifier.ofFields, File.LicenseIdentifier.ofFields, File.LicenseIdentifier.toModel]

theorem LicenseIdentifier.ofFields_file : LicenseIdentifier.ofFields = fun o => (File.LicenseIdentifier.ofFields o).map File.LicenseIdentifier.toModel :=
  funext (LicenseIdentifier.ofFields_apply)

theorem LicenseContact.ofJson_apply (j : Json) :
    LicenseContact.ofJson j = (File.LicenseContact.ofJson j).map File.LicenseContact.toModel := by
  read_simp [LicenseContact.ofJson, File.LicenseContact.ofJson, File.LicenseContact.toModel, OrganizationalContact.ofJson_file, OrganizationalContact.ofJson_apply, OrganizationalEntity.ofJson_file, OrganizationalEntity.ofJson_apply]

theorem LicenseContact.ofJson_file : LicenseContact.ofJson = fun j => (File.LicenseContact.ofJson j).map File.LicenseContact.toModel :=
  funext (LicenseContact.ofJson_apply)

theorem Licensing.ofJson_apply (j : Json) :
    Licensing.ofJson j = (File.Licensing.ofJson j).map File.Licensing.toModel := by
  read_simp [Licensing.ofJson, File.Licensing.ofJson, File.Licensing.toModel, LicenseContact.ofJson_file, LicenseContact.ofJson_apply]

theorem Licensing.ofJson_file : Licensing.ofJson = fun j => (File.Licensing.ofJson j).map File.Licensing.toModel :=
  funext (Licensing.ofJson_apply)

theorem License.ofJson_apply (v : SpecVersion) (j : Json) :
    License.ofJson v j = (File.License.ofJson v j).map File.License.toModel := by
  cases v <;>
    read_simp [License.ofJson, File.License.ofJson, File.License.toModel, AttachedText.ofJson_file, AttachedText.ofJson_apply, LicenseIdentifier.ofFields_file, LicenseIdentifier.ofFields_apply, Licensing.ofJson_file, Licensing.ofJson_apply, Property.ofJson_file, Property.ofJson_apply]

theorem License.ofJson_file (v : SpecVersion) : License.ofJson v = fun j => (File.License.ofJson v j).map File.License.toModel :=
  funext (License.ofJson_apply v)

theorem LicenseChoice.ofJson_apply (v : SpecVersion) (j : Json) :
    LicenseChoice.ofJson v j = (File.LicenseChoice.ofJson v j).map File.LicenseChoice.toModel := by
  rw [LicenseChoice.ofJson, File.LicenseChoice.ofJson, SpdxExpression.ofJson_file, License.ofJson_file]
  rw [show Json.tagged [("license", fun j => ((File.License.ofJson v j).map File.License.toModel).map LicenseChoice.license)] j =
    (Json.tagged [("license", fun j => (File.License.ofJson v j).map File.LicenseChoice.license)] j).map
      File.LicenseChoice.toModel by read_simp [File.LicenseChoice.toModel]]
  dsimp only
  cases Json.tagged [("license", fun j => (File.License.ofJson v j).map File.LicenseChoice.license)] j with
  | ok l => rfl
  | error e => cases File.SpdxExpression.ofJson j <;> rfl

theorem LicenseChoice.ofJson_file (v : SpecVersion) : LicenseChoice.ofJson v = fun j => (File.LicenseChoice.ofJson v j).map File.LicenseChoice.toModel :=
  funext (LicenseChoice.ofJson_apply v)

theorem IdentifiableAction.ofJson_apply (j : Json) :
    IdentifiableAction.ofJson j = (File.IdentifiableAction.ofJson j).map File.IdentifiableAction.toModel := by
  read_simp [IdentifiableAction.ofJson, File.IdentifiableAction.ofJson, File.IdentifiableAction.toModel]

theorem IdentifiableAction.ofJson_file : IdentifiableAction.ofJson = fun j => (File.IdentifiableAction.ofJson j).map File.IdentifiableAction.toModel :=
  funext (IdentifiableAction.ofJson_apply)

theorem Commit.ofJson_apply (j : Json) :
    Commit.ofJson j = (File.Commit.ofJson j).map File.Commit.toModel := by
  read_simp [Commit.ofJson, File.Commit.ofJson, File.Commit.toModel, IdentifiableAction.ofJson_file, IdentifiableAction.ofJson_apply]

theorem Commit.ofJson_file : Commit.ofJson = fun j => (File.Commit.ofJson j).map File.Commit.toModel :=
  funext (Commit.ofJson_apply)

theorem Diff.ofJson_apply (j : Json) :
    Diff.ofJson j = (File.Diff.ofJson j).map File.Diff.toModel := by
  read_simp [Diff.ofJson, File.Diff.ofJson, File.Diff.toModel, AttachedText.ofJson_file, AttachedText.ofJson_apply]

theorem Diff.ofJson_file : Diff.ofJson = fun j => (File.Diff.ofJson j).map File.Diff.toModel :=
  funext (Diff.ofJson_apply)

theorem Source.ofJson_apply (j : Json) :
    Source.ofJson j = (File.Source.ofJson j).map File.Source.toModel := by
  read_simp [Source.ofJson, File.Source.ofJson, File.Source.toModel]

theorem Source.ofJson_file : Source.ofJson = fun j => (File.Source.ofJson j).map File.Source.toModel :=
  funext (Source.ofJson_apply)

theorem Issue.ofJson_apply (j : Json) :
    Issue.ofJson j = (File.Issue.ofJson j).map File.Issue.toModel := by
  read_simp [Issue.ofJson, File.Issue.ofJson, File.Issue.toModel, Source.ofJson_file, Source.ofJson_apply]

theorem Issue.ofJson_file : Issue.ofJson = fun j => (File.Issue.ofJson j).map File.Issue.toModel :=
  funext (Issue.ofJson_apply)

theorem Patch.ofJson_apply (j : Json) :
    Patch.ofJson j = (File.Patch.ofJson j).map File.Patch.toModel := by
  read_simp [Patch.ofJson, File.Patch.ofJson, File.Patch.toModel, Diff.ofJson_file, Diff.ofJson_apply, Issue.ofJson_file, Issue.ofJson_apply]

theorem Patch.ofJson_file : Patch.ofJson = fun j => (File.Patch.ofJson j).map File.Patch.toModel :=
  funext (Patch.ofJson_apply)

theorem Signer.ofJson_apply (j : Json) :
    Signer.ofJson j = (File.Signer.ofJson j).map File.Signer.toModel := by
  read_simp [Signer.ofJson, File.Signer.ofJson, File.Signer.toModel, Algorithm.ofJson_file, Algorithm.ofJson_apply]

theorem Signer.ofJson_file : Signer.ofJson = fun j => (File.Signer.ofJson j).map File.Signer.toModel :=
  funext (Signer.ofJson_apply)

theorem Signature.ofJson_apply (j : Json) :
    Signature.ofJson j = (File.Signature.ofJson j).map File.Signature.toModel := by
  rw [Signature.ofJson, File.Signature.ofJson, Signer.ofJson_file, array_map']
  dsimp only
  cases Json.array File.Signer.ofJson j with
  | ok l => rfl
  | error e => cases File.Signer.ofJson j <;> rfl

theorem Signature.ofJson_file : Signature.ofJson = fun j => (File.Signature.ofJson j).map File.Signature.toModel :=
  funext (Signature.ofJson_apply)

theorem DataGovernanceResponsibleParty.ofJson_apply (j : Json) :
    DataGovernanceResponsibleParty.ofJson j = (File.DataGovernanceResponsibleParty.ofJson j).map File.DataGovernanceResponsibleParty.toModel := by
  read_simp [DataGovernanceResponsibleParty.ofJson, File.DataGovernanceResponsibleParty.ofJson, File.DataGovernanceResponsibleParty.toModel, OrganizationalContact.ofJson_file, OrganizationalContact.ofJson_apply, OrganizationalEntity.ofJson_file, OrganizationalEntity.ofJson_apply]

theorem DataGovernanceResponsibleParty.ofJson_file : DataGovernanceResponsibleParty.ofJson = fun j => (File.DataGovernanceResponsibleParty.ofJson j).map File.DataGovernanceResponsibleParty.toModel :=
  funext (DataGovernanceResponsibleParty.ofJson_apply)

theorem DataGovernance.ofJson_apply (j : Json) :
    DataGovernance.ofJson j = (File.DataGovernance.ofJson j).map File.DataGovernance.toModel := by
  read_simp [DataGovernance.ofJson, File.DataGovernance.ofJson, File.DataGovernance.toModel, DataGovernanceResponsibleParty.ofJson_file, DataGovernanceResponsibleParty.ofJson_apply]

theorem DataGovernance.ofJson_file : DataGovernance.ofJson = fun j => (File.DataGovernance.ofJson j).map File.DataGovernance.toModel :=
  funext (DataGovernance.ofJson_apply)

theorem Graphic.ofJson_apply (j : Json) :
    Graphic.ofJson j = (File.Graphic.ofJson j).map File.Graphic.toModel := by
  read_simp [Graphic.ofJson, File.Graphic.ofJson, File.Graphic.toModel, Attachment.ofJson_file, Attachment.ofJson_apply]

theorem Graphic.ofJson_file : Graphic.ofJson = fun j => (File.Graphic.ofJson j).map File.Graphic.toModel :=
  funext (Graphic.ofJson_apply)

theorem GraphicsCollection.ofJson_apply (j : Json) :
    GraphicsCollection.ofJson j = (File.GraphicsCollection.ofJson j).map File.GraphicsCollection.toModel := by
  read_simp [GraphicsCollection.ofJson, File.GraphicsCollection.ofJson, File.GraphicsCollection.toModel, Graphic.ofJson_file, Graphic.ofJson_apply]

theorem GraphicsCollection.ofJson_file : GraphicsCollection.ofJson = fun j => (File.GraphicsCollection.ofJson j).map File.GraphicsCollection.toModel :=
  funext (GraphicsCollection.ofJson_apply)

theorem DataContents.ofJson_apply (j : Json) :
    DataContents.ofJson j = (File.DataContents.ofJson j).map File.DataContents.toModel := by
  read_simp [DataContents.ofJson, File.DataContents.ofJson, File.DataContents.toModel, Attachment.ofJson_file, Attachment.ofJson_apply, Property.ofJson_file, Property.ofJson_apply]

theorem DataContents.ofJson_file : DataContents.ofJson = fun j => (File.DataContents.ofJson j).map File.DataContents.toModel :=
  funext (DataContents.ofJson_apply)

theorem ComponentData.ofJson_apply (j : Json) :
    ComponentData.ofJson j = (File.ComponentData.ofJson j).map File.ComponentData.toModel := by
  read_simp [ComponentData.ofJson, File.ComponentData.ofJson, File.ComponentData.toModel, DataContents.ofJson_file, DataContents.ofJson_apply, DataGovernance.ofJson_file, DataGovernance.ofJson_apply, GraphicsCollection.ofJson_file, GraphicsCollection.ofJson_apply]

theorem ComponentData.ofJson_file : ComponentData.ofJson = fun j => (File.ComponentData.ofJson j).map File.ComponentData.toModel :=
  funext (ComponentData.ofJson_apply)

theorem ModelParametersApproach.ofJson_apply (j : Json) :
    ModelParametersApproach.ofJson j = (File.ModelParametersApproach.ofJson j).map File.ModelParametersApproach.toModel := by
  read_simp [ModelParametersApproach.ofJson, File.ModelParametersApproach.ofJson, File.ModelParametersApproach.toModel]

theorem ModelParametersApproach.ofJson_file : ModelParametersApproach.ofJson = fun j => (File.ModelParametersApproach.ofJson j).map File.ModelParametersApproach.toModel :=
  funext (ModelParametersApproach.ofJson_apply)

theorem Dataset.ofJson_apply (j : Json) :
    Dataset.ofJson j = (File.Dataset.ofJson j).map File.Dataset.toModel := by
  rw [Dataset.ofJson, File.Dataset.ofJson, ComponentData.ofJson_file]
  dsimp only
  cases File.ComponentData.ofJson j with
  | ok l => rfl
  | error e => cases j.string <;> rfl

theorem Dataset.ofJson_file : Dataset.ofJson = fun j => (File.Dataset.ofJson j).map File.Dataset.toModel :=
  funext (Dataset.ofJson_apply)

theorem MLParameter.ofJson_apply (j : Json) :
    MLParameter.ofJson j = (File.MLParameter.ofJson j).map File.MLParameter.toModel := by
  read_simp [MLParameter.ofJson, File.MLParameter.ofJson, File.MLParameter.toModel]

theorem MLParameter.ofJson_file : MLParameter.ofJson = fun j => (File.MLParameter.ofJson j).map File.MLParameter.toModel :=
  funext (MLParameter.ofJson_apply)

theorem ModelParameters.ofJson_apply (j : Json) :
    ModelParameters.ofJson j = (File.ModelParameters.ofJson j).map File.ModelParameters.toModel := by
  read_simp [ModelParameters.ofJson, File.ModelParameters.ofJson, File.ModelParameters.toModel, Dataset.ofJson_file, Dataset.ofJson_apply, MLParameter.ofJson_file, MLParameter.ofJson_apply, ModelParametersApproach.ofJson_file, ModelParametersApproach.ofJson_apply]

theorem ModelParameters.ofJson_file : ModelParameters.ofJson = fun j => (File.ModelParameters.ofJson j).map File.ModelParameters.toModel :=
  funext (ModelParameters.ofJson_apply)

theorem ConfidenceInterval.ofJson_apply (j : Json) :
    ConfidenceInterval.ofJson j = (File.ConfidenceInterval.ofJson j).map File.ConfidenceInterval.toModel := by
  read_simp [ConfidenceInterval.ofJson, File.ConfidenceInterval.ofJson, File.ConfidenceInterval.toModel]

theorem ConfidenceInterval.ofJson_file : ConfidenceInterval.ofJson = fun j => (File.ConfidenceInterval.ofJson j).map File.ConfidenceInterval.toModel :=
  funext (ConfidenceInterval.ofJson_apply)

theorem PerformanceMetric.ofJson_apply (j : Json) :
    PerformanceMetric.ofJson j = (File.PerformanceMetric.ofJson j).map File.PerformanceMetric.toModel := by
  read_simp [PerformanceMetric.ofJson, File.PerformanceMetric.ofJson, File.PerformanceMetric.toModel, ConfidenceInterval.ofJson_file, ConfidenceInterval.ofJson_apply]

theorem PerformanceMetric.ofJson_file : PerformanceMetric.ofJson = fun j => (File.PerformanceMetric.ofJson j).map File.PerformanceMetric.toModel :=
  funext (PerformanceMetric.ofJson_apply)

theorem QuantitativeAnalysis.ofJson_apply (j : Json) :
    QuantitativeAnalysis.ofJson j = (File.QuantitativeAnalysis.ofJson j).map File.QuantitativeAnalysis.toModel := by
  read_simp [QuantitativeAnalysis.ofJson, File.QuantitativeAnalysis.ofJson, File.QuantitativeAnalysis.toModel, GraphicsCollection.ofJson_file, GraphicsCollection.ofJson_apply, PerformanceMetric.ofJson_file, PerformanceMetric.ofJson_apply]

theorem QuantitativeAnalysis.ofJson_file : QuantitativeAnalysis.ofJson = fun j => (File.QuantitativeAnalysis.ofJson j).map File.QuantitativeAnalysis.toModel :=
  funext (QuantitativeAnalysis.ofJson_apply)

theorem Considerations.ofJson_apply (j : Json) :
    Considerations.ofJson j = (File.Considerations.ofJson j).map File.Considerations.toModel := by
  read_simp [Considerations.ofJson, File.Considerations.ofJson, File.Considerations.toModel]

theorem Considerations.ofJson_file : Considerations.ofJson = fun j => (File.Considerations.ofJson j).map File.Considerations.toModel :=
  funext (Considerations.ofJson_apply)

theorem ModelCard.ofJson_apply (j : Json) :
    ModelCard.ofJson j = (File.ModelCard.ofJson j).map File.ModelCard.toModel := by
  read_simp [ModelCard.ofJson, File.ModelCard.ofJson, File.ModelCard.toModel, Considerations.ofJson_file, Considerations.ofJson_apply, ModelParameters.ofJson_file, ModelParameters.ofJson_apply, Property.ofJson_file, Property.ofJson_apply, QuantitativeAnalysis.ofJson_file, QuantitativeAnalysis.ofJson_apply]

theorem ModelCard.ofJson_file : ModelCard.ofJson = fun j => (File.ModelCard.ofJson j).map File.ModelCard.toModel :=
  funext (ModelCard.ofJson_apply)

theorem Swid.ofJson_apply (j : Json) :
    Swid.ofJson j = (File.Swid.ofJson j).map File.Swid.toModel := by
  read_simp [Swid.ofJson, File.Swid.ofJson, File.Swid.toModel, AttachedText.ofJson_file, AttachedText.ofJson_apply]

theorem Swid.ofJson_file : Swid.ofJson = fun j => (File.Swid.ofJson j).map File.Swid.toModel :=
  funext (Swid.ofJson_apply)

theorem Occurrence.ofJson_apply (j : Json) :
    Occurrence.ofJson j = (File.Occurrence.ofJson j).map File.Occurrence.toModel := by
  read_simp [Occurrence.ofJson, File.Occurrence.ofJson, File.Occurrence.toModel]

theorem Occurrence.ofJson_file : Occurrence.ofJson = fun j => (File.Occurrence.ofJson j).map File.Occurrence.toModel :=
  funext (Occurrence.ofJson_apply)

theorem Frame.ofJson_apply (j : Json) :
    Frame.ofJson j = (File.Frame.ofJson j).map File.Frame.toModel := by
  read_simp [Frame.ofJson, File.Frame.ofJson, File.Frame.toModel]

theorem Frame.ofJson_file : Frame.ofJson = fun j => (File.Frame.ofJson j).map File.Frame.toModel :=
  funext (Frame.ofJson_apply)

theorem Callstack.ofJson_apply (j : Json) :
    Callstack.ofJson j = (File.Callstack.ofJson j).map File.Callstack.toModel := by
  read_simp [Callstack.ofJson, File.Callstack.ofJson, File.Callstack.toModel, Frame.ofJson_file, Frame.ofJson_apply]

theorem Callstack.ofJson_file : Callstack.ofJson = fun j => (File.Callstack.ofJson j).map File.Callstack.toModel :=
  funext (Callstack.ofJson_apply)

theorem Method.ofJson_apply (j : Json) :
    Method.ofJson j = (File.Method.ofJson j).map File.Method.toModel := by
  read_simp [Method.ofJson, File.Method.ofJson, File.Method.toModel]

theorem Method.ofJson_file : Method.ofJson = fun j => (File.Method.ofJson j).map File.Method.toModel :=
  funext (Method.ofJson_apply)

theorem Identity.ofJson_apply (j : Json) :
    Identity.ofJson j = (File.Identity.ofJson j).map File.Identity.toModel := by
  read_simp [Identity.ofJson, File.Identity.ofJson, File.Identity.toModel, Method.ofJson_file, Method.ofJson_apply]

theorem Identity.ofJson_file : Identity.ofJson = fun j => (File.Identity.ofJson j).map File.Identity.toModel :=
  funext (Identity.ofJson_apply)

theorem ComponentEvidence.ofJson_apply (v : SpecVersion) (j : Json) :
    ComponentEvidence.ofJson v j = (File.ComponentEvidence.ofJson v j).map File.ComponentEvidence.toModel := by
  cases v <;>
    read_simp [ComponentEvidence.ofJson, File.ComponentEvidence.ofJson, File.ComponentEvidence.toModel, Callstack.ofJson_file, Callstack.ofJson_apply, Identity.ofJson_file, Identity.ofJson_apply, LicenseChoice.ofJson_file, LicenseChoice.ofJson_apply, Occurrence.ofJson_file, Occurrence.ofJson_apply]

theorem ComponentEvidence.ofJson_file (v : SpecVersion) : ComponentEvidence.ofJson v = fun j => (File.ComponentEvidence.ofJson v j).map File.ComponentEvidence.toModel :=
  funext (ComponentEvidence.ofJson_apply v)

theorem File.Component.toModelAll_eq {v : SpecVersion} : ∀ l : List (File.Component v),
    File.Component.toModelAll l = l.map File.Component.toModel
  | [] => by rw [File.Component.toModelAll]; rfl
  | x :: l => by rw [File.Component.toModelAll, File.Component.toModelAll_eq l]; rfl

theorem File.Component.toModelOpt_eq {v : SpecVersion} (o : Option (List (File.Component v))) :
    File.Component.toModelOpt o = o.map (List.map File.Component.toModel) := by
  cases o with
  | none => rw [File.Component.toModelOpt]; rfl
  | some l => rw [File.Component.toModelOpt, File.Component.toModelAll_eq]; rfl

theorem File.Pedigree.toModelOpt_eq {v : SpecVersion} (o : Option (File.Pedigree v)) :
    File.Pedigree.toModelOpt o = o.map File.Pedigree.toModel := by
  cases o with
  | none => rw [File.Pedigree.toModelOpt]; rfl
  | some l => rw [File.Pedigree.toModelOpt]; rfl

theorem Pedigree.ofJsonWith_file (v : SpecVersion) (sub : Json → Except String (File.Component v)) :
    Pedigree.ofJsonWith (fun j => (sub j).map File.Component.toModel) v =
      fun j => (File.Pedigree.ofJsonWith v sub j).map File.Pedigree.toModel := by
  funext j
  read_simp [Pedigree.ofJsonWith, File.Pedigree.ofJsonWith, File.Pedigree.toModel, File.Component.toModelOpt_eq,
    Commit.ofJson_file, Patch.ofJson_file]

theorem Component.ofJsonWith_file (v : SpecVersion) (sub : Json → Except String (File.Component v)) :
    Component.ofJsonWith (fun j => (sub j).map File.Component.toModel) v =
      fun j => (File.Component.ofJsonWith v sub j).map File.Component.toModel := by
  funext j
  cases v <;>
  read_simp [Component.ofJsonWith, File.Component.ofJsonWith, File.Component.toModel, File.Component.toModelOpt_eq,
    File.Pedigree.toModelOpt_eq, Pedigree.ofJsonWith_file, File.Version.ofJson, File.Version.toModel,
    ComponentData.ofJson_file, ComponentEvidence.ofJson_file, ExternalReference.ofJson_file, Hash.ofJson_file, LicenseChoice.ofJson_file, ModelCard.ofJson_file, OrganizationalEntity.ofJson_file, Property.ofJson_file, Signature.ofJson_file, Swid.ofJson_file]

theorem Component.ofJsonN_file (v : SpecVersion) : ∀ n : Nat,
    Component.ofJsonN v n = fun j => (File.Component.ofJsonN v n j).map File.Component.toModel
  | 0 => rfl
  | n + 1 => by
    funext j
    rw [Component.ofJsonN, File.Component.ofJsonN, Component.ofJsonN_file v n, Component.ofJsonWith_file]

theorem Component.ofJson_file (v : SpecVersion) :
    Component.ofJson v = fun j => (File.Component.ofJson v j).map File.Component.toModel :=
  Component.ofJsonN_file v _

theorem Component.ofJson_apply (v : SpecVersion) (j : Json) :
    Component.ofJson v j = (File.Component.ofJson v j).map File.Component.toModel :=
  congrFun (Component.ofJson_file v) j

theorem DataClassification.ofJson_apply (j : Json) :
    DataClassification.ofJson j = (File.DataClassification.ofJson j).map File.DataClassification.toModel := by
  read_simp [DataClassification.ofJson, File.DataClassification.ofJson, File.DataClassification.toModel]

theorem DataClassification.ofJson_file : DataClassification.ofJson = fun j => (File.DataClassification.ofJson j).map File.DataClassification.toModel :=
  funext (DataClassification.ofJson_apply)

theorem ServiceData.ofJson_apply (j : Json) :
    ServiceData.ofJson j = (File.ServiceData.ofJson j).map File.ServiceData.toModel := by
  read_simp [ServiceData.ofJson, File.ServiceData.ofJson, File.ServiceData.toModel, DataClassification.ofJson_file, DataClassification.ofJson_apply, DataGovernance.ofJson_file, DataGovernance.ofJson_apply]

theorem ServiceData.ofJson_file : ServiceData.ofJson = fun j => (File.ServiceData.ofJson j).map File.ServiceData.toModel :=
  funext (ServiceData.ofJson_apply)

theorem ServiceDataChoice.ofJson_apply (v : SpecVersion) (j : Json) :
    ServiceDataChoice.ofJson v j = (File.ServiceDataChoice.ofJson v j).map File.ServiceDataChoice.toModel := by
  rw [ServiceDataChoice.ofJson, File.ServiceDataChoice.ofJson, DataClassification.ofJson_file, array_map']
  dsimp only
  cases Json.array File.DataClassification.ofJson j with
  | ok l => rfl
  | error e =>
    cases v with
    | v1_3 => rfl
    | v1_4 => rfl
    | v1_5 => read_simp [ServiceData.ofJson_file, File.ServiceDataChoice.toModel]

theorem ServiceDataChoice.ofJson_file (v : SpecVersion) : ServiceDataChoice.ofJson v = fun j => (File.ServiceDataChoice.ofJson v j).map File.ServiceDataChoice.toModel :=
  funext (ServiceDataChoice.ofJson_apply v)

theorem File.Service.toModelAll_eq {v : SpecVersion} : ∀ l : List (File.Service v),
    File.Service.toModelAll l = l.map File.Service.toModel
  | [] => by rw [File.Service.toModelAll]; rfl
  | x :: l => by rw [File.Service.toModelAll, File.Service.toModelAll_eq l]; rfl

theorem File.Service.toModelOpt_eq {v : SpecVersion} (o : Option (List (File.Service v))) :
    File.Service.toModelOpt o = o.map (List.map File.Service.toModel) := by
  cases o with
  | none => rw [File.Service.toModelOpt]; rfl
  | some l => rw [File.Service.toModelOpt, File.Service.toModelAll_eq]; rfl

theorem Service.ofJsonWith_file (v : SpecVersion) (sub : Json → Except String (File.Service v)) :
    Service.ofJsonWith (fun j => (sub j).map File.Service.toModel) v =
      fun j => (File.Service.ofJsonWith v sub j).map File.Service.toModel := by
  funext j
  cases v <;>
  read_simp [Service.ofJsonWith, File.Service.ofJsonWith, File.Service.toModel, File.Service.toModelOpt_eq,
    ExternalReference.ofJson_file, LicenseChoice.ofJson_file, OrganizationalEntity.ofJson_file, Property.ofJson_file, ServiceDataChoice.ofJson_file, Signature.ofJson_file]

theorem Service.ofJsonN_file (v : SpecVersion) : ∀ n : Nat,
    Service.ofJsonN v n = fun j => (File.Service.ofJsonN v n j).map File.Service.toModel
  | 0 => rfl
  | n + 1 => by
    funext j
    rw [Service.ofJsonN, File.Service.ofJsonN, Service.ofJsonN_file v n, Service.ofJsonWith_file]

theorem Service.ofJson_file (v : SpecVersion) :
    Service.ofJson v = fun j => (File.Service.ofJson v j).map File.Service.toModel :=
  Service.ofJsonN_file v _

theorem Service.ofJson_apply (v : SpecVersion) (j : Json) :
    Service.ofJson v j = (File.Service.ofJson v j).map File.Service.toModel :=
  congrFun (Service.ofJson_file v) j

theorem Tool.ofJson_apply (v : SpecVersion) (j : Json) :
    Tool.ofJson v j = (File.Tool.ofJson v j).map File.Tool.toModel := by
  cases v <;>
    read_simp [Tool.ofJson, File.Tool.ofJson, File.Tool.toModel, ExternalReference.ofJson_file, ExternalReference.ofJson_apply, Hash.ofJson_file, Hash.ofJson_apply]

theorem Tool.ofJson_file (v : SpecVersion) : Tool.ofJson v = fun j => (File.Tool.ofJson v j).map File.Tool.toModel :=
  funext (Tool.ofJson_apply v)

theorem Tools.ofJson_apply (v : SpecVersion) (j : Json) :
    Tools.ofJson v j = (File.Tools.ofJson v j).map File.Tools.toModel := by
  rw [Tools.ofJson, File.Tools.ofJson, Tool.ofJson_file, array_map']
  dsimp only
  cases Json.array (File.Tool.ofJson v) j with
  | ok l => rfl
  | error e =>
    cases v with
    | v1_3 => rfl
    | v1_4 => rfl
    | v1_5 =>
      read_simp [Tools.objectOfJson, File.Tools.objectOfJson, Service.ofJson_file, Component.ofJson_file,
        File.Tools.toModel]

theorem Tools.ofJson_file (v : SpecVersion) : Tools.ofJson v = fun j => (File.Tools.ofJson v j).map File.Tools.toModel :=
  funext (Tools.ofJson_apply v)

theorem LifecycleDescription.ofJson_apply (j : Json) :
    LifecycleDescription.ofJson j = (File.LifecycleDescription.ofJson j).map File.LifecycleDescription.toModel := by
  read_simp [LifecycleDescription.ofJson, File.LifecycleDescription.ofJson, File.LifecycleDescription.toModel]

theorem LifecycleDescription.ofJson_file : LifecycleDescription.ofJson = fun j => (File.LifecycleDescription.ofJson j).map File.LifecycleDescription.toModel :=
  funext (LifecycleDescription.ofJson_apply)

theorem Lifecycle.ofJson_apply (j : Json) :
    Lifecycle.ofJson j = (File.Lifecycle.ofJson j).map File.Lifecycle.toModel := by
  rw [Lifecycle.ofJson, File.Lifecycle.ofJson, LifecycleDescription.ofJson_file]
  rw [show Json.tagged [("phase", fun j => (Json.enum Phase.new j).map Lifecycle.phase)] j =
    (Json.tagged [("phase", fun j => (Json.string j).map File.Lifecycle.phase)] j).map File.Lifecycle.toModel by
      read_simp [File.Lifecycle.toModel]]
  dsimp only
  cases Json.tagged [("phase", fun j => (Json.string j).map File.Lifecycle.phase)] j with
  | ok l => rfl
  | error e => cases File.LifecycleDescription.ofJson j <;> rfl

theorem Lifecycle.ofJson_file : Lifecycle.ofJson = fun j => (File.Lifecycle.ofJson j).map File.Lifecycle.toModel :=
  funext (Lifecycle.ofJson_apply)

theorem Metadata.ofJson_apply (v : SpecVersion) (j : Json) :
    Metadata.ofJson v j = (File.Metadata.ofJson v j).map File.Metadata.toModel := by
  cases v <;>
    read_simp [Metadata.ofJson, File.Metadata.ofJson, File.Metadata.toModel, Component.ofJson_file, Component.ofJson_apply, LicenseChoice.ofJson_file, LicenseChoice.ofJson_apply, Lifecycle.ofJson_file, Lifecycle.ofJson_apply, OrganizationalContact.ofJson_file, OrganizationalContact.ofJson_apply, OrganizationalEntity.ofJson_file, OrganizationalEntity.ofJson_apply, Property.ofJson_file, Property.ofJson_apply, Tools.ofJson_file, Tools.ofJson_apply]

theorem Metadata.ofJson_file (v : SpecVersion) : Metadata.ofJson v = fun j => (File.Metadata.ofJson v j).map File.Metadata.toModel :=
  funext (Metadata.ofJson_apply v)

theorem Dependency.ofJson_apply (j : Json) :
    Dependency.ofJson j = (File.Dependency.ofJson j).map File.Dependency.toModel := by
  read_simp [Dependency.ofJson, File.Dependency.ofJson, File.Dependency.toModel]

theorem Dependency.ofJson_file : Dependency.ofJson = fun j => (File.Dependency.ofJson j).map File.Dependency.toModel :=
  funext (Dependency.ofJson_apply)

theorem Composition.ofJson_apply (v : SpecVersion) (j : Json) :
    Composition.ofJson v j = (File.Composition.ofJson v j).map File.Composition.toModel := by
  cases v <;>
    read_simp [Composition.ofJson, File.Composition.ofJson, File.Composition.toModel, Signature.ofJson_file, Signature.ofJson_apply]

theorem Composition.ofJson_file (v : SpecVersion) : Composition.ofJson v = fun j => (File.Composition.ofJson v j).map File.Composition.toModel :=
  funext (Composition.ofJson_apply v)

theorem Advisory.ofJson_apply (j : Json) :
    Advisory.ofJson j = (File.Advisory.ofJson j).map File.Advisory.toModel := by
  read_simp [Advisory.ofJson, File.Advisory.ofJson, File.Advisory.toModel]

theorem Advisory.ofJson_file : Advisory.ofJson = fun j => (File.Advisory.ofJson j).map File.Advisory.toModel :=
  funext (Advisory.ofJson_apply)

theorem VulnerabilitySource.ofJson_apply (j : Json) :
    VulnerabilitySource.ofJson j = (File.VulnerabilitySource.ofJson j).map File.VulnerabilitySource.toModel := by
  read_simp [VulnerabilitySource.ofJson, File.VulnerabilitySource.ofJson, File.VulnerabilitySource.toModel]

theorem VulnerabilitySource.ofJson_file : VulnerabilitySource.ofJson = fun j => (File.VulnerabilitySource.ofJson j).map File.VulnerabilitySource.toModel :=
  funext (VulnerabilitySource.ofJson_apply)

theorem VulnerabilityReference.ofJson_apply (j : Json) :
    VulnerabilityReference.ofJson j = (File.VulnerabilityReference.ofJson j).map File.VulnerabilityReference.toModel := by
  read_simp [VulnerabilityReference.ofJson, File.VulnerabilityReference.ofJson, File.VulnerabilityReference.toModel, VulnerabilitySource.ofJson_file, VulnerabilitySource.ofJson_apply]

theorem VulnerabilityReference.ofJson_file : VulnerabilityReference.ofJson = fun j => (File.VulnerabilityReference.ofJson j).map File.VulnerabilityReference.toModel :=
  funext (VulnerabilityReference.ofJson_apply)

theorem VulnerabilityRating.ofJson_apply (j : Json) :
    VulnerabilityRating.ofJson j = (File.VulnerabilityRating.ofJson j).map File.VulnerabilityRating.toModel := by
  read_simp [VulnerabilityRating.ofJson, File.VulnerabilityRating.ofJson, File.VulnerabilityRating.toModel, VulnerabilitySource.ofJson_file, VulnerabilitySource.ofJson_apply]

theorem VulnerabilityRating.ofJson_file : VulnerabilityRating.ofJson = fun j => (File.VulnerabilityRating.ofJson j).map File.VulnerabilityRating.toModel :=
  funext (VulnerabilityRating.ofJson_apply)

theorem VulnerabilityCredits.ofJson_apply (j : Json) :
    VulnerabilityCredits.ofJson j = (File.VulnerabilityCredits.ofJson j).map File.VulnerabilityCredits.toModel := by
  read_simp [VulnerabilityCredits.ofJson, File.VulnerabilityCredits.ofJson, File.VulnerabilityCredits.toModel, OrganizationalContact.ofJson_file, OrganizationalContact.ofJson_apply, OrganizationalEntity.ofJson_file, OrganizationalEntity.ofJson_apply]

theorem VulnerabilityCredits.ofJson_file : VulnerabilityCredits.ofJson = fun j => (File.VulnerabilityCredits.ofJson j).map File.VulnerabilityCredits.toModel :=
  funext (VulnerabilityCredits.ofJson_apply)

theorem VulnerabilityAnalysis.ofJson_apply (v : SpecVersion) (j : Json) :
    VulnerabilityAnalysis.ofJson v j = (File.VulnerabilityAnalysis.ofJson v j).map File.VulnerabilityAnalysis.toModel := by
  cases v <;>
    read_simp [VulnerabilityAnalysis.ofJson, File.VulnerabilityAnalysis.ofJson, File.VulnerabilityAnalysis.toModel]

theorem VulnerabilityAnalysis.ofJson_file (v : SpecVersion) : VulnerabilityAnalysis.ofJson v = fun j => (File.VulnerabilityAnalysis.ofJson v j).map File.VulnerabilityAnalysis.toModel :=
  funext (VulnerabilityAnalysis.ofJson_apply v)

theorem VersionRange.ofFields_apply (o : List (String × Json)) :
    VersionRange.ofFields o = (File.VersionRange.ofFields o).map File.VersionRange.toModel := by
  read_simp [VersionRange.ofFields, File.VersionRange.ofFields, File.VersionRange.toModel]

theorem VersionRange.ofFields_file : VersionRange.ofFields = fun o => (File.VersionRange.ofFields o).map File.VersionRange.toModel :=
  funext (VersionRange.ofFields_apply)

theorem TargetVersion.ofJson_apply (j : Json) :
    TargetVersion.ofJson j = (File.TargetVersion.ofJson j).map File.TargetVersion.toModel := by
  read_simp [TargetVersion.ofJson, File.TargetVersion.ofJson, File.TargetVersion.toModel, VersionRange.ofFields_file, VersionRange.ofFields_apply]

theorem TargetVersion.ofJson_file : TargetVersion.ofJson = fun j => (File.TargetVersion.ofJson j).map File.TargetVersion.toModel :=
  funext (TargetVersion.ofJson_apply)

theorem VulnerabilityTarget.ofJson_apply (j : Json) :
    VulnerabilityTarget.ofJson j = (File.VulnerabilityTarget.ofJson j).map File.VulnerabilityTarget.toModel := by
  read_simp [VulnerabilityTarget.ofJson, File.VulnerabilityTarget.ofJson, File.VulnerabilityTarget.toModel, TargetVersion.ofJson_file, TargetVersion.ofJson_apply]

theorem VulnerabilityTarget.ofJson_file : VulnerabilityTarget.ofJson = fun j => (File.VulnerabilityTarget.ofJson j).map File.VulnerabilityTarget.toModel :=
  funext (VulnerabilityTarget.ofJson_apply)

theorem VulnerabilityProofOfConcept.ofJson_apply (j : Json) :
    VulnerabilityProofOfConcept.ofJson j = (File.VulnerabilityProofOfConcept.ofJson j).map File.VulnerabilityProofOfConcept.toModel := by
  read_simp [VulnerabilityProofOfConcept.ofJson, File.VulnerabilityProofOfConcept.ofJson, File.VulnerabilityProofOfConcept.toModel, Attachment.ofJson_file, Attachment.ofJson_apply]

theorem VulnerabilityProofOfConcept.ofJson_file : VulnerabilityProofOfConcept.ofJson = fun j => (File.VulnerabilityProofOfConcept.ofJson j).map File.VulnerabilityProofOfConcept.toModel :=
  funext (VulnerabilityProofOfConcept.ofJson_apply)

theorem Vulnerability.ofJson_apply (v : SpecVersion) (j : Json) :
    Vulnerability.ofJson v j = (File.Vulnerability.ofJson v j).map File.Vulnerability.toModel := by
  cases v <;>
    read_simp [Vulnerability.ofJson, File.Vulnerability.ofJson, File.Vulnerability.toModel, Advisory.ofJson_file, Advisory.ofJson_apply, Property.ofJson_file, Property.ofJson_apply, Tools.ofJson_file, Tools.ofJson_apply, VulnerabilityAnalysis.ofJson_file, VulnerabilityAnalysis.ofJson_apply, VulnerabilityCredits.ofJson_file, VulnerabilityCredits.ofJson_apply, VulnerabilityProofOfConcept.ofJson_file, VulnerabilityProofOfConcept.ofJson_apply, VulnerabilityRating.ofJson_file, VulnerabilityRating.ofJson_apply, VulnerabilityReference.ofJson_file, VulnerabilityReference.ofJson_apply, VulnerabilitySource.ofJson_file, VulnerabilitySource.ofJson_apply, VulnerabilityTarget.ofJson_file, VulnerabilityTarget.ofJson_apply]

theorem Vulnerability.ofJson_file (v : SpecVersion) : Vulnerability.ofJson v = fun j => (File.Vulnerability.ofJson v j).map File.Vulnerability.toModel :=
  funext (Vulnerability.ofJson_apply v)

theorem Annotator.ofJson_apply (j : Json) :
    Annotator.ofJson .v1_5 j = (File.Annotator.ofJson j).map File.Annotator.toModel := by
  read_simp [Annotator.ofJson, File.Annotator.ofJson, File.Annotator.toModel, Component.ofJson_file, Component.ofJson_apply, OrganizationalContact.ofJson_file, OrganizationalContact.ofJson_apply, OrganizationalEntity.ofJson_file, OrganizationalEntity.ofJson_apply, Service.ofJson_file, Service.ofJson_apply]

theorem Annotator.ofJson_file : Annotator.ofJson .v1_5 = fun j => (File.Annotator.ofJson j).map File.Annotator.toModel :=
  funext (Annotator.ofJson_apply)

theorem Annotation.ofJson_apply (j : Json) :
    Annotation.ofJson .v1_5 j = (File.Annotation.ofJson j).map File.Annotation.toModel := by
  read_simp [Annotation.ofJson, File.Annotation.ofJson, File.Annotation.toModel, Annotator.ofJson_file, Annotator.ofJson_apply, Signature.ofJson_file, Signature.ofJson_apply]

theorem Annotation.ofJson_file : Annotation.ofJson .v1_5 = fun j => (File.Annotation.ofJson j).map File.Annotation.toModel :=
  funext (Annotation.ofJson_apply)

theorem ResourceReference.ofFields_apply (o : List (String × Json)) :
    ResourceReference.ofFields o = (File.ResourceReference.ofFields o).map File.ResourceReference.toModel := by
  read_simp [ResourceReference.ofFields, File.ResourceReference.ofFields, File.ResourceReference.toModel, ExternalReference.ofJson_file, ExternalReference.ofJson_apply]

theorem ResourceReference.ofFields_file : ResourceReference.ofFields = fun o => (File.ResourceReference.ofFields o).map File.ResourceReference.toModel :=
  funext (ResourceReference.ofFields_apply)

theorem ResourceReference.ofJson_apply (j : Json) :
    ResourceReference.ofJson j = (File.ResourceReference.ofJson j).map File.ResourceReference.toModel := by
  read_simp [ResourceReference.ofJson, File.ResourceReference.ofJson, File.ResourceReference.toModel, ExternalReference.ofJson_file, ExternalReference.ofJson_apply, ResourceReference.ofFields_apply]

theorem ResourceReference.ofJson_file : ResourceReference.ofJson = fun j => (File.ResourceReference.ofJson j).map File.ResourceReference.toModel :=
  funext (ResourceReference.ofJson_apply)

theorem EnvironmentVar.ofJson_apply (j : Json) :
    EnvironmentVar.ofJson j = (File.EnvironmentVar.ofJson j).map File.EnvironmentVar.toModel := by
  cases j <;> read_simp [EnvironmentVar.ofJson, File.EnvironmentVar.ofJson, File.EnvironmentVar.toModel, Json.fields]

theorem EnvironmentVar.ofJson_file : EnvironmentVar.ofJson = fun j => (File.EnvironmentVar.ofJson j).map File.EnvironmentVar.toModel :=
  funext (EnvironmentVar.ofJson_apply)

theorem Parameter.ofJson_apply (j : Json) :
    Parameter.ofJson j = (File.Parameter.ofJson j).map File.Parameter.toModel := by
  read_simp [Parameter.ofJson, File.Parameter.ofJson, File.Parameter.toModel]

theorem Parameter.ofJson_file : Parameter.ofJson = fun j => (File.Parameter.ofJson j).map File.Parameter.toModel :=
  funext (Parameter.ofJson_apply)

theorem RequiredInputField.ofFields_apply (o : List (String × Json)) :
    RequiredInputField.ofFields o = (File.RequiredInputField.ofFields o).map File.RequiredInputField.toModel := by
  read_simp [RequiredInputField.ofFields, File.RequiredInputField.ofFields, File.RequiredInputField.toModel, Attachment.ofJson_file, Attachment.ofJson_apply, EnvironmentVar.ofJson_file, EnvironmentVar.ofJson_apply, Parameter.ofJson_file, Parameter.ofJson_apply, ResourceReference.ofFields_file, ResourceReference.ofFields_apply, ResourceReference.ofJson_file, ResourceReference.ofJson_apply]

theorem RequiredInputField.ofFields_file : RequiredInputField.ofFields = fun o => (File.RequiredInputField.ofFields o).map File.RequiredInputField.toModel :=
  funext (RequiredInputField.ofFields_apply)

theorem Input.ofJson_apply (j : Json) :
    Input.ofJson j = (File.Input.ofJson j).map File.Input.toModel := by
  read_simp [Input.ofJson, File.Input.ofJson, File.Input.toModel, Property.ofJson_file, Property.ofJson_apply, RequiredInputField.ofFields_file, RequiredInputField.ofFields_apply, ResourceReference.ofFields_file, ResourceReference.ofFields_apply, ResourceReference.ofJson_file, ResourceReference.ofJson_apply]

theorem Input.ofJson_file : Input.ofJson = fun j => (File.Input.ofJson j).map File.Input.toModel :=
  funext (Input.ofJson_apply)

theorem RequiredOutputField.ofFields_apply (o : List (String × Json)) :
    RequiredOutputField.ofFields o = (File.RequiredOutputField.ofFields o).map File.RequiredOutputField.toModel := by
  read_simp [RequiredOutputField.ofFields, File.RequiredOutputField.ofFields, File.RequiredOutputField.toModel, Attachment.ofJson_file, Attachment.ofJson_apply, EnvironmentVar.ofJson_file, EnvironmentVar.ofJson_apply, ResourceReference.ofFields_file, ResourceReference.ofFields_apply, ResourceReference.ofJson_file, ResourceReference.ofJson_apply]

theorem RequiredOutputField.ofFields_file : RequiredOutputField.ofFields = fun o => (File.RequiredOutputField.ofFields o).map File.RequiredOutputField.toModel :=
  funext (RequiredOutputField.ofFields_apply)

theorem Output.ofJson_apply (j : Json) :
    Output.ofJson j = (File.Output.ofJson j).map File.Output.toModel := by
  read_simp [Output.ofJson, File.Output.ofJson, File.Output.toModel, Property.ofJson_file, Property.ofJson_apply, RequiredOutputField.ofFields_file, RequiredOutputField.ofFields_apply, ResourceReference.ofFields_file, ResourceReference.ofFields_apply, ResourceReference.ofJson_file, ResourceReference.ofJson_apply]

theorem Output.ofJson_file : Output.ofJson = fun j => (File.Output.ofJson j).map File.Output.toModel :=
  funext (Output.ofJson_apply)

theorem Command.ofJson_apply (j : Json) :
    Command.ofJson j = (File.Command.ofJson j).map File.Command.toModel := by
  read_simp [Command.ofJson, File.Command.ofJson, File.Command.toModel, Property.ofJson_file, Property.ofJson_apply]

theorem Command.ofJson_file : Command.ofJson = fun j => (File.Command.ofJson j).map File.Command.toModel :=
  funext (Command.ofJson_apply)

theorem Step.ofJson_apply (j : Json) :
    Step.ofJson j = (File.Step.ofJson j).map File.Step.toModel := by
  read_simp [Step.ofJson, File.Step.ofJson, File.Step.toModel, Command.ofJson_file, Command.ofJson_apply, Property.ofJson_file, Property.ofJson_apply]

theorem Step.ofJson_file : Step.ofJson = fun j => (File.Step.ofJson j).map File.Step.toModel :=
  funext (Step.ofJson_apply)

theorem TriggerEvent.ofJson_apply (j : Json) :
    TriggerEvent.ofJson j = (File.TriggerEvent.ofJson j).map File.TriggerEvent.toModel := by
  read_simp [TriggerEvent.ofJson, File.TriggerEvent.ofJson, File.TriggerEvent.toModel, Attachment.ofJson_file, Attachment.ofJson_apply, Property.ofJson_file, Property.ofJson_apply, ResourceReference.ofFields_file, ResourceReference.ofFields_apply, ResourceReference.ofJson_file, ResourceReference.ofJson_apply]

theorem TriggerEvent.ofJson_file : TriggerEvent.ofJson = fun j => (File.TriggerEvent.ofJson j).map File.TriggerEvent.toModel :=
  funext (TriggerEvent.ofJson_apply)

theorem Condition.ofJson_apply (j : Json) :
    Condition.ofJson j = (File.Condition.ofJson j).map File.Condition.toModel := by
  read_simp [Condition.ofJson, File.Condition.ofJson, File.Condition.toModel, Property.ofJson_file, Property.ofJson_apply]

theorem Condition.ofJson_file : Condition.ofJson = fun j => (File.Condition.ofJson j).map File.Condition.toModel :=
  funext (Condition.ofJson_apply)

theorem Trigger.ofJson_apply (j : Json) :
    Trigger.ofJson j = (File.Trigger.ofJson j).map File.Trigger.toModel := by
  read_simp [Trigger.ofJson, File.Trigger.ofJson, File.Trigger.toModel, Condition.ofJson_file, Condition.ofJson_apply, Input.ofJson_file, Input.ofJson_apply, Output.ofJson_file, Output.ofJson_apply, Property.ofJson_file, Property.ofJson_apply, ResourceReference.ofFields_file, ResourceReference.ofFields_apply, ResourceReference.ofJson_file, ResourceReference.ofJson_apply, TriggerEvent.ofJson_file, TriggerEvent.ofJson_apply]

theorem Trigger.ofJson_file : Trigger.ofJson = fun j => (File.Trigger.ofJson j).map File.Trigger.toModel :=
  funext (Trigger.ofJson_apply)

theorem Volume.ofJson_apply (j : Json) :
    Volume.ofJson j = (File.Volume.ofJson j).map File.Volume.toModel := by
  read_simp [Volume.ofJson, File.Volume.ofJson, File.Volume.toModel, Property.ofJson_file, Property.ofJson_apply]

theorem Volume.ofJson_file : Volume.ofJson = fun j => (File.Volume.ofJson j).map File.Volume.toModel :=
  funext (Volume.ofJson_apply)

theorem Workspace.ofJson_apply (j : Json) :
    Workspace.ofJson j = (File.Workspace.ofJson j).map File.Workspace.toModel := by
  read_simp [Workspace.ofJson, File.Workspace.ofJson, File.Workspace.toModel, Property.ofJson_file, Property.ofJson_apply, ResourceReference.ofFields_file, ResourceReference.ofFields_apply, ResourceReference.ofJson_file, ResourceReference.ofJson_apply, Volume.ofJson_file, Volume.ofJson_apply]

theorem Workspace.ofJson_file : Workspace.ofJson = fun j => (File.Workspace.ofJson j).map File.Workspace.toModel :=
  funext (Workspace.ofJson_apply)

theorem WorkflowTask.ofJson_apply (j : Json) :
    WorkflowTask.ofJson j = (File.WorkflowTask.ofJson j).map File.WorkflowTask.toModel := by
  read_simp [WorkflowTask.ofJson, File.WorkflowTask.ofJson, File.WorkflowTask.toModel, Dependency.ofJson_file, Dependency.ofJson_apply, Input.ofJson_file, Input.ofJson_apply, Output.ofJson_file, Output.ofJson_apply, Property.ofJson_file, Property.ofJson_apply, ResourceReference.ofFields_file, ResourceReference.ofFields_apply, ResourceReference.ofJson_file, ResourceReference.ofJson_apply, Step.ofJson_file, Step.ofJson_apply, Trigger.ofJson_file, Trigger.ofJson_apply, Workspace.ofJson_file, Workspace.ofJson_apply]

theorem WorkflowTask.ofJson_file : WorkflowTask.ofJson = fun j => (File.WorkflowTask.ofJson j).map File.WorkflowTask.toModel :=
  funext (WorkflowTask.ofJson_apply)

theorem Workflow.ofJson_apply (j : Json) :
    Workflow.ofJson j = (File.Workflow.ofJson j).map File.Workflow.toModel := by
  read_simp [Workflow.ofJson, File.Workflow.ofJson, File.Workflow.toModel, Dependency.ofJson_file, Dependency.ofJson_apply, Input.ofJson_file, Input.ofJson_apply, Output.ofJson_file, Output.ofJson_apply, Property.ofJson_file, Property.ofJson_apply, ResourceReference.ofFields_file, ResourceReference.ofFields_apply, ResourceReference.ofJson_file, ResourceReference.ofJson_apply, Step.ofJson_file, Step.ofJson_apply, Trigger.ofJson_file, Trigger.ofJson_apply, WorkflowTask.ofJson_file, WorkflowTask.ofJson_apply, Workspace.ofJson_file, Workspace.ofJson_apply]

theorem Workflow.ofJson_file : Workflow.ofJson = fun j => (File.Workflow.ofJson j).map File.Workflow.toModel :=
  funext (Workflow.ofJson_apply)

theorem Formula.ofJson_apply (j : Json) :
    Formula.ofJson .v1_5 j = (File.Formula.ofJson j).map File.Formula.toModel := by
  read_simp [Formula.ofJson, File.Formula.ofJson, File.Formula.toModel, Component.ofJson_file, Component.ofJson_apply, Property.ofJson_file, Property.ofJson_apply, Service.ofJson_file, Service.ofJson_apply, Workflow.ofJson_file, Workflow.ofJson_apply]

theorem Formula.ofJson_file : Formula.ofJson .v1_5 = fun j => (File.Formula.ofJson j).map File.Formula.toModel :=
  funext (Formula.ofJson_apply)

theorem Bom.ofJson_apply (v : SpecVersion) (j : Json) :
    Bom.ofJson v j = (File.Bom.ofJson v j).map File.Bom.toModel := by
  cases v <;>
    read_simp [Bom.ofJson, File.Bom.ofJson, File.Bom.toModel, Annotation.ofJson_file, Annotation.ofJson_apply, Component.ofJson_file, Component.ofJson_apply, Composition.ofJson_file, Composition.ofJson_apply, Dependency.ofJson_file, Dependency.ofJson_apply, ExternalReference.ofJson_file, ExternalReference.ofJson_apply, Formula.ofJson_file, Formula.ofJson_apply, Metadata.ofJson_file, Metadata.ofJson_apply, Property.ofJson_file, Property.ofJson_apply, Service.ofJson_file, Service.ofJson_apply, Signature.ofJson_file, Signature.ofJson_apply, Vulnerability.ofJson_file, Vulnerability.ofJson_apply]

theorem Bom.ofJson_file (v : SpecVersion) : Bom.ofJson v = fun j => (File.Bom.ofJson v j).map File.Bom.toModel :=
  funext (Bom.ofJson_apply v)

end Cdx
