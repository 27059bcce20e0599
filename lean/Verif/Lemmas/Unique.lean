import Verif.Lemmas.Format.Bom
import Verif.Spec.Unique

set_option linter.unusedSectionVars false
set_option linter.unusedSimpArgs false
set_option linter.unusedVariables false

/-!
# Lemmas on the member names of written JSON
-/

namespace Cdx

theorem mkFields_names : ∀ l : List (String × Option Json),
    ((Json.mkFields l).map Prod.fst).Sublist (l.map Prod.fst)
  | [] => .slnil
  | (k, none) :: l => (mkFields_names l).cons k
  | (k, some j) :: l => (mkFields_names l).cons_cons k

theorem unique_mk {l : List (String × Option Json)} (h : (l.map Prod.fst).Nodup)
    (hs : ∀ p ∈ l, ∀ j, p.2 = some j → j.Unique) : (Json.mk l).Unique := by
  refine .obj ((mkFields_names l).nodup h) fun m hm => ?_
  rw [Json.mkFields, List.mem_filterMap] at hm
  obtain ⟨p, hp, hj⟩ := hm
  cases e : p.2 with
  | none => rw [e] at hj; cases hj
  | some j => rw [e] at hj; cases hj; exact hs p hp j e

theorem unique_map {α : Type} {f : α → Json} {x : Option α} (h : ∀ y, x = some y → (f y).Unique) :
    ∀ j, x.map f = some j → j.Unique := by
  intro j hj
  cases x with
  | none => cases hj
  | some y => cases hj; exact h y rfl

theorem unique_some {i : Json} (h : i.Unique) : ∀ j, some i = some j → j.Unique := by
  intro j hj; cases hj; exact h

theorem unique_ofList {α : Type} {f : α → Json} {l : List α} (h : ∀ y ∈ l, (f y).Unique) :
    (Json.ofList f l).Unique := by
  refine .arr fun j hj => ?_
  obtain ⟨y, hy, rfl⟩ := List.mem_map.mp hj
  exact h y hy

theorem unique_unlessEmpty {α : Type} {f : α → Json} {l : List α} (h : ∀ y ∈ l, (f y).Unique) :
    ∀ j, Json.unlessEmpty f l = some j → j.Unique := by
  intro j hj
  rw [Json.unlessEmpty] at hj
  split at hj
  · cases hj
  · cases hj; exact unique_ofList h

theorem unique_orNull {α : Type} {f : α → Json} {x : Option α} (h : ∀ y, x = some y → (f y).Unique) :
    (Json.orNull f x).Unique := by
  cases x with
  | none => exact .null
  | some y => exact h y rfl

theorem unique_ofF32 (x : F32) : (Json.ofF32 x).Unique := by
  rw [Json.ofF32]; split
  · exact .float
  · exact .null

theorem unique_ofEnum {α : Type} {f : α → String} (x : α) : (Json.ofEnum f x).Unique := .str

theorem unique_empty : (Json.arr []).Unique := .arr fun _ h => nomatch h

theorem unique_one {k : String} {j : Json} (h : j.Unique) : (Json.obj [(k, j)]).Unique :=
  .obj (List.nodup_cons.mpr ⟨List.not_mem_nil, List.nodup_nil⟩) fun m hm => by
    rcases List.mem_singleton.mp hm with rfl; exact h

theorem unique_cons {k : String} {o : Option Json} {l : List (String × Option Json)}
    (h : ∀ j, o = some j → j.Unique) (hs : ∀ p ∈ l, ∀ j, p.2 = some j → j.Unique) :
    ∀ p ∈ (k, o) :: l, ∀ j, p.2 = some j → j.Unique := by
  intro p hp
  cases hp with
  | head => exact h
  | tail _ hp => exact hs p hp

theorem unique_nil : ∀ p ∈ ([] : List (String × Option Json)), ∀ j, p.2 = some j → j.Unique :=
  fun _ h => nomatch h

/-- Closes the goals about the values of the members. -/
syntax "unique_members" : tactic

macro_rules
  | `(tactic| unique_members) => `(tactic|
    repeat' first
      | with_reducible assumption
      | with_reducible exact unique_nil
      | with_reducible exact .str
      | with_reducible exact .bool
      | with_reducible exact .nat
      | with_reducible exact .null
      | with_reducible exact unique_ofF32 _
      | with_reducible exact unique_empty
      | with_reducible exact unique_ofEnum _
      | with_reducible refine unique_cons ?_ ?_
      | with_reducible refine unique_map fun _ _ => ?_
      | with_reducible refine unique_unlessEmpty fun _ _ => ?_
      | with_reducible refine unique_some ?_
      | with_reducible refine unique_orNull fun _ _ => ?_
      | with_reducible refine unique_ofList fun _ _ => ?_
      | with_reducible refine unique_one ?_)

theorem Advisory.toJson_unique : ∀ x, (Advisory.toJson x).Unique := by
  intro x
  rw [Advisory.toJson]
  refine unique_mk (by simp) ?_
  unique_members

theorem Algorithm.toJson_unique : ∀ x, (Algorithm.toJson x).Unique := by
  intro x
  rw [Algorithm.toJson]
  split
  · exact unique_one .str
  · exact .str

theorem IdentifiableAction.toJson_unique : ∀ x, (IdentifiableAction.toJson x).Unique := by
  intro x
  rw [IdentifiableAction.toJson]
  refine unique_mk (by simp) ?_
  unique_members

theorem Commit.toJson_unique : ∀ x, (Commit.toJson x).Unique := by
  intro x
  rw [Commit.toJson]
  refine unique_mk (by simp) ?_
  unique_members
  all_goals first
      | exact IdentifiableAction.toJson_unique _

theorem Attachment.toJson_unique : ∀ x, (Attachment.toJson x).Unique := by
  intro x
  rw [Attachment.toJson]
  refine unique_mk (by simp) ?_
  unique_members

theorem Property.toJson_unique : ∀ x, (Property.toJson x).Unique := by
  intro x
  rw [Property.toJson]
  refine unique_mk (by simp) ?_
  unique_members

theorem DataContents.toJson_unique : ∀ x, (DataContents.toJson x).Unique := by
  intro x
  rw [DataContents.toJson]
  refine unique_mk (by simp) ?_
  unique_members
  all_goals first
      | exact Attachment.toJson_unique _
      | exact Property.toJson_unique _

theorem OrganizationalContact.toJson_unique : ∀ x, (OrganizationalContact.toJson x).Unique := by
  intro x
  rw [OrganizationalContact.toJson]
  refine unique_mk (by simp) ?_
  unique_members

theorem OrganizationalEntity.toJson_unique : ∀ x, (OrganizationalEntity.toJson x).Unique := by
  intro x
  rw [OrganizationalEntity.toJson]
  refine unique_mk (by simp) ?_
  unique_members
  all_goals first
      | exact OrganizationalContact.toJson_unique _

theorem DataGovernanceResponsibleParty.toJson_unique : ∀ x, (DataGovernanceResponsibleParty.toJson x).Unique := by
  intro x
  cases x <;> rw [DataGovernanceResponsibleParty.toJson]
  all_goals first
    | with_reducible refine unique_mk (by simp) ?_
    | skip
  all_goals unique_members
  all_goals first
      | exact OrganizationalContact.toJson_unique _
      | exact OrganizationalEntity.toJson_unique _

theorem DataGovernance.toJson_unique : ∀ x, (DataGovernance.toJson x).Unique := by
  intro x
  rw [DataGovernance.toJson]
  refine unique_mk (by simp) ?_
  unique_members
  all_goals first
      | exact DataGovernanceResponsibleParty.toJson_unique _

theorem Graphic.toJson_unique : ∀ x, (Graphic.toJson x).Unique := by
  intro x
  rw [Graphic.toJson]
  refine unique_mk (by simp) ?_
  unique_members
  all_goals first
      | exact Attachment.toJson_unique _

theorem GraphicsCollection.toJson_unique : ∀ x, (GraphicsCollection.toJson x).Unique := by
  intro x
  rw [GraphicsCollection.toJson]
  refine unique_mk (by simp) ?_
  unique_members
  all_goals first
      | exact Graphic.toJson_unique _

theorem ComponentData.toJson_unique : ∀ x, (ComponentData.toJson x).Unique := by
  intro x
  rw [ComponentData.toJson]
  refine unique_mk (by simp) ?_
  unique_members
  all_goals first
      | exact DataContents.toJson_unique _
      | exact DataGovernance.toJson_unique _
      | exact GraphicsCollection.toJson_unique _

theorem Frame.toJson_unique : ∀ x, (Frame.toJson x).Unique := by
  intro x
  rw [Frame.toJson]
  refine unique_mk (by simp) ?_
  unique_members

theorem Callstack.toJson_unique : ∀ x, (Callstack.toJson x).Unique := by
  intro x
  rw [Callstack.toJson]
  refine unique_mk (by simp) ?_
  unique_members
  all_goals first
      | exact Frame.toJson_unique _

theorem Copyright.toJson_unique : ∀ x, (Copyright.toJson x).Unique := by
  intro x
  rw [Copyright.toJson]
  refine unique_mk (by simp) ?_
  unique_members

theorem Method.toJson_unique : ∀ x, (Method.toJson x).Unique := by
  intro x
  rw [Method.toJson]
  refine unique_mk (by simp) ?_
  unique_members

theorem Identity.toJson_unique : ∀ x, (Identity.toJson x).Unique := by
  intro x
  rw [Identity.toJson]
  refine unique_mk (by simp) ?_
  unique_members
  all_goals first
      | exact Method.toJson_unique _

theorem AttachedText.toJson_unique : ∀ x, (AttachedText.toJson x).Unique := by
  intro x
  rw [AttachedText.toJson]
  refine unique_mk (by simp) ?_
  unique_members

theorem LicenseContact.toJson_unique : ∀ x, (LicenseContact.toJson x).Unique := by
  intro x
  cases x <;> rw [LicenseContact.toJson]
  all_goals first
    | with_reducible refine unique_mk (by simp) ?_
    | skip
  all_goals unique_members
  all_goals first
      | exact OrganizationalContact.toJson_unique _
      | exact OrganizationalEntity.toJson_unique _

theorem Licensing.toJson_unique : ∀ x, (Licensing.toJson x).Unique := by
  intro x
  rw [Licensing.toJson]
  refine unique_mk (by simp) ?_
  unique_members
  all_goals first
      | exact LicenseContact.toJson_unique _

theorem License.toJson_unique (v : SpecVersion) : ∀ x, (License.toJson v x).Unique := by
  intro x
  rw [License.toJson]
  cases x.licenseIdentifier <;> rw [LicenseIdentifier.toFields]
  all_goals
    cases v <;> simp only [since14, since15, List.append_nil, List.cons_append, List.nil_append] <;>
      refine unique_mk (by simp) ?_ <;> unique_members
  all_goals first
      | exact Property.toJson_unique _
      | exact AttachedText.toJson_unique _
      | exact Licensing.toJson_unique _

theorem SpdxExpression.toJson_unique : ∀ x, (SpdxExpression.toJson x).Unique := by
  intro x
  rw [SpdxExpression.toJson]
  refine unique_mk (by simp) ?_
  unique_members

theorem LicenseChoice.toJson_unique (v : SpecVersion) : ∀ x, (LicenseChoice.toJson v x).Unique := by
  intro x
  cases x <;> rw [LicenseChoice.toJson]
  all_goals first
    | with_reducible refine unique_mk (by simp) ?_
    | skip
  all_goals unique_members
  all_goals first
      | exact License.toJson_unique _ _
      | exact SpdxExpression.toJson_unique _

theorem Licenses.toJson_unique (v : SpecVersion) : ∀ x, (Licenses.toJson v x).Unique := by
  intro x
  refine unique_ofList fun _ _ => ?_
  exact LicenseChoice.toJson_unique v _

theorem Occurrence.toJson_unique : ∀ x, (Occurrence.toJson x).Unique := by
  intro x
  rw [Occurrence.toJson]
  refine unique_mk (by simp) ?_
  unique_members

theorem ComponentEvidence.toJson_unique (v : SpecVersion) : ∀ x, (ComponentEvidence.toJson v x).Unique := by
  intro x
  rw [ComponentEvidence.toJson]
  cases v <;> simp only [since14, since15, List.append_nil, List.cons_append, List.nil_append] <;>
    refine unique_mk (by simp) ?_ <;> unique_members
  all_goals first
      | exact Callstack.toJson_unique _
      | exact Copyright.toJson_unique _
      | exact Identity.toJson_unique _
      | exact Licenses.toJson_unique _ _
      | exact Occurrence.toJson_unique _

theorem Hash.toJson_unique : ∀ x, (Hash.toJson x).Unique := by
  intro x
  rw [Hash.toJson]
  refine unique_mk (by simp) ?_
  unique_members

theorem ExternalReference.toJson_unique : ∀ x, (ExternalReference.toJson x).Unique := by
  intro x
  rw [ExternalReference.toJson]
  refine unique_mk (by simp) ?_
  unique_members
  all_goals first
      | exact Hash.toJson_unique _

theorem Considerations.toJson_unique : ∀ x, (Considerations.toJson x).Unique := by
  intro x
  exact .obj List.nodup_nil fun _ h => nomatch h

theorem Dataset.toJson_unique : ∀ x, (Dataset.toJson x).Unique := by
  intro x
  cases x <;> rw [Dataset.toJson]
  all_goals first
    | with_reducible refine unique_mk (by simp) ?_
    | skip
  all_goals unique_members
  all_goals first
      | exact ComponentData.toJson_unique _

theorem MLParameter.toJson_unique : ∀ x, (MLParameter.toJson x).Unique := by
  intro x
  rw [MLParameter.toJson]
  refine unique_mk (by simp) ?_
  unique_members

theorem ModelParametersApproach.toJson_unique : ∀ x, (ModelParametersApproach.toJson x).Unique := by
  intro x
  rw [ModelParametersApproach.toJson]
  refine unique_mk (by simp) ?_
  unique_members

theorem ModelParameters.toJson_unique : ∀ x, (ModelParameters.toJson x).Unique := by
  intro x
  rw [ModelParameters.toJson]
  refine unique_mk (by simp) ?_
  unique_members
  all_goals first
      | exact Dataset.toJson_unique _
      | exact MLParameter.toJson_unique _
      | exact ModelParametersApproach.toJson_unique _

theorem ConfidenceInterval.toJson_unique : ∀ x, (ConfidenceInterval.toJson x).Unique := by
  intro x
  rw [ConfidenceInterval.toJson]
  refine unique_mk (by simp) ?_
  unique_members

theorem PerformanceMetric.toJson_unique : ∀ x, (PerformanceMetric.toJson x).Unique := by
  intro x
  rw [PerformanceMetric.toJson]
  refine unique_mk (by simp) ?_
  unique_members
  all_goals first
      | exact ConfidenceInterval.toJson_unique _

theorem QuantitativeAnalysis.toJson_unique : ∀ x, (QuantitativeAnalysis.toJson x).Unique := by
  intro x
  rw [QuantitativeAnalysis.toJson]
  refine unique_mk (by simp) ?_
  unique_members
  all_goals first
      | exact GraphicsCollection.toJson_unique _
      | exact PerformanceMetric.toJson_unique _

theorem ModelCard.toJson_unique : ∀ x, (ModelCard.toJson x).Unique := by
  intro x
  rw [ModelCard.toJson]
  refine unique_mk (by simp) ?_
  unique_members
  all_goals first
      | exact Property.toJson_unique _
      | exact Considerations.toJson_unique _
      | exact ModelParameters.toJson_unique _
      | exact QuantitativeAnalysis.toJson_unique _

theorem Diff.toJson_unique : ∀ x, (Diff.toJson x).Unique := by
  intro x
  rw [Diff.toJson]
  refine unique_mk (by simp) ?_
  unique_members
  all_goals first
      | exact AttachedText.toJson_unique _

theorem Source.toJson_unique : ∀ x, (Source.toJson x).Unique := by
  intro x
  rw [Source.toJson]
  refine unique_mk (by simp) ?_
  unique_members

theorem Issue.toJson_unique : ∀ x, (Issue.toJson x).Unique := by
  intro x
  rw [Issue.toJson]
  refine unique_mk (by simp) ?_
  unique_members
  all_goals first
      | exact Source.toJson_unique _

theorem Patch.toJson_unique : ∀ x, (Patch.toJson x).Unique := by
  intro x
  rw [Patch.toJson]
  refine unique_mk (by simp) ?_
  unique_members
  all_goals first
      | exact Diff.toJson_unique _
      | exact Issue.toJson_unique _

theorem Signer.toJson_unique : ∀ x, (Signer.toJson x).Unique := by
  intro x
  rw [Signer.toJson]
  refine unique_mk (by simp) ?_
  unique_members
  all_goals first
      | exact Algorithm.toJson_unique _

theorem Signature.toJson_unique : ∀ x, (Signature.toJson x).Unique := by
  intro x
  cases x <;> rw [Signature.toJson]
  all_goals first
    | with_reducible refine unique_mk (by simp) ?_
    | skip
  all_goals unique_members
  all_goals first
      | exact Signer.toJson_unique _

theorem Swid.toJson_unique : ∀ x, (Swid.toJson x).Unique := by
  intro x
  rw [Swid.toJson]
  refine unique_mk (by simp) ?_
  unique_members
  all_goals first
      | exact AttachedText.toJson_unique _

variable [F32Format]

theorem Pedigree.toJson_unique {v : SpecVersion} {x : Pedigree}
    (h : ∀ y ∈ x.children, (Component.toJson v y).Unique) : (Pedigree.toJson v x).Unique := by
  rw [Pedigree.toJson_eq]
  refine unique_mk (by simp) (unique_cons (unique_map fun l hl => unique_ofList fun y hy => h y (Pedigree.mem_ancestors hl hy))
    (unique_cons (unique_map fun l hl => unique_ofList fun y hy => h y (Pedigree.mem_descendants hl hy))
    (unique_cons (unique_map fun l hl => unique_ofList fun y hy => h y (Pedigree.mem_variants hl hy)) ?_)))
  unique_members
  · exact Commit.toJson_unique _
  · exact Patch.toJson_unique _

theorem Component.toJson_unique (v : SpecVersion) (x : Component) : (Component.toJson v x).Unique := by
  induction x using Component.ind with
  | h x ih =>
    have hc : ∀ j, x.components.map (Json.ofList (Component.toJson v)) = some j → j.Unique :=
      unique_map fun l hl => unique_ofList fun y hy => ih y (Component.mem_components hl hy)
    have hp : ∀ j, x.pedigree.map (Pedigree.toJson v) = some j → j.Unique :=
      unique_map fun p hp => Pedigree.toJson_unique fun y hy => ih y (Component.mem_pedigree hp hy)
    rw [Component.toJson_eq]
    cases v <;> simp only [since14, since15, List.append_nil, List.cons_append, List.nil_append] <;>
      refine unique_mk (by simp) ?_ <;> unique_members
    all_goals first
      | exact Commit.toJson_unique _
      | exact Property.toJson_unique _
      | exact OrganizationalEntity.toJson_unique _
      | exact ComponentData.toJson_unique _
      | exact Licenses.toJson_unique _ _
      | exact ComponentEvidence.toJson_unique _ _
      | exact Hash.toJson_unique _
      | exact ExternalReference.toJson_unique _
      | exact ModelCard.toJson_unique _
      | exact Patch.toJson_unique _
      | exact Signature.toJson_unique _
      | exact Swid.toJson_unique _

theorem DataClassification.toJson_unique : ∀ x, (DataClassification.toJson x).Unique := by
  intro x
  rw [DataClassification.toJson]
  refine unique_mk (by simp) ?_
  unique_members

theorem ServiceData.toJson_unique : ∀ x, (ServiceData.toJson x).Unique := by
  intro x
  rw [ServiceData.toJson]
  refine unique_mk (by simp) ?_
  unique_members
  all_goals first
      | exact DataGovernance.toJson_unique _

theorem ServiceDataChoice.toJson_unique (v : SpecVersion) : ∀ x, (ServiceDataChoice.toJson v x).Unique := by
  intro x
  cases x <;> rw [ServiceDataChoice.toJson]
  all_goals try cases v
  all_goals try simp only [since15]
  all_goals first
    | with_reducible refine unique_mk (by simp) ?_
    | skip
  all_goals unique_members
  all_goals first
      | exact DataClassification.toJson_unique _
      | exact ServiceData.toJson_unique _

theorem Service.toJson_unique (v : SpecVersion) (x : Service) : (Service.toJson v x).Unique := by
  induction x using Service.ind with
  | h x ih =>
    have hc : ∀ j, x.services.map (Json.ofList (Service.toJson v)) = some j → j.Unique :=
      unique_map fun l hl => unique_ofList fun y hy => ih y (Service.mem_services hl hy)
    rw [Service.toJson_eq]
    cases v <;> simp only [since14, since15, List.append_nil, List.cons_append, List.nil_append] <;>
      refine unique_mk (by simp) ?_ <;> unique_members
    all_goals first
      | exact Property.toJson_unique _
      | exact OrganizationalEntity.toJson_unique _
      | exact Licenses.toJson_unique _ _
      | exact ExternalReference.toJson_unique _
      | exact Signature.toJson_unique _
      | exact ServiceDataChoice.toJson_unique _ _

theorem Annotator.toJson_unique (v : SpecVersion) : ∀ x, (Annotator.toJson v x).Unique := by
  intro x
  cases x <;> rw [Annotator.toJson]
  all_goals first
    | with_reducible refine unique_mk (by simp) ?_
    | skip
  all_goals unique_members
  all_goals first
      | exact OrganizationalContact.toJson_unique _
      | exact OrganizationalEntity.toJson_unique _
      | exact Component.toJson_unique _ _
      | exact Service.toJson_unique _ _

theorem Annotation.toJson_unique (v : SpecVersion) : ∀ x, (Annotation.toJson v x).Unique := by
  intro x
  rw [Annotation.toJson]
  refine unique_mk (by simp) ?_
  unique_members
  all_goals first
      | exact Signature.toJson_unique _
      | exact Annotator.toJson_unique _ _

theorem Composition.toJson_unique (v : SpecVersion) : ∀ x, (Composition.toJson v x).Unique := by
  intro x
  rw [Composition.toJson]
  cases v <;> simp only [since14, since15, List.append_nil, List.cons_append, List.nil_append] <;>
    refine unique_mk (by simp) ?_ <;> unique_members
  all_goals first
      | exact Signature.toJson_unique _

theorem Dependency.toJson_unique : ∀ x, (Dependency.toJson x).Unique := by
  intro x
  rw [Dependency.toJson]
  refine unique_mk (by simp) ?_
  unique_members

theorem EnvironmentVar.toJson_unique : ∀ x, (EnvironmentVar.toJson x).Unique := by
  intro x
  cases x <;> rw [EnvironmentVar.toJson]
  all_goals first
    | with_reducible refine unique_mk (by simp) ?_
    | skip
  all_goals unique_members

theorem Parameter.toJson_unique : ∀ x, (Parameter.toJson x).Unique := by
  intro x
  rw [Parameter.toJson]
  refine unique_mk (by simp) ?_
  unique_members

theorem ResourceReference.toJson_unique : ∀ x, (ResourceReference.toJson x).Unique := by
  intro x
  rw [ResourceReference.toJson]
  cases x <;> refine unique_mk (by simp [ResourceReference.toFields]) ?_ <;> rw [ResourceReference.toFields] <;> unique_members
  exact ExternalReference.toJson_unique _

theorem Input.toJson_unique : ∀ x, (Input.toJson x).Unique := by
  intro x
  rw [Input.toJson]
  cases x.required <;> rw [RequiredInputField.toFields]
  all_goals
    simp only [List.cons_append, List.nil_append]
    refine unique_mk (by simp) ?_
    unique_members
  all_goals first
      | exact Attachment.toJson_unique _
      | exact Property.toJson_unique _
      | exact EnvironmentVar.toJson_unique _
      | exact Parameter.toJson_unique _
      | exact ResourceReference.toJson_unique _

theorem Output.toJson_unique : ∀ x, (Output.toJson x).Unique := by
  intro x
  rw [Output.toJson]
  cases x.required <;> rw [RequiredOutputField.toFields]
  all_goals
    simp only [List.cons_append, List.nil_append]
    refine unique_mk (by simp) ?_
    unique_members
  all_goals first
      | exact Attachment.toJson_unique _
      | exact Property.toJson_unique _
      | exact EnvironmentVar.toJson_unique _
      | exact Parameter.toJson_unique _
      | exact ResourceReference.toJson_unique _

theorem Command.toJson_unique : ∀ x, (Command.toJson x).Unique := by
  intro x
  rw [Command.toJson]
  refine unique_mk (by simp) ?_
  unique_members
  all_goals first
      | exact Property.toJson_unique _

theorem Step.toJson_unique : ∀ x, (Step.toJson x).Unique := by
  intro x
  rw [Step.toJson]
  refine unique_mk (by simp) ?_
  unique_members
  all_goals first
      | exact Property.toJson_unique _
      | exact Command.toJson_unique _

theorem Condition.toJson_unique : ∀ x, (Condition.toJson x).Unique := by
  intro x
  rw [Condition.toJson]
  refine unique_mk (by simp) ?_
  unique_members
  all_goals first
      | exact Property.toJson_unique _

theorem TriggerEvent.toJson_unique : ∀ x, (TriggerEvent.toJson x).Unique := by
  intro x
  rw [TriggerEvent.toJson]
  refine unique_mk (by simp) ?_
  unique_members
  all_goals first
      | exact Attachment.toJson_unique _
      | exact Property.toJson_unique _
      | exact ResourceReference.toJson_unique _

theorem Trigger.toJson_unique : ∀ x, (Trigger.toJson x).Unique := by
  intro x
  rw [Trigger.toJson]
  refine unique_mk (by simp) ?_
  unique_members
  all_goals first
      | exact Property.toJson_unique _
      | exact ResourceReference.toJson_unique _
      | exact Input.toJson_unique _
      | exact Output.toJson_unique _
      | exact Condition.toJson_unique _
      | exact TriggerEvent.toJson_unique _

theorem Volume.toJson_unique : ∀ x, (Volume.toJson x).Unique := by
  intro x
  rw [Volume.toJson]
  refine unique_mk (by simp) ?_
  unique_members
  all_goals first
      | exact Property.toJson_unique _

theorem Workspace.toJson_unique : ∀ x, (Workspace.toJson x).Unique := by
  intro x
  rw [Workspace.toJson]
  refine unique_mk (by simp) ?_
  unique_members
  all_goals first
      | exact Property.toJson_unique _
      | exact ResourceReference.toJson_unique _
      | exact Volume.toJson_unique _

theorem WorkflowTask.toJson_unique : ∀ x, (WorkflowTask.toJson x).Unique := by
  intro x
  rw [WorkflowTask.toJson]
  refine unique_mk (by simp) ?_
  unique_members
  all_goals first
      | exact Property.toJson_unique _
      | exact Dependency.toJson_unique _
      | exact ResourceReference.toJson_unique _
      | exact Input.toJson_unique _
      | exact Output.toJson_unique _
      | exact Step.toJson_unique _
      | exact Trigger.toJson_unique _
      | exact Workspace.toJson_unique _

theorem Workflow.toJson_unique : ∀ x, (Workflow.toJson x).Unique := by
  intro x
  rw [Workflow.toJson]
  refine unique_mk (by simp) ?_
  unique_members
  all_goals first
      | exact Property.toJson_unique _
      | exact Dependency.toJson_unique _
      | exact ResourceReference.toJson_unique _
      | exact Input.toJson_unique _
      | exact Output.toJson_unique _
      | exact Step.toJson_unique _
      | exact Trigger.toJson_unique _
      | exact Workspace.toJson_unique _
      | exact WorkflowTask.toJson_unique _

theorem Formula.toJson_unique (v : SpecVersion) : ∀ x, (Formula.toJson v x).Unique := by
  intro x
  rw [Formula.toJson]
  refine unique_mk (by simp) ?_
  unique_members
  all_goals first
      | exact Property.toJson_unique _
      | exact Component.toJson_unique _ _
      | exact Service.toJson_unique _ _
      | exact Workflow.toJson_unique _

theorem LifecycleDescription.toJson_unique : ∀ x, (LifecycleDescription.toJson x).Unique := by
  intro x
  rw [LifecycleDescription.toJson]
  refine unique_mk (by simp) ?_
  unique_members

theorem Lifecycle.toJson_unique : ∀ x, (Lifecycle.toJson x).Unique := by
  intro x
  cases x <;> rw [Lifecycle.toJson]
  all_goals first
    | with_reducible refine unique_mk (by simp) ?_
    | skip
  all_goals unique_members
  all_goals first
      | exact LifecycleDescription.toJson_unique _

theorem Tool.toJson_unique (v : SpecVersion) : ∀ x, (Tool.toJson v x).Unique := by
  intro x
  rw [Tool.toJson]
  cases v <;> simp only [since14, since15, List.append_nil, List.cons_append, List.nil_append] <;>
    refine unique_mk (by simp) ?_ <;> unique_members
  all_goals first
      | exact Hash.toJson_unique _
      | exact ExternalReference.toJson_unique _

theorem Tools.toJson_unique (v : SpecVersion) : ∀ x, (Tools.toJson v x).Unique := by
  intro x
  cases x <;> rw [Tools.toJson]
  all_goals try cases v
  all_goals try simp only [since15]
  all_goals first
    | with_reducible refine unique_mk (by simp) ?_
    | skip
  all_goals unique_members
  all_goals first
      | exact Component.toJson_unique _ _
      | exact Service.toJson_unique _ _
      | exact Tool.toJson_unique _ _

theorem Metadata.toJson_unique (v : SpecVersion) : ∀ x, (Metadata.toJson v x).Unique := by
  intro x
  rw [Metadata.toJson]
  cases v <;> simp only [since14, since15, List.append_nil, List.cons_append, List.nil_append] <;>
    refine unique_mk (by simp) ?_ <;> unique_members
  all_goals first
      | exact Property.toJson_unique _
      | exact OrganizationalContact.toJson_unique _
      | exact OrganizationalEntity.toJson_unique _
      | exact Licenses.toJson_unique _ _
      | exact Component.toJson_unique _ _
      | exact Lifecycle.toJson_unique _
      | exact Tools.toJson_unique _ _

theorem VulnerabilityAnalysis.toJson_unique (v : SpecVersion) : ∀ x, (VulnerabilityAnalysis.toJson v x).Unique := by
  intro x
  rw [VulnerabilityAnalysis.toJson]
  cases v <;> simp only [since14, since15, List.append_nil, List.cons_append, List.nil_append] <;>
    refine unique_mk (by simp) ?_ <;> unique_members

theorem VulnerabilityCredits.toJson_unique : ∀ x, (VulnerabilityCredits.toJson x).Unique := by
  intro x
  rw [VulnerabilityCredits.toJson]
  refine unique_mk (by simp) ?_
  unique_members
  all_goals first
      | exact OrganizationalContact.toJson_unique _
      | exact OrganizationalEntity.toJson_unique _

theorem VulnerabilityProofOfConcept.toJson_unique : ∀ x, (VulnerabilityProofOfConcept.toJson x).Unique := by
  intro x
  rw [VulnerabilityProofOfConcept.toJson]
  refine unique_mk (by simp) ?_
  unique_members
  all_goals first
      | exact Attachment.toJson_unique _

theorem VulnerabilitySource.toJson_unique : ∀ x, (VulnerabilitySource.toJson x).Unique := by
  intro x
  rw [VulnerabilitySource.toJson]
  refine unique_mk (by simp) ?_
  unique_members

theorem VulnerabilityRating.toJson_unique : ∀ x, (VulnerabilityRating.toJson x).Unique := by
  intro x
  rw [VulnerabilityRating.toJson]
  refine unique_mk (by simp) ?_
  unique_members
  all_goals first
      | exact VulnerabilitySource.toJson_unique _

theorem VulnerabilityReference.toJson_unique : ∀ x, (VulnerabilityReference.toJson x).Unique := by
  intro x
  rw [VulnerabilityReference.toJson]
  refine unique_mk (by simp) ?_
  unique_members
  all_goals first
      | exact VulnerabilitySource.toJson_unique _

theorem TargetVersion.toJson_unique : ∀ x, (TargetVersion.toJson x).Unique := by
  intro x
  rw [TargetVersion.toJson]
  cases x.versionRange <;> rw [VersionRange.toFields]
  all_goals
    simp only [List.cons_append, List.nil_append]
    refine unique_mk (by simp) ?_
    unique_members

theorem VulnerabilityTarget.toJson_unique : ∀ x, (VulnerabilityTarget.toJson x).Unique := by
  intro x
  rw [VulnerabilityTarget.toJson]
  refine unique_mk (by simp) ?_
  unique_members
  all_goals first
      | exact TargetVersion.toJson_unique _

theorem Vulnerability.toJson_unique (v : SpecVersion) : ∀ x, (Vulnerability.toJson v x).Unique := by
  intro x
  rw [Vulnerability.toJson]
  cases v <;> simp only [since14, since15, List.append_nil, List.cons_append, List.nil_append] <;>
    refine unique_mk (by simp) ?_ <;> unique_members
  all_goals first
      | exact Advisory.toJson_unique _
      | exact Property.toJson_unique _
      | exact Tools.toJson_unique _ _
      | exact VulnerabilityAnalysis.toJson_unique _ _
      | exact VulnerabilityCredits.toJson_unique _
      | exact VulnerabilityProofOfConcept.toJson_unique _
      | exact VulnerabilitySource.toJson_unique _
      | exact VulnerabilityRating.toJson_unique _
      | exact VulnerabilityReference.toJson_unique _
      | exact VulnerabilityTarget.toJson_unique _

theorem Bom.toJson_unique (v : SpecVersion) : ∀ x, (Bom.toJson v x).Unique := by
  intro x
  rw [Bom.toJson]
  cases v <;> simp only [since14, since15, List.append_nil, List.cons_append, List.nil_append] <;>
    refine unique_mk (by simp) ?_ <;> unique_members
  all_goals first
      | exact Property.toJson_unique _
      | exact ExternalReference.toJson_unique _
      | exact Signature.toJson_unique _
      | exact Component.toJson_unique _ _
      | exact Service.toJson_unique _ _
      | exact Annotation.toJson_unique _ _
      | exact Composition.toJson_unique _ _
      | exact Dependency.toJson_unique _
      | exact Formula.toJson_unique _ _
      | exact Metadata.toJson_unique _ _
      | exact Vulnerability.toJson_unique _ _

end Cdx
