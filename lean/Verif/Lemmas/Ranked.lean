import Verif.Lemmas.Unique
import Verif.Lemmas.Value

set_option linter.unusedSectionVars false
set_option linter.unusedSimpArgs false
set_option linter.unusedVariables false

/-!
# Lemmas on the order of the members of written JSON
-/

namespace Cdx

open Spec

theorem ranks_one {G : List (List String)} (k : String) : Ranks G [k] := by
  intro names _
  refine List.Pairwise.filter _ ?_
  exact List.pairwise_singleton ..

syntax "ranks" : tactic

macro_rules
  | `(tactic| ranks) => `(tactic| (simp only [List.map_cons, List.map_nil]; decide +kernel))

theorem ranked_mk {l : List (String × Option Json)} (h : Ranks alternatives (l.map Prod.fst))
    (hs : ∀ p ∈ l, ∀ j, p.2 = some j → Ranked alternatives j) : Ranked alternatives (Json.mk l) := by
  refine .obj (h.sublist (mkFields_names l)) fun m hm => ?_
  rw [Json.mkFields, List.mem_filterMap] at hm
  obtain ⟨p, hp, hj⟩ := hm
  cases e : p.2 with
  | none => rw [e] at hj; cases hj
  | some j => rw [e] at hj; cases hj; exact hs p hp j e

theorem ranked_map {α : Type} {f : α → Json} {x : Option α} (h : ∀ y, x = some y → Ranked alternatives (f y)) :
    ∀ j, x.map f = some j → Ranked alternatives j := by
  intro j hj
  cases x with
  | none => cases hj
  | some y => cases hj; exact h y rfl

theorem ranked_some {i : Json} (h : Ranked alternatives i) : ∀ j, some i = some j → Ranked alternatives j := by
  intro j hj; cases hj; exact h

theorem ranked_ofList {α : Type} {f : α → Json} {l : List α} (h : ∀ y ∈ l, Ranked alternatives (f y)) :
    Ranked alternatives (Json.ofList f l) := by
  refine .arr fun j hj => ?_
  obtain ⟨y, hy, rfl⟩ := List.mem_map.mp hj
  exact h y hy

theorem ranked_unlessEmpty {α : Type} {f : α → Json} {l : List α} (h : ∀ y ∈ l, Ranked alternatives (f y)) :
    ∀ j, Json.unlessEmpty f l = some j → Ranked alternatives j := by
  intro j hj
  rw [Json.unlessEmpty] at hj
  split at hj
  · cases hj
  · cases hj; exact ranked_ofList h

theorem ranked_orNull {α : Type} {f : α → Json} {x : Option α} (h : ∀ y, x = some y → Ranked alternatives (f y)) :
    Ranked alternatives (Json.orNull f x) := by
  cases x with
  | none => exact .null
  | some y => exact h y rfl

theorem ranked_ofF32 (x : F32) : Ranked alternatives (Json.ofF32 x) := by
  rw [Json.ofF32]; split
  · exact .float
  · exact .null

theorem ranked_ofEnum {α : Type} {f : α → String} (x : α) : Ranked alternatives (Json.ofEnum f x) := .str

theorem ranked_empty : Ranked alternatives (Json.arr []) := .arr fun _ h => nomatch h

theorem ranked_one {k : String} {j : Json} (h : Ranked alternatives j) : Ranked alternatives (Json.obj [(k, j)]) :=
  .obj (ranks_one k) fun m hm => by
    rcases List.mem_singleton.mp hm with rfl; exact h

theorem ranked_cons {k : String} {o : Option Json} {l : List (String × Option Json)}
    (h : ∀ j, o = some j → Ranked alternatives j) (hs : ∀ p ∈ l, ∀ j, p.2 = some j → Ranked alternatives j) :
    ∀ p ∈ (k, o) :: l, ∀ j, p.2 = some j → Ranked alternatives j := by
  intro p hp
  cases hp with
  | head => exact h
  | tail _ hp => exact hs p hp

theorem ranked_nil : ∀ p ∈ ([] : List (String × Option Json)), ∀ j, p.2 = some j → Ranked alternatives j :=
  fun _ h => nomatch h

/-- Closes the goals about the values of the members. -/
syntax "ranked_members" : tactic

macro_rules
  | `(tactic| ranked_members) => `(tactic|
    repeat' first
      | with_reducible assumption
      | with_reducible exact ranked_nil
      | with_reducible exact .str
      | with_reducible exact .bool
      | with_reducible exact .nat
      | with_reducible exact .null
      | with_reducible exact ranked_ofF32 _
      | with_reducible exact ranked_empty
      | with_reducible exact ranked_ofEnum _
      | with_reducible refine ranked_cons ?_ ?_
      | with_reducible refine ranked_map fun _ _ => ?_
      | with_reducible refine ranked_unlessEmpty fun _ _ => ?_
      | with_reducible refine ranked_some ?_
      | with_reducible refine ranked_orNull fun _ _ => ?_
      | with_reducible refine ranked_ofList fun _ _ => ?_
      | with_reducible refine ranked_one ?_)

theorem Advisory.toJson_ranked : ∀ x, Ranked alternatives (Advisory.toJson x) := by
  intro x
  rw [Advisory.toJson]
  refine ranked_mk (by ranks) ?_
  ranked_members

theorem Algorithm.toJson_ranked : ∀ x, Ranked alternatives (Algorithm.toJson x) := by
  intro x
  rw [Algorithm.toJson]
  split
  · exact ranked_one .str
  · exact .str

theorem IdentifiableAction.toJson_ranked : ∀ x, Ranked alternatives (IdentifiableAction.toJson x) := by
  intro x
  rw [IdentifiableAction.toJson]
  refine ranked_mk (by ranks) ?_
  ranked_members

theorem Commit.toJson_ranked : ∀ x, Ranked alternatives (Commit.toJson x) := by
  intro x
  rw [Commit.toJson]
  refine ranked_mk (by ranks) ?_
  ranked_members
  all_goals first
      | exact IdentifiableAction.toJson_ranked _

theorem Attachment.toJson_ranked : ∀ x, Ranked alternatives (Attachment.toJson x) := by
  intro x
  rw [Attachment.toJson]
  refine ranked_mk (by ranks) ?_
  ranked_members

theorem Property.toJson_ranked : ∀ x, Ranked alternatives (Property.toJson x) := by
  intro x
  rw [Property.toJson]
  refine ranked_mk (by ranks) ?_
  ranked_members

theorem DataContents.toJson_ranked : ∀ x, Ranked alternatives (DataContents.toJson x) := by
  intro x
  rw [DataContents.toJson]
  refine ranked_mk (by ranks) ?_
  ranked_members
  all_goals first
      | exact Attachment.toJson_ranked _
      | exact Property.toJson_ranked _

theorem OrganizationalContact.toJson_ranked : ∀ x, Ranked alternatives (OrganizationalContact.toJson x) := by
  intro x
  rw [OrganizationalContact.toJson]
  refine ranked_mk (by ranks) ?_
  ranked_members

theorem OrganizationalEntity.toJson_ranked : ∀ x, Ranked alternatives (OrganizationalEntity.toJson x) := by
  intro x
  rw [OrganizationalEntity.toJson]
  refine ranked_mk (by ranks) ?_
  ranked_members
  all_goals first
      | exact OrganizationalContact.toJson_ranked _

theorem DataGovernanceResponsibleParty.toJson_ranked : ∀ x, Ranked alternatives (DataGovernanceResponsibleParty.toJson x) := by
  intro x
  cases x <;> rw [DataGovernanceResponsibleParty.toJson]
  all_goals first
    | with_reducible refine ranked_mk (by ranks) ?_
    | skip
  all_goals ranked_members
  all_goals first
      | exact OrganizationalContact.toJson_ranked _
      | exact OrganizationalEntity.toJson_ranked _

theorem DataGovernance.toJson_ranked : ∀ x, Ranked alternatives (DataGovernance.toJson x) := by
  intro x
  rw [DataGovernance.toJson]
  refine ranked_mk (by ranks) ?_
  ranked_members
  all_goals first
      | exact DataGovernanceResponsibleParty.toJson_ranked _

theorem Graphic.toJson_ranked : ∀ x, Ranked alternatives (Graphic.toJson x) := by
  intro x
  rw [Graphic.toJson]
  refine ranked_mk (by ranks) ?_
  ranked_members
  all_goals first
      | exact Attachment.toJson_ranked _

theorem GraphicsCollection.toJson_ranked : ∀ x, Ranked alternatives (GraphicsCollection.toJson x) := by
  intro x
  rw [GraphicsCollection.toJson]
  refine ranked_mk (by ranks) ?_
  ranked_members
  all_goals first
      | exact Graphic.toJson_ranked _

theorem ComponentData.toJson_ranked : ∀ x, Ranked alternatives (ComponentData.toJson x) := by
  intro x
  rw [ComponentData.toJson]
  refine ranked_mk (by ranks) ?_
  ranked_members
  all_goals first
      | exact DataContents.toJson_ranked _
      | exact DataGovernance.toJson_ranked _
      | exact GraphicsCollection.toJson_ranked _

theorem Frame.toJson_ranked : ∀ x, Ranked alternatives (Frame.toJson x) := by
  intro x
  rw [Frame.toJson]
  refine ranked_mk (by ranks) ?_
  ranked_members

theorem Callstack.toJson_ranked : ∀ x, Ranked alternatives (Callstack.toJson x) := by
  intro x
  rw [Callstack.toJson]
  refine ranked_mk (by ranks) ?_
  ranked_members
  all_goals first
      | exact Frame.toJson_ranked _

theorem Copyright.toJson_ranked : ∀ x, Ranked alternatives (Copyright.toJson x) := by
  intro x
  rw [Copyright.toJson]
  refine ranked_mk (by ranks) ?_
  ranked_members

theorem Method.toJson_ranked : ∀ x, Ranked alternatives (Method.toJson x) := by
  intro x
  rw [Method.toJson]
  refine ranked_mk (by ranks) ?_
  ranked_members

theorem Identity.toJson_ranked : ∀ x, Ranked alternatives (Identity.toJson x) := by
  intro x
  rw [Identity.toJson]
  refine ranked_mk (by ranks) ?_
  ranked_members
  all_goals first
      | exact Method.toJson_ranked _

theorem AttachedText.toJson_ranked : ∀ x, Ranked alternatives (AttachedText.toJson x) := by
  intro x
  rw [AttachedText.toJson]
  refine ranked_mk (by ranks) ?_
  ranked_members

theorem LicenseContact.toJson_ranked : ∀ x, Ranked alternatives (LicenseContact.toJson x) := by
  intro x
  cases x <;> rw [LicenseContact.toJson]
  all_goals first
    | with_reducible refine ranked_mk (by ranks) ?_
    | skip
  all_goals ranked_members
  all_goals first
      | exact OrganizationalContact.toJson_ranked _
      | exact OrganizationalEntity.toJson_ranked _

theorem Licensing.toJson_ranked : ∀ x, Ranked alternatives (Licensing.toJson x) := by
  intro x
  rw [Licensing.toJson]
  refine ranked_mk (by ranks) ?_
  ranked_members
  all_goals first
      | exact LicenseContact.toJson_ranked _

theorem License.toJson_ranked (v : SpecVersion) : ∀ x, Ranked alternatives (License.toJson v x) := by
  intro x
  rw [License.toJson]
  cases x.licenseIdentifier <;> rw [LicenseIdentifier.toFields]
  all_goals
    cases v <;> simp only [since14, since15, List.append_nil, List.cons_append, List.nil_append] <;>
      refine ranked_mk (by ranks) ?_ <;> ranked_members
  all_goals first
      | exact Property.toJson_ranked _
      | exact AttachedText.toJson_ranked _
      | exact Licensing.toJson_ranked _

theorem SpdxExpression.toJson_ranked : ∀ x, Ranked alternatives (SpdxExpression.toJson x) := by
  intro x
  rw [SpdxExpression.toJson]
  refine ranked_mk (by ranks) ?_
  ranked_members

theorem LicenseChoice.toJson_ranked (v : SpecVersion) : ∀ x, Ranked alternatives (LicenseChoice.toJson v x) := by
  intro x
  cases x <;> rw [LicenseChoice.toJson]
  all_goals first
    | with_reducible refine ranked_mk (by ranks) ?_
    | skip
  all_goals ranked_members
  all_goals first
      | exact License.toJson_ranked _ _
      | exact SpdxExpression.toJson_ranked _

theorem Licenses.toJson_ranked (v : SpecVersion) : ∀ x, Ranked alternatives (Licenses.toJson v x) := by
  intro x
  refine ranked_ofList fun _ _ => ?_
  exact LicenseChoice.toJson_ranked v _

theorem Occurrence.toJson_ranked : ∀ x, Ranked alternatives (Occurrence.toJson x) := by
  intro x
  rw [Occurrence.toJson]
  refine ranked_mk (by ranks) ?_
  ranked_members

theorem ComponentEvidence.toJson_ranked (v : SpecVersion) : ∀ x, Ranked alternatives (ComponentEvidence.toJson v x) := by
  intro x
  rw [ComponentEvidence.toJson]
  cases v <;> simp only [since14, since15, List.append_nil, List.cons_append, List.nil_append] <;>
    refine ranked_mk (by ranks) ?_ <;> ranked_members
  all_goals first
      | exact Callstack.toJson_ranked _
      | exact Copyright.toJson_ranked _
      | exact Identity.toJson_ranked _
      | exact Licenses.toJson_ranked _ _
      | exact Occurrence.toJson_ranked _

theorem Hash.toJson_ranked : ∀ x, Ranked alternatives (Hash.toJson x) := by
  intro x
  rw [Hash.toJson]
  refine ranked_mk (by ranks) ?_
  ranked_members

theorem ExternalReference.toJson_ranked : ∀ x, Ranked alternatives (ExternalReference.toJson x) := by
  intro x
  rw [ExternalReference.toJson]
  refine ranked_mk (by ranks) ?_
  ranked_members
  all_goals first
      | exact Hash.toJson_ranked _

theorem Considerations.toJson_ranked : ∀ x, Ranked alternatives (Considerations.toJson x) := by
  intro x
  exact .obj (by decide) fun _ h => nomatch h

theorem Dataset.toJson_ranked : ∀ x, Ranked alternatives (Dataset.toJson x) := by
  intro x
  cases x <;> rw [Dataset.toJson]
  all_goals first
    | with_reducible refine ranked_mk (by ranks) ?_
    | skip
  all_goals ranked_members
  all_goals first
      | exact ComponentData.toJson_ranked _

theorem MLParameter.toJson_ranked : ∀ x, Ranked alternatives (MLParameter.toJson x) := by
  intro x
  rw [MLParameter.toJson]
  refine ranked_mk (by ranks) ?_
  ranked_members

theorem ModelParametersApproach.toJson_ranked : ∀ x, Ranked alternatives (ModelParametersApproach.toJson x) := by
  intro x
  rw [ModelParametersApproach.toJson]
  refine ranked_mk (by ranks) ?_
  ranked_members

theorem ModelParameters.toJson_ranked : ∀ x, Ranked alternatives (ModelParameters.toJson x) := by
  intro x
  rw [ModelParameters.toJson]
  refine ranked_mk (by ranks) ?_
  ranked_members
  all_goals first
      | exact Dataset.toJson_ranked _
      | exact MLParameter.toJson_ranked _
      | exact ModelParametersApproach.toJson_ranked _

theorem ConfidenceInterval.toJson_ranked : ∀ x, Ranked alternatives (ConfidenceInterval.toJson x) := by
  intro x
  rw [ConfidenceInterval.toJson]
  refine ranked_mk (by ranks) ?_
  ranked_members

theorem PerformanceMetric.toJson_ranked : ∀ x, Ranked alternatives (PerformanceMetric.toJson x) := by
  intro x
  rw [PerformanceMetric.toJson]
  refine ranked_mk (by ranks) ?_
  ranked_members
  all_goals first
      | exact ConfidenceInterval.toJson_ranked _

theorem QuantitativeAnalysis.toJson_ranked : ∀ x, Ranked alternatives (QuantitativeAnalysis.toJson x) := by
  intro x
  rw [QuantitativeAnalysis.toJson]
  refine ranked_mk (by ranks) ?_
  ranked_members
  all_goals first
      | exact GraphicsCollection.toJson_ranked _
      | exact PerformanceMetric.toJson_ranked _

theorem ModelCard.toJson_ranked : ∀ x, Ranked alternatives (ModelCard.toJson x) := by
  intro x
  rw [ModelCard.toJson]
  refine ranked_mk (by ranks) ?_
  ranked_members
  all_goals first
      | exact Property.toJson_ranked _
      | exact Considerations.toJson_ranked _
      | exact ModelParameters.toJson_ranked _
      | exact QuantitativeAnalysis.toJson_ranked _

theorem Diff.toJson_ranked : ∀ x, Ranked alternatives (Diff.toJson x) := by
  intro x
  rw [Diff.toJson]
  refine ranked_mk (by ranks) ?_
  ranked_members
  all_goals first
      | exact AttachedText.toJson_ranked _

theorem Source.toJson_ranked : ∀ x, Ranked alternatives (Source.toJson x) := by
  intro x
  rw [Source.toJson]
  refine ranked_mk (by ranks) ?_
  ranked_members

theorem Issue.toJson_ranked : ∀ x, Ranked alternatives (Issue.toJson x) := by
  intro x
  rw [Issue.toJson]
  refine ranked_mk (by ranks) ?_
  ranked_members
  all_goals first
      | exact Source.toJson_ranked _

theorem Patch.toJson_ranked : ∀ x, Ranked alternatives (Patch.toJson x) := by
  intro x
  rw [Patch.toJson]
  refine ranked_mk (by ranks) ?_
  ranked_members
  all_goals first
      | exact Diff.toJson_ranked _
      | exact Issue.toJson_ranked _

theorem Signer.toJson_ranked : ∀ x, Ranked alternatives (Signer.toJson x) := by
  intro x
  rw [Signer.toJson]
  refine ranked_mk (by ranks) ?_
  ranked_members
  all_goals first
      | exact Algorithm.toJson_ranked _

theorem Signature.toJson_ranked : ∀ x, Ranked alternatives (Signature.toJson x) := by
  intro x
  cases x <;> rw [Signature.toJson]
  all_goals first
    | with_reducible refine ranked_mk (by ranks) ?_
    | skip
  all_goals ranked_members
  all_goals first
      | exact Signer.toJson_ranked _

theorem Swid.toJson_ranked : ∀ x, Ranked alternatives (Swid.toJson x) := by
  intro x
  rw [Swid.toJson]
  refine ranked_mk (by ranks) ?_
  ranked_members
  all_goals first
      | exact AttachedText.toJson_ranked _

variable [F32Format]

theorem Pedigree.toJson_ranked {v : SpecVersion} {x : Pedigree}
    (h : ∀ y ∈ x.children, Ranked alternatives (Component.toJson v y)) : Ranked alternatives (Pedigree.toJson v x) := by
  rw [Pedigree.toJson_eq]
  refine ranked_mk (by ranks) (ranked_cons (ranked_map fun l hl => ranked_ofList fun y hy => h y (Pedigree.mem_ancestors hl hy))
    (ranked_cons (ranked_map fun l hl => ranked_ofList fun y hy => h y (Pedigree.mem_descendants hl hy))
    (ranked_cons (ranked_map fun l hl => ranked_ofList fun y hy => h y (Pedigree.mem_variants hl hy)) ?_)))
  ranked_members
  · exact Commit.toJson_ranked _
  · exact Patch.toJson_ranked _

theorem Component.toJson_ranked (v : SpecVersion) (x : Component) : Ranked alternatives (Component.toJson v x) := by
  induction x using Component.ind with
  | h x ih =>
    have hc : ∀ j, x.components.map (Json.ofList (Component.toJson v)) = some j → Ranked alternatives j :=
      ranked_map fun l hl => ranked_ofList fun y hy => ih y (Component.mem_components hl hy)
    have hp : ∀ j, x.pedigree.map (Pedigree.toJson v) = some j → Ranked alternatives j :=
      ranked_map fun p hp => Pedigree.toJson_ranked fun y hy => ih y (Component.mem_pedigree hp hy)
    rw [Component.toJson_eq]
    cases v <;> simp only [since14, since15, List.append_nil, List.cons_append, List.nil_append] <;>
      refine ranked_mk (by ranks) ?_ <;> ranked_members
    all_goals first
      | exact Commit.toJson_ranked _
      | exact Property.toJson_ranked _
      | exact OrganizationalEntity.toJson_ranked _
      | exact ComponentData.toJson_ranked _
      | exact Licenses.toJson_ranked _ _
      | exact ComponentEvidence.toJson_ranked _ _
      | exact Hash.toJson_ranked _
      | exact ExternalReference.toJson_ranked _
      | exact ModelCard.toJson_ranked _
      | exact Patch.toJson_ranked _
      | exact Signature.toJson_ranked _
      | exact Swid.toJson_ranked _

theorem DataClassification.toJson_ranked : ∀ x, Ranked alternatives (DataClassification.toJson x) := by
  intro x
  rw [DataClassification.toJson]
  refine ranked_mk (by ranks) ?_
  ranked_members

theorem ServiceData.toJson_ranked : ∀ x, Ranked alternatives (ServiceData.toJson x) := by
  intro x
  rw [ServiceData.toJson]
  refine ranked_mk (by ranks) ?_
  ranked_members
  all_goals first
      | exact DataGovernance.toJson_ranked _

theorem ServiceDataChoice.toJson_ranked (v : SpecVersion) : ∀ x, Ranked alternatives (ServiceDataChoice.toJson v x) := by
  intro x
  cases x <;> rw [ServiceDataChoice.toJson]
  all_goals try cases v
  all_goals try simp only [since15]
  all_goals first
    | with_reducible refine ranked_mk (by ranks) ?_
    | skip
  all_goals ranked_members
  all_goals first
      | exact DataClassification.toJson_ranked _
      | exact ServiceData.toJson_ranked _

theorem Service.toJson_ranked (v : SpecVersion) (x : Service) : Ranked alternatives (Service.toJson v x) := by
  induction x using Service.ind with
  | h x ih =>
    have hc : ∀ j, x.services.map (Json.ofList (Service.toJson v)) = some j → Ranked alternatives j :=
      ranked_map fun l hl => ranked_ofList fun y hy => ih y (Service.mem_services hl hy)
    rw [Service.toJson_eq]
    cases v <;> simp only [since14, since15, List.append_nil, List.cons_append, List.nil_append] <;>
      refine ranked_mk (by ranks) ?_ <;> ranked_members
    all_goals first
      | exact Property.toJson_ranked _
      | exact OrganizationalEntity.toJson_ranked _
      | exact Licenses.toJson_ranked _ _
      | exact ExternalReference.toJson_ranked _
      | exact Signature.toJson_ranked _
      | exact ServiceDataChoice.toJson_ranked _ _

theorem Annotator.toJson_ranked (v : SpecVersion) : ∀ x, Ranked alternatives (Annotator.toJson v x) := by
  intro x
  cases x <;> rw [Annotator.toJson]
  all_goals first
    | with_reducible refine ranked_mk (by ranks) ?_
    | skip
  all_goals ranked_members
  all_goals first
      | exact OrganizationalContact.toJson_ranked _
      | exact OrganizationalEntity.toJson_ranked _
      | exact Component.toJson_ranked _ _
      | exact Service.toJson_ranked _ _

theorem Annotation.toJson_ranked (v : SpecVersion) : ∀ x, Ranked alternatives (Annotation.toJson v x) := by
  intro x
  rw [Annotation.toJson]
  refine ranked_mk (by ranks) ?_
  ranked_members
  all_goals first
      | exact Signature.toJson_ranked _
      | exact Annotator.toJson_ranked _ _

theorem Composition.toJson_ranked (v : SpecVersion) : ∀ x, Ranked alternatives (Composition.toJson v x) := by
  intro x
  rw [Composition.toJson]
  cases v <;> simp only [since14, since15, List.append_nil, List.cons_append, List.nil_append] <;>
    refine ranked_mk (by ranks) ?_ <;> ranked_members
  all_goals first
      | exact Signature.toJson_ranked _

theorem Dependency.toJson_ranked : ∀ x, Ranked alternatives (Dependency.toJson x) := by
  intro x
  rw [Dependency.toJson]
  refine ranked_mk (by ranks) ?_
  ranked_members

theorem EnvironmentVar.toJson_ranked : ∀ x, Ranked alternatives (EnvironmentVar.toJson x) := by
  intro x
  cases x <;> rw [EnvironmentVar.toJson]
  all_goals first
    | with_reducible refine ranked_mk (by ranks) ?_
    | skip
  all_goals ranked_members

theorem Parameter.toJson_ranked : ∀ x, Ranked alternatives (Parameter.toJson x) := by
  intro x
  rw [Parameter.toJson]
  refine ranked_mk (by ranks) ?_
  ranked_members

theorem ResourceReference.toJson_ranked : ∀ x, Ranked alternatives (ResourceReference.toJson x) := by
  intro x
  rw [ResourceReference.toJson]
  cases x <;> refine ranked_mk (by simp only [ResourceReference.toFields]; ranks) ?_ <;> rw [ResourceReference.toFields] <;> ranked_members
  exact ExternalReference.toJson_ranked _

theorem Input.toJson_ranked : ∀ x, Ranked alternatives (Input.toJson x) := by
  intro x
  rw [Input.toJson]
  cases x.required <;> rw [RequiredInputField.toFields]
  all_goals
    simp only [List.cons_append, List.nil_append]
    refine ranked_mk (by ranks) ?_
    ranked_members
  all_goals first
      | exact Attachment.toJson_ranked _
      | exact Property.toJson_ranked _
      | exact EnvironmentVar.toJson_ranked _
      | exact Parameter.toJson_ranked _
      | exact ResourceReference.toJson_ranked _

theorem Output.toJson_ranked : ∀ x, Ranked alternatives (Output.toJson x) := by
  intro x
  rw [Output.toJson]
  cases x.required <;> rw [RequiredOutputField.toFields]
  all_goals
    simp only [List.cons_append, List.nil_append]
    refine ranked_mk (by ranks) ?_
    ranked_members
  all_goals first
      | exact Attachment.toJson_ranked _
      | exact Property.toJson_ranked _
      | exact EnvironmentVar.toJson_ranked _
      | exact Parameter.toJson_ranked _
      | exact ResourceReference.toJson_ranked _

theorem Command.toJson_ranked : ∀ x, Ranked alternatives (Command.toJson x) := by
  intro x
  rw [Command.toJson]
  refine ranked_mk (by ranks) ?_
  ranked_members
  all_goals first
      | exact Property.toJson_ranked _

theorem Step.toJson_ranked : ∀ x, Ranked alternatives (Step.toJson x) := by
  intro x
  rw [Step.toJson]
  refine ranked_mk (by ranks) ?_
  ranked_members
  all_goals first
      | exact Property.toJson_ranked _
      | exact Command.toJson_ranked _

theorem Condition.toJson_ranked : ∀ x, Ranked alternatives (Condition.toJson x) := by
  intro x
  rw [Condition.toJson]
  refine ranked_mk (by ranks) ?_
  ranked_members
  all_goals first
      | exact Property.toJson_ranked _

theorem TriggerEvent.toJson_ranked : ∀ x, Ranked alternatives (TriggerEvent.toJson x) := by
  intro x
  rw [TriggerEvent.toJson]
  refine ranked_mk (by ranks) ?_
  ranked_members
  all_goals first
      | exact Attachment.toJson_ranked _
      | exact Property.toJson_ranked _
      | exact ResourceReference.toJson_ranked _

theorem Trigger.toJson_ranked : ∀ x, Ranked alternatives (Trigger.toJson x) := by
  intro x
  rw [Trigger.toJson]
  refine ranked_mk (by ranks) ?_
  ranked_members
  all_goals first
      | exact Property.toJson_ranked _
      | exact ResourceReference.toJson_ranked _
      | exact Input.toJson_ranked _
      | exact Output.toJson_ranked _
      | exact Condition.toJson_ranked _
      | exact TriggerEvent.toJson_ranked _

theorem Volume.toJson_ranked : ∀ x, Ranked alternatives (Volume.toJson x) := by
  intro x
  rw [Volume.toJson]
  refine ranked_mk (by ranks) ?_
  ranked_members
  all_goals first
      | exact Property.toJson_ranked _

theorem Workspace.toJson_ranked : ∀ x, Ranked alternatives (Workspace.toJson x) := by
  intro x
  rw [Workspace.toJson]
  refine ranked_mk (by ranks) ?_
  ranked_members
  all_goals first
      | exact Property.toJson_ranked _
      | exact ResourceReference.toJson_ranked _
      | exact Volume.toJson_ranked _

theorem WorkflowTask.toJson_ranked : ∀ x, Ranked alternatives (WorkflowTask.toJson x) := by
  intro x
  rw [WorkflowTask.toJson]
  refine ranked_mk (by ranks) ?_
  ranked_members
  all_goals first
      | exact Property.toJson_ranked _
      | exact Dependency.toJson_ranked _
      | exact ResourceReference.toJson_ranked _
      | exact Input.toJson_ranked _
      | exact Output.toJson_ranked _
      | exact Step.toJson_ranked _
      | exact Trigger.toJson_ranked _
      | exact Workspace.toJson_ranked _

theorem Workflow.toJson_ranked : ∀ x, Ranked alternatives (Workflow.toJson x) := by
  intro x
  rw [Workflow.toJson]
  refine ranked_mk (by ranks) ?_
  ranked_members
  all_goals first
      | exact Property.toJson_ranked _
      | exact Dependency.toJson_ranked _
      | exact ResourceReference.toJson_ranked _
      | exact Input.toJson_ranked _
      | exact Output.toJson_ranked _
      | exact Step.toJson_ranked _
      | exact Trigger.toJson_ranked _
      | exact Workspace.toJson_ranked _
      | exact WorkflowTask.toJson_ranked _

theorem Formula.toJson_ranked (v : SpecVersion) : ∀ x, Ranked alternatives (Formula.toJson v x) := by
  intro x
  rw [Formula.toJson]
  refine ranked_mk (by ranks) ?_
  ranked_members
  all_goals first
      | exact Property.toJson_ranked _
      | exact Component.toJson_ranked _ _
      | exact Service.toJson_ranked _ _
      | exact Workflow.toJson_ranked _

theorem LifecycleDescription.toJson_ranked : ∀ x, Ranked alternatives (LifecycleDescription.toJson x) := by
  intro x
  rw [LifecycleDescription.toJson]
  refine ranked_mk (by ranks) ?_
  ranked_members

theorem Lifecycle.toJson_ranked : ∀ x, Ranked alternatives (Lifecycle.toJson x) := by
  intro x
  cases x <;> rw [Lifecycle.toJson]
  all_goals first
    | with_reducible refine ranked_mk (by ranks) ?_
    | skip
  all_goals ranked_members
  all_goals first
      | exact LifecycleDescription.toJson_ranked _

theorem Tool.toJson_ranked (v : SpecVersion) : ∀ x, Ranked alternatives (Tool.toJson v x) := by
  intro x
  rw [Tool.toJson]
  cases v <;> simp only [since14, since15, List.append_nil, List.cons_append, List.nil_append] <;>
    refine ranked_mk (by ranks) ?_ <;> ranked_members
  all_goals first
      | exact Hash.toJson_ranked _
      | exact ExternalReference.toJson_ranked _

theorem Tools.toJson_ranked (v : SpecVersion) : ∀ x, Ranked alternatives (Tools.toJson v x) := by
  intro x
  cases x <;> rw [Tools.toJson]
  all_goals try cases v
  all_goals try simp only [since15]
  all_goals first
    | with_reducible refine ranked_mk (by ranks) ?_
    | skip
  all_goals ranked_members
  all_goals first
      | exact Component.toJson_ranked _ _
      | exact Service.toJson_ranked _ _
      | exact Tool.toJson_ranked _ _

theorem Metadata.toJson_ranked (v : SpecVersion) : ∀ x, Ranked alternatives (Metadata.toJson v x) := by
  intro x
  rw [Metadata.toJson]
  cases v <;> simp only [since14, since15, List.append_nil, List.cons_append, List.nil_append] <;>
    refine ranked_mk (by ranks) ?_ <;> ranked_members
  all_goals first
      | exact Property.toJson_ranked _
      | exact OrganizationalContact.toJson_ranked _
      | exact OrganizationalEntity.toJson_ranked _
      | exact Licenses.toJson_ranked _ _
      | exact Component.toJson_ranked _ _
      | exact Lifecycle.toJson_ranked _
      | exact Tools.toJson_ranked _ _

theorem VulnerabilityAnalysis.toJson_ranked (v : SpecVersion) : ∀ x, Ranked alternatives (VulnerabilityAnalysis.toJson v x) := by
  intro x
  rw [VulnerabilityAnalysis.toJson]
  cases v <;> simp only [since14, since15, List.append_nil, List.cons_append, List.nil_append] <;>
    refine ranked_mk (by ranks) ?_ <;> ranked_members

theorem VulnerabilityCredits.toJson_ranked : ∀ x, Ranked alternatives (VulnerabilityCredits.toJson x) := by
  intro x
  rw [VulnerabilityCredits.toJson]
  refine ranked_mk (by ranks) ?_
  ranked_members
  all_goals first
      | exact OrganizationalContact.toJson_ranked _
      | exact OrganizationalEntity.toJson_ranked _

theorem VulnerabilityProofOfConcept.toJson_ranked : ∀ x, Ranked alternatives (VulnerabilityProofOfConcept.toJson x) := by
  intro x
  rw [VulnerabilityProofOfConcept.toJson]
  refine ranked_mk (by ranks) ?_
  ranked_members
  all_goals first
      | exact Attachment.toJson_ranked _

theorem VulnerabilitySource.toJson_ranked : ∀ x, Ranked alternatives (VulnerabilitySource.toJson x) := by
  intro x
  rw [VulnerabilitySource.toJson]
  refine ranked_mk (by ranks) ?_
  ranked_members

theorem VulnerabilityRating.toJson_ranked : ∀ x, Ranked alternatives (VulnerabilityRating.toJson x) := by
  intro x
  rw [VulnerabilityRating.toJson]
  refine ranked_mk (by ranks) ?_
  ranked_members
  all_goals first
      | exact VulnerabilitySource.toJson_ranked _

theorem VulnerabilityReference.toJson_ranked : ∀ x, Ranked alternatives (VulnerabilityReference.toJson x) := by
  intro x
  rw [VulnerabilityReference.toJson]
  refine ranked_mk (by ranks) ?_
  ranked_members
  all_goals first
      | exact VulnerabilitySource.toJson_ranked _

theorem TargetVersion.toJson_ranked : ∀ x, Ranked alternatives (TargetVersion.toJson x) := by
  intro x
  rw [TargetVersion.toJson]
  cases x.versionRange <;> rw [VersionRange.toFields]
  all_goals
    simp only [List.cons_append, List.nil_append]
    refine ranked_mk (by ranks) ?_
    ranked_members

theorem VulnerabilityTarget.toJson_ranked : ∀ x, Ranked alternatives (VulnerabilityTarget.toJson x) := by
  intro x
  rw [VulnerabilityTarget.toJson]
  refine ranked_mk (by ranks) ?_
  ranked_members
  all_goals first
      | exact TargetVersion.toJson_ranked _

theorem Vulnerability.toJson_ranked (v : SpecVersion) : ∀ x, Ranked alternatives (Vulnerability.toJson v x) := by
  intro x
  rw [Vulnerability.toJson]
  cases v <;> simp only [since14, since15, List.append_nil, List.cons_append, List.nil_append] <;>
    refine ranked_mk (by ranks) ?_ <;> ranked_members
  all_goals first
      | exact Advisory.toJson_ranked _
      | exact Property.toJson_ranked _
      | exact Tools.toJson_ranked _ _
      | exact VulnerabilityAnalysis.toJson_ranked _ _
      | exact VulnerabilityCredits.toJson_ranked _
      | exact VulnerabilityProofOfConcept.toJson_ranked _
      | exact VulnerabilitySource.toJson_ranked _
      | exact VulnerabilityRating.toJson_ranked _
      | exact VulnerabilityReference.toJson_ranked _
      | exact VulnerabilityTarget.toJson_ranked _

theorem Bom.toJson_ranked (v : SpecVersion) : ∀ x, Ranked alternatives (Bom.toJson v x) := by
  intro x
  rw [Bom.toJson]
  cases v <;> simp only [since14, since15, List.append_nil, List.cons_append, List.nil_append] <;>
    refine ranked_mk (by ranks) ?_ <;> ranked_members
  all_goals first
      | exact Property.toJson_ranked _
      | exact ExternalReference.toJson_ranked _
      | exact Signature.toJson_ranked _
      | exact Component.toJson_ranked _ _
      | exact Service.toJson_ranked _ _
      | exact Annotation.toJson_ranked _ _
      | exact Composition.toJson_ranked _ _
      | exact Dependency.toJson_ranked _
      | exact Formula.toJson_ranked _ _
      | exact Metadata.toJson_ranked _ _
      | exact Vulnerability.toJson_ranked _ _

end Cdx
