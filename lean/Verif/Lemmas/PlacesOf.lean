import Verif.Lemmas.Places

/-!
# The places of the messages of a report: elements

For each type: its validation reports messages exactly at the places of its own violations and,
below the places of its parts, at the places of their messages.
-/

namespace Cdx

open Spec

set_option linter.unusedSimpArgs false
set_option linter.unusedVariables false

/-- The name under which the required field of an input is validated. -/
def Input.requiredName : RequiredInputField → String
  | .data _ => "data"
  | _ => "resource"

/-- The name under which the required field of an output is validated. -/
def Output.requiredName : RequiredOutputField → String
  | .data _ => "data"
  | _ => "resource"

theorem at_input {E : VEnv} {v : SpecVersion} (r : RequiredInputField) :
    Notes (match r with
      | .resource r => addStruct "resource" r (ResourceReference.validate E v)
      | .data a => addStruct "data" a (Attachment.validate E v)
      | _ => .ok) (Input.requiredName r) (Under E v (inputAt r)) := by
  cases r with
  | resource r => exact at_struct "resource" .resourceReference r fun _ => rfl
  | parameters l => exact at_none _ rfl
  | environmentVars l => exact at_none _ rfl
  | data a => exact at_struct "data" .attachment a fun _ => rfl

theorem at_output {E : VEnv} {v : SpecVersion} (r : RequiredOutputField) :
    Notes (match r with
      | .resource r => addStruct "resource" r (ResourceReference.validate E v)
      | .data a => addStruct "data" a (Attachment.validate E v)
      | _ => .ok) (Output.requiredName r) (Under E v (outputAt r)) := by
  cases r with
  | resource r => exact at_struct "resource" .resourceReference r fun _ => rfl
  | environmentVars l => exact at_none _ rfl
  | data a => exact at_struct "data" .attachment a fun _ => rfl

theorem fault_trigger (E : VEnv) (v : SpecVersion) (x : Trigger) (p : Place) :
    (Elem.trigger x).fault E v p ↔ Again "conditions" x.conditions p ∨ Again "inputs" x.inputs p ∨
      Again "outputs" x.outputs p := Iff.rfl

theorem fault_workspace (E : VEnv) (v : SpecVersion) (x : Workspace) (p : Place) :
    (Elem.workspace x).fault E v p ↔ Again "resource_references" x.resourceReferences p := Iff.rfl

theorem fault_workflowTask (E : VEnv) (v : SpecVersion) (x : WorkflowTask) (p : Place) :
    (Elem.workflowTask x).fault E v p ↔ Again "steps" x.steps p ∨ Again "inputs" x.inputs p ∨
      Again "outputs" x.outputs p ∨ Again "workspaces" x.workspaces p ∨
      Again "runtime_topology" x.runtimeTopology p := Iff.rfl

theorem fault_workflow (E : VEnv) (v : SpecVersion) (x : Workflow) (p : Place) :
    (Elem.workflow x).fault E v p ↔ Again "tasks" x.tasks p ∨
      Again "task_dependencies" x.taskDependencies p ∨ Again "steps" x.steps p ∨
      Again "inputs" x.inputs p ∨ Again "outputs" x.outputs p ∨
      Again "workspaces" x.workspaces p ∨ Again "runtime_topology" x.runtimeTopology p := Iff.rfl

theorem places_attachment (E : VEnv) (v : SpecVersion) (x : Attachment) (p : Place) :
    TellsOf (Attachment.validate E v x) p ↔
      (Elem.attachment x).fault E v p ∨ Under E v ((Elem.attachment x).located v) p := by
  unfold Attachment.validate
  refine (notes_chain [
      ("encoding", Under E v (optAt "encoding" .attachmentEncoding x.encoding))]
    (notesCons (at_fieldOption "encoding" .attachmentEncoding x.encoding (fun _ => rfl)) <| .nil)
    (by simp only [List.map]; decide) p).trans ?_
  show _ ↔ (¬ True ∧ p = []) ∨ Under E v (optAt "encoding" .attachmentEncoding x.encoding) p
  simp only [List.mem_cons, exists_eq_or_imp, List.not_mem_nil, false_and, exists_false, exists_eq_left, not_true_eq_false, under_append, under_nil, or_false, false_or, or_assoc]

theorem places_organizationalContact (E : VEnv) (v : SpecVersion) (x : OrganizationalContact) (p : Place) :
    TellsOf (OrganizationalContact.validate E v x) p ↔
      (Elem.organizationalContact x).fault E v p ∨ Under E v ((Elem.organizationalContact x).located v) p := by
  unfold OrganizationalContact.validate
  refine (notes_chain [
      ("bom-ref", Under E v (optAt "bom-ref" .bomRefAttribute x.bomRef)),
      ("name", Under E v (optAt "name" .normalizedString x.name)),
      ("email", Under E v (optAt "email" .normalizedString x.email)),
      ("phone", Under E v (optAt "phone" .normalizedString x.phone))]
    (notesCons (at_fieldOption "bom-ref" .bomRefAttribute x.bomRef (fun _ => rfl)) <|
      notesCons (at_fieldOption "name" .normalizedString x.name (fun _ => rfl)) <|
      notesCons (at_fieldOption "email" .normalizedString x.email (fun _ => rfl)) <|
      notesCons (at_fieldOption "phone" .normalizedString x.phone (fun _ => rfl)) <| .nil)
    (by simp only [List.map]; decide) p).trans ?_
  show _ ↔ (¬ True ∧ p = []) ∨ Under E v (optAt "bom-ref" .bomRefAttribute x.bomRef ++ optAt "name" .normalizedString x.name ++ optAt "email" .normalizedString x.email ++ optAt "phone" .normalizedString x.phone) p
  simp only [List.mem_cons, exists_eq_or_imp, List.not_mem_nil, false_and, exists_false, exists_eq_left, not_true_eq_false, under_append, under_nil, or_false, false_or, or_assoc]

theorem places_organizationalEntity (E : VEnv) (v : SpecVersion) (x : OrganizationalEntity) (p : Place) :
    TellsOf (OrganizationalEntity.validate E v x) p ↔
      (Elem.organizationalEntity x).fault E v p ∨ Under E v ((Elem.organizationalEntity x).located v) p := by
  unfold OrganizationalEntity.validate
  refine (notes_chain [
      ("name", Under E v (optAt "name" .normalizedString x.name)),
      ("url", Under E v (manyAt "url" .uri x.url)),
      ("contact", Under E v (manyAt "contact" .organizationalContact x.contact))]
    (notesCons (at_fieldOption "name" .normalizedString x.name (fun _ => rfl)) <|
      notesCons (at_listOption "url" .uri x.url (fun _ => rfl)) <|
      notesCons (at_listOption "contact" .organizationalContact x.contact (fun _ => rfl)) <| .nil)
    (by simp only [List.map]; decide) p).trans ?_
  show _ ↔ (¬ True ∧ p = []) ∨ Under E v (optAt "name" .normalizedString x.name ++ manyAt "url" .uri x.url ++ manyAt "contact" .organizationalContact x.contact) p
  simp only [List.mem_cons, exists_eq_or_imp, List.not_mem_nil, false_and, exists_false, exists_eq_left, not_true_eq_false, under_append, under_nil, or_false, false_or, or_assoc]

theorem places_property (E : VEnv) (v : SpecVersion) (x : Property) (p : Place) :
    TellsOf (Property.validate E v x) p ↔
      (Elem.property x).fault E v p ∨ Under E v ((Elem.property x).located v) p := by
  unfold Property.validate
  refine (notes_chain [
      ("value", Under E v (oneAt "value" (.normalizedString x.value)))]
    (notesCons (at_field "value" .normalizedString x.value (fun _ => rfl)) <| .nil)
    (by simp only [List.map]; decide) p).trans ?_
  show _ ↔ (¬ True ∧ p = []) ∨ Under E v (oneAt "value" (.normalizedString x.value)) p
  simp only [List.mem_cons, exists_eq_or_imp, List.not_mem_nil, false_and, exists_false, exists_eq_left, not_true_eq_false, under_append, under_nil, or_false, false_or, or_assoc]

theorem places_hash (E : VEnv) (v : SpecVersion) (x : Hash) (p : Place) :
    TellsOf (Hash.validate E v x) p ↔
      (Elem.hash x).fault E v p ∨ Under E v ((Elem.hash x).located v) p := by
  unfold Hash.validate
  refine (notes_chain [
      ("alg", Under E v (oneAt "alg" (.hashAlgorithm x.alg))),
      ("content", Under E v (oneAt "content" (.hashValue x.content)))]
    (notesCons (at_field "alg" .hashAlgorithm x.alg (fun _ => rfl)) <|
      notesCons (at_field "content" .hashValue x.content (fun _ => rfl)) <| .nil)
    (by simp only [List.map]; decide) p).trans ?_
  show _ ↔ (¬ True ∧ p = []) ∨ Under E v (oneAt "alg" (.hashAlgorithm x.alg) ++ oneAt "content" (.hashValue x.content)) p
  simp only [List.mem_cons, exists_eq_or_imp, List.not_mem_nil, false_and, exists_false, exists_eq_left, not_true_eq_false, under_append, under_nil, or_false, false_or, or_assoc]

theorem places_externalReference (E : VEnv) (v : SpecVersion) (x : ExternalReference) (p : Place) :
    TellsOf (ExternalReference.validate E v x) p ↔
      (Elem.externalReference x).fault E v p ∨ Under E v ((Elem.externalReference x).located v) p := by
  unfold ExternalReference.validate
  refine (notes_chain [
      ("external_reference_type", Under E v (oneAt "external_reference_type" (.externalReferenceType x.externalReferenceType))),
      ("url", Under E v (oneAt "url" (.refUri x.url))),
      ("hashes", Under E v (soleAt "hashes" (manyAt "inner" .hash x.hashes)))]
    (notesCons (at_field "external_reference_type" .externalReferenceType x.externalReferenceType (fun _ => rfl)) <|
      notesCons (at_field "url" .refUri x.url (fun _ => rfl)) <|
      notesCons (at_sole "hashes" .hash x.hashes (fun _ => rfl) (fun _ => rfl)) <| .nil)
    (by simp only [List.map]; decide) p).trans ?_
  show _ ↔ (¬ True ∧ p = []) ∨ Under E v (oneAt "external_reference_type" (.externalReferenceType x.externalReferenceType) ++ oneAt "url" (.refUri x.url) ++ soleAt "hashes" (manyAt "inner" .hash x.hashes)) p
  simp only [List.mem_cons, exists_eq_or_imp, List.not_mem_nil, false_and, exists_false, exists_eq_left, not_true_eq_false, under_append, under_nil, or_false, false_or, or_assoc]

theorem places_licensing (E : VEnv) (v : SpecVersion) (x : Licensing) (p : Place) :
    TellsOf (Licensing.validate E v x) p ↔
      (Elem.licensing x).fault E v p ∨ Under E v ((Elem.licensing x).located v) p := by
  unfold Licensing.validate
  refine (notes_chain [
      ("alt_ids", Under E v (manyAt "alt_ids" .normalizedString x.altIds)),
      ("licensor", Under E v (optAt "licensor" .licenseContact x.licensor)),
      ("licensee", Under E v (optAt "licensee" .licenseContact x.licensee)),
      ("purchaser", Under E v (optAt "purchaser" .licenseContact x.purchaser)),
      ("license_types", Under E v (manyAt "license_types" .licenseType x.licenseTypes)),
      ("last_renewal", Under E v (optAt "last_renewal" .dateTime x.lastRenewal)),
      ("expiration", Under E v (optAt "expiration" .dateTime x.expiration))]
    (notesCons (at_listOption "alt_ids" .normalizedString x.altIds (fun _ => rfl)) <|
      notesCons (at_structOption "licensor" .licenseContact x.licensor (fun _ => rfl)) <|
      notesCons (at_structOption "licensee" .licenseContact x.licensee (fun _ => rfl)) <|
      notesCons (at_structOption "purchaser" .licenseContact x.purchaser (fun _ => rfl)) <|
      notesCons (at_listOption "license_types" .licenseType x.licenseTypes (fun _ => rfl)) <|
      notesCons (at_fieldOption "last_renewal" .dateTime x.lastRenewal (fun _ => rfl)) <|
      notesCons (at_fieldOption "expiration" .dateTime x.expiration (fun _ => rfl)) <| .nil)
    (by simp only [List.map]; decide) p).trans ?_
  show _ ↔ (¬ True ∧ p = []) ∨ Under E v (manyAt "alt_ids" .normalizedString x.altIds ++ optAt "licensor" .licenseContact x.licensor ++ optAt "licensee" .licenseContact x.licensee ++ optAt "purchaser" .licenseContact x.purchaser ++ manyAt "license_types" .licenseType x.licenseTypes ++ optAt "last_renewal" .dateTime x.lastRenewal ++ optAt "expiration" .dateTime x.expiration) p
  simp only [List.mem_cons, exists_eq_or_imp, List.not_mem_nil, false_and, exists_false, exists_eq_left, not_true_eq_false, under_append, under_nil, or_false, false_or, or_assoc]

theorem places_license (E : VEnv) (v : SpecVersion) (x : License) (p : Place) :
    TellsOf (License.validate E v x) p ↔
      (Elem.license x).fault E v p ∨ Under E v ((Elem.license x).located v) p := by
  unfold License.validate
  refine (notes_chain [
      ("license_identifier", Under E v (oneAt "license_identifier" (.licenseIdentifier x.licenseIdentifier))),
      ("text", Under E v (optAt "text" .attachedText x.text)),
      ("url", Under E v (optAt "url" .uri x.url)),
      ("licensing", Under E v (optAt "licensing" .licensing x.licensing)),
      ("properties", Under E v (below "properties" (manyAt "inner" .property x.properties)))]
    (notesCons (at_struct "license_identifier" .licenseIdentifier x.licenseIdentifier (fun _ => rfl)) <|
      notesCons (at_structOption "text" .attachedText x.text (fun _ => rfl)) <|
      notesCons (at_fieldOption "url" .uri x.url (fun _ => rfl)) <|
      notesCons (at_structOption "licensing" .licensing x.licensing (fun _ => rfl)) <|
      notesCons (at_wrapped "properties" .property x.properties (fun _ => rfl) (fun _ => rfl)) <| .nil)
    (by simp only [List.map]; decide) p).trans ?_
  show _ ↔ (¬ True ∧ p = []) ∨ Under E v (oneAt "license_identifier" (.licenseIdentifier x.licenseIdentifier) ++ optAt "text" .attachedText x.text ++ optAt "url" .uri x.url ++ optAt "licensing" .licensing x.licensing ++ below "properties" (manyAt "inner" .property x.properties)) p
  simp only [List.mem_cons, exists_eq_or_imp, List.not_mem_nil, false_and, exists_false, exists_eq_left, not_true_eq_false, under_append, under_nil, or_false, false_or, or_assoc]

theorem places_identifiableAction (E : VEnv) (v : SpecVersion) (x : IdentifiableAction) (p : Place) :
    TellsOf (IdentifiableAction.validate E v x) p ↔
      (Elem.identifiableAction x).fault E v p ∨ Under E v ((Elem.identifiableAction x).located v) p := by
  unfold IdentifiableAction.validate
  refine (notes_chain [
      ("timestamp", Under E v (optAt "timestamp" .dateTime x.timestamp)),
      ("name", Under E v (optAt "name" .normalizedString x.name)),
      ("email", Under E v (optAt "email" .normalizedString x.email))]
    (notesCons (at_fieldOption "timestamp" .dateTime x.timestamp (fun _ => rfl)) <|
      notesCons (at_fieldOption "name" .normalizedString x.name (fun _ => rfl)) <|
      notesCons (at_fieldOption "email" .normalizedString x.email (fun _ => rfl)) <| .nil)
    (by simp only [List.map]; decide) p).trans ?_
  show _ ↔ (¬ True ∧ p = []) ∨ Under E v (optAt "timestamp" .dateTime x.timestamp ++ optAt "name" .normalizedString x.name ++ optAt "email" .normalizedString x.email) p
  simp only [List.mem_cons, exists_eq_or_imp, List.not_mem_nil, false_and, exists_false, exists_eq_left, not_true_eq_false, under_append, under_nil, or_false, false_or, or_assoc]

theorem places_commit (E : VEnv) (v : SpecVersion) (x : Commit) (p : Place) :
    TellsOf (Commit.validate E v x) p ↔
      (Elem.commit x).fault E v p ∨ Under E v ((Elem.commit x).located v) p := by
  unfold Commit.validate
  refine (notes_chain [
      ("uid", Under E v (optAt "uid" .normalizedString x.uid)),
      ("url", Under E v (optAt "url" .uri x.url)),
      ("author", Under E v (optAt "author" .identifiableAction x.author)),
      ("committer", Under E v (optAt "committer" .identifiableAction x.committer)),
      ("message", Under E v (optAt "message" .normalizedString x.message))]
    (notesCons (at_fieldOption "uid" .normalizedString x.uid (fun _ => rfl)) <|
      notesCons (at_fieldOption "url" .uri x.url (fun _ => rfl)) <|
      notesCons (at_structOption "author" .identifiableAction x.author (fun _ => rfl)) <|
      notesCons (at_structOption "committer" .identifiableAction x.committer (fun _ => rfl)) <|
      notesCons (at_fieldOption "message" .normalizedString x.message (fun _ => rfl)) <| .nil)
    (by simp only [List.map]; decide) p).trans ?_
  show _ ↔ (¬ True ∧ p = []) ∨ Under E v (optAt "uid" .normalizedString x.uid ++ optAt "url" .uri x.url ++ optAt "author" .identifiableAction x.author ++ optAt "committer" .identifiableAction x.committer ++ optAt "message" .normalizedString x.message) p
  simp only [List.mem_cons, exists_eq_or_imp, List.not_mem_nil, false_and, exists_false, exists_eq_left, not_true_eq_false, under_append, under_nil, or_false, false_or, or_assoc]

theorem places_diff (E : VEnv) (v : SpecVersion) (x : Diff) (p : Place) :
    TellsOf (Diff.validate E v x) p ↔
      (Elem.diff x).fault E v p ∨ Under E v ((Elem.diff x).located v) p := by
  unfold Diff.validate
  refine (notes_chain [
      ("text", Under E v (optAt "text" .attachedText x.text)),
      ("url", Under E v (optAt "url" .uri x.url))]
    (notesCons (at_structOption "text" .attachedText x.text (fun _ => rfl)) <|
      notesCons (at_fieldOption "url" .uri x.url (fun _ => rfl)) <| .nil)
    (by simp only [List.map]; decide) p).trans ?_
  show _ ↔ (¬ True ∧ p = []) ∨ Under E v (optAt "text" .attachedText x.text ++ optAt "url" .uri x.url) p
  simp only [List.mem_cons, exists_eq_or_imp, List.not_mem_nil, false_and, exists_false, exists_eq_left, not_true_eq_false, under_append, under_nil, or_false, false_or, or_assoc]

theorem places_source (E : VEnv) (v : SpecVersion) (x : Source) (p : Place) :
    TellsOf (Source.validate E v x) p ↔
      (Elem.source x).fault E v p ∨ Under E v ((Elem.source x).located v) p := by
  unfold Source.validate
  refine (notes_chain [
      ("name", Under E v (optAt "name" .normalizedString x.name)),
      ("url", Under E v (optAt "url" .uri x.url))]
    (notesCons (at_fieldOption "name" .normalizedString x.name (fun _ => rfl)) <|
      notesCons (at_fieldOption "url" .uri x.url (fun _ => rfl)) <| .nil)
    (by simp only [List.map]; decide) p).trans ?_
  show _ ↔ (¬ True ∧ p = []) ∨ Under E v (optAt "name" .normalizedString x.name ++ optAt "url" .uri x.url) p
  simp only [List.mem_cons, exists_eq_or_imp, List.not_mem_nil, false_and, exists_false, exists_eq_left, not_true_eq_false, under_append, under_nil, or_false, false_or, or_assoc]

theorem places_issue (E : VEnv) (v : SpecVersion) (x : Issue) (p : Place) :
    TellsOf (Issue.validate E v x) p ↔
      (Elem.issue x).fault E v p ∨ Under E v ((Elem.issue x).located v) p := by
  unfold Issue.validate
  refine (notes_chain [
      ("issue_type", Under E v (oneAt "issue_type" (.issueClassification x.issueType))),
      ("id", Under E v (optAt "id" .normalizedString x.id)),
      ("name", Under E v (optAt "name" .normalizedString x.name)),
      ("description", Under E v (optAt "description" .normalizedString x.description)),
      ("source", Under E v (optAt "source" .source x.source)),
      ("references", Under E v (manyAt "references" .uri x.references))]
    (notesCons (at_field "issue_type" .issueClassification x.issueType (fun _ => rfl)) <|
      notesCons (at_fieldOption "id" .normalizedString x.id (fun _ => rfl)) <|
      notesCons (at_fieldOption "name" .normalizedString x.name (fun _ => rfl)) <|
      notesCons (at_fieldOption "description" .normalizedString x.description (fun _ => rfl)) <|
      notesCons (at_structOption "source" .source x.source (fun _ => rfl)) <|
      notesCons (at_listOption "references" .uri x.references (fun _ => rfl)) <| .nil)
    (by simp only [List.map]; decide) p).trans ?_
  show _ ↔ (¬ True ∧ p = []) ∨ Under E v (oneAt "issue_type" (.issueClassification x.issueType) ++ optAt "id" .normalizedString x.id ++ optAt "name" .normalizedString x.name ++ optAt "description" .normalizedString x.description ++ optAt "source" .source x.source ++ manyAt "references" .uri x.references) p
  simp only [List.mem_cons, exists_eq_or_imp, List.not_mem_nil, false_and, exists_false, exists_eq_left, not_true_eq_false, under_append, under_nil, or_false, false_or, or_assoc]

theorem places_patch (E : VEnv) (v : SpecVersion) (x : Patch) (p : Place) :
    TellsOf (Patch.validate E v x) p ↔
      (Elem.patch x).fault E v p ∨ Under E v ((Elem.patch x).located v) p := by
  unfold Patch.validate
  refine (notes_chain [
      ("patch_type", Under E v (oneAt "patch_type" (.patchClassification x.patchType))),
      ("diff", Under E v (optAt "diff" .diff x.diff)),
      ("resolves", Under E v (manyAt "resolves" .issue x.resolves))]
    (notesCons (at_enum "patch_type" .patchClassification x.patchType (fun _ => rfl)) <|
      notesCons (at_structOption "diff" .diff x.diff (fun _ => rfl)) <|
      notesCons (at_listOption "resolves" .issue x.resolves (fun _ => rfl)) <| .nil)
    (by simp only [List.map]; decide) p).trans ?_
  show _ ↔ (¬ True ∧ p = []) ∨ Under E v (oneAt "patch_type" (.patchClassification x.patchType) ++ optAt "diff" .diff x.diff ++ manyAt "resolves" .issue x.resolves) p
  simp only [List.mem_cons, exists_eq_or_imp, List.not_mem_nil, false_and, exists_false, exists_eq_left, not_true_eq_false, under_append, under_nil, or_false, false_or, or_assoc]

theorem places_signer (E : VEnv) (v : SpecVersion) (x : Signer) (p : Place) :
    TellsOf (Signer.validate E v x) p ↔
      (Elem.signer x).fault E v p ∨ Under E v ((Elem.signer x).located v) p := by
  unfold Signer.validate
  refine (notes_chain [
      ("algorithm", Under E v (oneAt "algorithm" (.algorithm x.algorithm)))]
    (notesCons (at_field "algorithm" .algorithm x.algorithm (fun _ => rfl)) <| .nil)
    (by simp only [List.map]; decide) p).trans ?_
  show _ ↔ (¬ True ∧ p = []) ∨ Under E v (oneAt "algorithm" (.algorithm x.algorithm)) p
  simp only [List.mem_cons, exists_eq_or_imp, List.not_mem_nil, false_and, exists_false, exists_eq_left, not_true_eq_false, under_append, under_nil, or_false, false_or, or_assoc]

theorem places_dataGovernance (E : VEnv) (v : SpecVersion) (x : DataGovernance) (p : Place) :
    TellsOf (DataGovernance.validate E v x) p ↔
      (Elem.dataGovernance x).fault E v p ∨ Under E v ((Elem.dataGovernance x).located v) p := by
  unfold DataGovernance.validate
  refine (notes_chain [
      ("custodians", Under E v (manyAt "custodians" .dataGovernanceResponsibleParty x.custodians)),
      ("stewards", Under E v (manyAt "stewards" .dataGovernanceResponsibleParty x.stewards)),
      ("owners", Under E v (manyAt "owners" .dataGovernanceResponsibleParty x.owners))]
    (notesCons (at_listOption "custodians" .dataGovernanceResponsibleParty x.custodians (fun _ => rfl)) <|
      notesCons (at_listOption "stewards" .dataGovernanceResponsibleParty x.stewards (fun _ => rfl)) <|
      notesCons (at_listOption "owners" .dataGovernanceResponsibleParty x.owners (fun _ => rfl)) <| .nil)
    (by simp only [List.map]; decide) p).trans ?_
  show _ ↔ (¬ True ∧ p = []) ∨ Under E v (manyAt "custodians" .dataGovernanceResponsibleParty x.custodians ++ manyAt "stewards" .dataGovernanceResponsibleParty x.stewards ++ manyAt "owners" .dataGovernanceResponsibleParty x.owners) p
  simp only [List.mem_cons, exists_eq_or_imp, List.not_mem_nil, false_and, exists_false, exists_eq_left, not_true_eq_false, under_append, under_nil, or_false, false_or, or_assoc]

theorem places_graphic (E : VEnv) (v : SpecVersion) (x : Graphic) (p : Place) :
    TellsOf (Graphic.validate E v x) p ↔
      (Elem.graphic x).fault E v p ∨ Under E v ((Elem.graphic x).located v) p := by
  unfold Graphic.validate
  refine (notes_chain [
      ("image", Under E v (optAt "image" .attachment x.image))]
    (notesCons (at_structOption "image" .attachment x.image (fun _ => rfl)) <| .nil)
    (by simp only [List.map]; decide) p).trans ?_
  show _ ↔ (¬ True ∧ p = []) ∨ Under E v (optAt "image" .attachment x.image) p
  simp only [List.mem_cons, exists_eq_or_imp, List.not_mem_nil, false_and, exists_false, exists_eq_left, not_true_eq_false, under_append, under_nil, or_false, false_or, or_assoc]

theorem places_graphicsCollection (E : VEnv) (v : SpecVersion) (x : GraphicsCollection) (p : Place) :
    TellsOf (GraphicsCollection.validate E v x) p ↔
      (Elem.graphicsCollection x).fault E v p ∨ Under E v ((Elem.graphicsCollection x).located v) p := by
  unfold GraphicsCollection.validate
  refine (notes_chain [
      ("collection", Under E v (manyAt "collection" .graphic x.collection))]
    (notesCons (at_listOption "collection" .graphic x.collection (fun _ => rfl)) <| .nil)
    (by simp only [List.map]; decide) p).trans ?_
  show _ ↔ (¬ True ∧ p = []) ∨ Under E v (manyAt "collection" .graphic x.collection) p
  simp only [List.mem_cons, exists_eq_or_imp, List.not_mem_nil, false_and, exists_false, exists_eq_left, not_true_eq_false, under_append, under_nil, or_false, false_or, or_assoc]

theorem places_dataContents (E : VEnv) (v : SpecVersion) (x : DataContents) (p : Place) :
    TellsOf (DataContents.validate E v x) p ↔
      (Elem.dataContents x).fault E v p ∨ Under E v ((Elem.dataContents x).located v) p := by
  unfold DataContents.validate
  refine (notes_chain [
      ("attachment", Under E v (optAt "attachment" .attachment x.attachment)),
      ("url", Under E v (optAt "url" .uri x.url)),
      ("properties", Under E v (below "properties" (manyAt "inner" .property x.properties)))]
    (notesCons (at_structOption "attachment" .attachment x.attachment (fun _ => rfl)) <|
      notesCons (at_fieldOption "url" .uri x.url (fun _ => rfl)) <|
      notesCons (at_wrapped "properties" .property x.properties (fun _ => rfl) (fun _ => rfl)) <| .nil)
    (by simp only [List.map]; decide) p).trans ?_
  show _ ↔ (¬ True ∧ p = []) ∨ Under E v (optAt "attachment" .attachment x.attachment ++ optAt "url" .uri x.url ++ below "properties" (manyAt "inner" .property x.properties)) p
  simp only [List.mem_cons, exists_eq_or_imp, List.not_mem_nil, false_and, exists_false, exists_eq_left, not_true_eq_false, under_append, under_nil, or_false, false_or, or_assoc]

theorem places_componentData (E : VEnv) (v : SpecVersion) (x : ComponentData) (p : Place) :
    TellsOf (ComponentData.validate E v x) p ↔
      (Elem.componentData x).fault E v p ∨ Under E v ((Elem.componentData x).located v) p := by
  unfold ComponentData.validate
  refine (notes_chain [
      ("type", Under E v (oneAt "type" (.componentDataType x.dataType))),
      ("contents", Under E v (optAt "contents" .dataContents x.contents)),
      ("graphics", Under E v (optAt "graphics" .graphicsCollection x.graphics)),
      ("governance", Under E v (optAt "governance" .dataGovernance x.governance))]
    (notesCons (at_field "type" .componentDataType x.dataType (fun _ => rfl)) <|
      notesCons (at_structOption "contents" .dataContents x.contents (fun _ => rfl)) <|
      notesCons (at_structOption "graphics" .graphicsCollection x.graphics (fun _ => rfl)) <|
      notesCons (at_structOption "governance" .dataGovernance x.governance (fun _ => rfl)) <| .nil)
    (by simp only [List.map]; decide) p).trans ?_
  show _ ↔ (¬ True ∧ p = []) ∨ Under E v (oneAt "type" (.componentDataType x.dataType) ++ optAt "contents" .dataContents x.contents ++ optAt "graphics" .graphicsCollection x.graphics ++ optAt "governance" .dataGovernance x.governance) p
  simp only [List.mem_cons, exists_eq_or_imp, List.not_mem_nil, false_and, exists_false, exists_eq_left, not_true_eq_false, under_append, under_nil, or_false, false_or, or_assoc]

theorem places_modelParametersApproach (E : VEnv) (v : SpecVersion) (x : ModelParametersApproach) (p : Place) :
    TellsOf (ModelParametersApproach.validate E v x) p ↔
      (Elem.modelParametersApproach x).fault E v p ∨ Under E v ((Elem.modelParametersApproach x).located v) p := by
  unfold ModelParametersApproach.validate
  refine (notes_chain [
      ("type", Under E v (optAt "type" .approachType x.approachType))]
    (notesCons (at_fieldOption "type" .approachType x.approachType (fun _ => rfl)) <| .nil)
    (by simp only [List.map]; decide) p).trans ?_
  show _ ↔ (¬ True ∧ p = []) ∨ Under E v (optAt "type" .approachType x.approachType) p
  simp only [List.mem_cons, exists_eq_or_imp, List.not_mem_nil, false_and, exists_false, exists_eq_left, not_true_eq_false, under_append, under_nil, or_false, false_or, or_assoc]

theorem places_modelParameters (E : VEnv) (v : SpecVersion) (x : ModelParameters) (p : Place) :
    TellsOf (ModelParameters.validate E v x) p ↔
      (Elem.modelParameters x).fault E v p ∨ Under E v ((Elem.modelParameters x).located v) p := by
  unfold ModelParameters.validate
  refine (notes_chain [
      ("approach", Under E v (optAt "approach" .modelParametersApproach x.approach)),
      ("datasets", Under E v (below "datasets" (manyAt "inner" .dataset x.datasets))),
      ("inputs", Under E v []),
      ("outputs", Under E v [])]
    (notesCons (at_structOption "approach" .modelParametersApproach x.approach (fun _ => rfl)) <|
      notesCons (at_wrapped "datasets" .dataset x.datasets (fun _ => rfl) (fun _ => rfl)) <|
      notesCons (at_skip good_structOption' (by simp [MLParameters.passes, Considerations.passes, PerformanceMetrics.passes, CopyrightTexts.passes])) <|
      notesCons (at_skip good_structOption' (by simp [MLParameters.passes, Considerations.passes, PerformanceMetrics.passes, CopyrightTexts.passes])) <| .nil)
    (by simp only [List.map]; decide) p).trans ?_
  show _ ↔ (¬ True ∧ p = []) ∨ Under E v (optAt "approach" .modelParametersApproach x.approach ++ below "datasets" (manyAt "inner" .dataset x.datasets)) p
  simp only [List.mem_cons, exists_eq_or_imp, List.not_mem_nil, false_and, exists_false, exists_eq_left, not_true_eq_false, under_append, under_nil, or_false, false_or, or_assoc]

theorem places_quantitativeAnalysis (E : VEnv) (v : SpecVersion) (x : QuantitativeAnalysis) (p : Place) :
    TellsOf (QuantitativeAnalysis.validate E v x) p ↔
      (Elem.quantitativeAnalysis x).fault E v p ∨ Under E v ((Elem.quantitativeAnalysis x).located v) p := by
  unfold QuantitativeAnalysis.validate
  refine (notes_chain [
      ("performance_metrics", Under E v []),
      ("graphics", Under E v (optAt "graphics" .graphicsCollection x.graphics))]
    (notesCons (at_skip good_structOption' (by simp [MLParameters.passes, Considerations.passes, PerformanceMetrics.passes, CopyrightTexts.passes])) <|
      notesCons (at_structOption "graphics" .graphicsCollection x.graphics (fun _ => rfl)) <| .nil)
    (by simp only [List.map]; decide) p).trans ?_
  show _ ↔ (¬ True ∧ p = []) ∨ Under E v (optAt "graphics" .graphicsCollection x.graphics) p
  simp only [List.mem_cons, exists_eq_or_imp, List.not_mem_nil, false_and, exists_false, exists_eq_left, not_true_eq_false, under_append, under_nil, or_false, false_or, or_assoc]

theorem places_modelCard (E : VEnv) (v : SpecVersion) (x : ModelCard) (p : Place) :
    TellsOf (ModelCard.validate E v x) p ↔
      (Elem.modelCard x).fault E v p ∨ Under E v ((Elem.modelCard x).located v) p := by
  unfold ModelCard.validate
  refine (notes_chain [
      ("model_parameters", Under E v (optAt "model_parameters" .modelParameters x.modelParameters)),
      ("quantitative_analysis", Under E v (optAt "quantitative_analysis" .quantitativeAnalysis x.quantitativeAnalysis)),
      ("considerations", Under E v []),
      ("properties", Under E v (below "properties" (manyAt "inner" .property x.properties)))]
    (notesCons (at_structOption "model_parameters" .modelParameters x.modelParameters (fun _ => rfl)) <|
      notesCons (at_structOption "quantitative_analysis" .quantitativeAnalysis x.quantitativeAnalysis (fun _ => rfl)) <|
      notesCons (at_skip good_structOption' (by simp [MLParameters.passes, Considerations.passes, PerformanceMetrics.passes, CopyrightTexts.passes])) <|
      notesCons (at_wrapped "properties" .property x.properties (fun _ => rfl) (fun _ => rfl)) <| .nil)
    (by simp only [List.map]; decide) p).trans ?_
  show _ ↔ (¬ True ∧ p = []) ∨ Under E v (optAt "model_parameters" .modelParameters x.modelParameters ++ optAt "quantitative_analysis" .quantitativeAnalysis x.quantitativeAnalysis ++ below "properties" (manyAt "inner" .property x.properties)) p
  simp only [List.mem_cons, exists_eq_or_imp, List.not_mem_nil, false_and, exists_false, exists_eq_left, not_true_eq_false, under_append, under_nil, or_false, false_or, or_assoc]

theorem places_swid (E : VEnv) (v : SpecVersion) (x : Swid) (p : Place) :
    TellsOf (Swid.validate E v x) p ↔
      (Elem.swid x).fault E v p ∨ Under E v ((Elem.swid x).located v) p := by
  unfold Swid.validate
  refine (notes_chain [
      ("text", Under E v (optAt "text" .attachedText x.text)),
      ("url", Under E v (optAt "url" .uri x.url))]
    (notesCons (at_structOption "text" .attachedText x.text (fun _ => rfl)) <|
      notesCons (at_fieldOption "url" .uri x.url (fun _ => rfl)) <| .nil)
    (by simp only [List.map]; decide) p).trans ?_
  show _ ↔ (¬ True ∧ p = []) ∨ Under E v (optAt "text" .attachedText x.text ++ optAt "url" .uri x.url) p
  simp only [List.mem_cons, exists_eq_or_imp, List.not_mem_nil, false_and, exists_false, exists_eq_left, not_true_eq_false, under_append, under_nil, or_false, false_or, or_assoc]

theorem places_occurrence (E : VEnv) (v : SpecVersion) (x : Occurrence) (p : Place) :
    TellsOf (Occurrence.validate E v x) p ↔
      (Elem.occurrence x).fault E v p ∨ Under E v ((Elem.occurrence x).located v) p := by
  unfold Occurrence.validate
  refine (notes_chain [
      ("bom-ref", Under E v (optAt "bom-ref" .bomRefAttribute x.bomRef))]
    (notesCons (at_fieldOption "bom-ref" .bomRefAttribute x.bomRef (fun _ => rfl)) <| .nil)
    (by simp only [List.map]; decide) p).trans ?_
  show _ ↔ (¬ True ∧ p = []) ∨ Under E v (optAt "bom-ref" .bomRefAttribute x.bomRef) p
  simp only [List.mem_cons, exists_eq_or_imp, List.not_mem_nil, false_and, exists_false, exists_eq_left, not_true_eq_false, under_append, under_nil, or_false, false_or, or_assoc]

theorem places_frame (E : VEnv) (v : SpecVersion) (x : Frame) (p : Place) :
    TellsOf (Frame.validate E v x) p ↔
      (Elem.frame x).fault E v p ∨ Under E v ((Elem.frame x).located v) p := by
  unfold Frame.validate
  refine (notes_chain [
      ("package", Under E v (optAt "package" .normalizedString x.package)),
      ("module", Under E v (oneAt "module" (.normalizedString x.module))),
      ("function", Under E v (optAt "function" .normalizedString x.function)),
      ("parameters", Under E v (manyAt "parameters" .normalizedString x.parameters)),
      ("full_filename", Under E v (optAt "full_filename" .normalizedString x.fullFilename))]
    (notesCons (at_fieldOption "package" .normalizedString x.package (fun _ => rfl)) <|
      notesCons (at_field "module" .normalizedString x.module (fun _ => rfl)) <|
      notesCons (at_fieldOption "function" .normalizedString x.function (fun _ => rfl)) <|
      notesCons (at_listOption "parameters" .normalizedString x.parameters (fun _ => rfl)) <|
      notesCons (at_fieldOption "full_filename" .normalizedString x.fullFilename (fun _ => rfl)) <| .nil)
    (by simp only [List.map]; decide) p).trans ?_
  show _ ↔ (¬ True ∧ p = []) ∨ Under E v (optAt "package" .normalizedString x.package ++ oneAt "module" (.normalizedString x.module) ++ optAt "function" .normalizedString x.function ++ manyAt "parameters" .normalizedString x.parameters ++ optAt "full_filename" .normalizedString x.fullFilename) p
  simp only [List.mem_cons, exists_eq_or_imp, List.not_mem_nil, false_and, exists_false, exists_eq_left, not_true_eq_false, under_append, under_nil, or_false, false_or, or_assoc]

theorem places_identity (E : VEnv) (v : SpecVersion) (x : Identity) (p : Place) :
    TellsOf (Identity.validate E v x) p ↔
      (Elem.identity x).fault E v p ∨ Under E v ((Elem.identity x).located v) p := by
  unfold Identity.validate
  refine (notes_chain [
      ("field", Under E v (oneAt "field" (.identityField x.field))),
      ("confidence", Under E v (optAt "confidence" .confidence x.confidence))]
    (notesCons (at_field "field" .identityField x.field (fun _ => rfl)) <|
      notesCons (at_fieldOption "confidence" .confidence x.confidence (fun _ => rfl)) <| .nil)
    (by simp only [List.map]; decide) p).trans ?_
  show _ ↔ (¬ True ∧ p = []) ∨ Under E v (oneAt "field" (.identityField x.field) ++ optAt "confidence" .confidence x.confidence) p
  simp only [List.mem_cons, exists_eq_or_imp, List.not_mem_nil, false_and, exists_false, exists_eq_left, not_true_eq_false, under_append, under_nil, or_false, false_or, or_assoc]

theorem places_componentEvidence (E : VEnv) (v : SpecVersion) (x : ComponentEvidence) (p : Place) :
    TellsOf (ComponentEvidence.validate E v x) p ↔
      (Elem.componentEvidence x).fault E v p ∨ Under E v ((Elem.componentEvidence x).located v) p := by
  unfold ComponentEvidence.validate
  refine (notes_chain [
      ("licenses", Under E v (optAt "licenses" .licenses x.licenses)),
      ("copyright", Under E v []),
      ("occurrences", Under E v (below "occurrences" (manyAt "inner" .occurrence x.occurrences))),
      ("callstack", Under E v (optAt "callstack" .callstack x.callstack)),
      ("identity", Under E v (optAt "identity" .identity x.identity))]
    (notesCons (at_structOption "licenses" .licenses x.licenses (fun _ => rfl)) <|
      notesCons (at_skip good_structOption' (by simp [MLParameters.passes, Considerations.passes, PerformanceMetrics.passes, CopyrightTexts.passes])) <|
      notesCons (at_wrapped "occurrences" .occurrence x.occurrences (fun _ => rfl) (fun _ => rfl)) <|
      notesCons (at_structOption "callstack" .callstack x.callstack (fun _ => rfl)) <|
      notesCons (at_structOption "identity" .identity x.identity (fun _ => rfl)) <| .nil)
    (by simp only [List.map]; decide) p).trans ?_
  show _ ↔ (¬ True ∧ p = []) ∨ Under E v (optAt "licenses" .licenses x.licenses ++ below "occurrences" (manyAt "inner" .occurrence x.occurrences) ++ optAt "callstack" .callstack x.callstack ++ optAt "identity" .identity x.identity) p
  simp only [List.mem_cons, exists_eq_or_imp, List.not_mem_nil, false_and, exists_false, exists_eq_left, not_true_eq_false, under_append, under_nil, or_false, false_or, or_assoc]

theorem places_component (E : VEnv) (v : SpecVersion) (x : Component) (p : Place) :
    TellsOf (Component.validate E v x) p ↔
      (Elem.component x).fault E v p ∨ Under E v ((Elem.component x).located v) p := by
  rw [Component.validate_eq]
  refine (notes_chain [
      ("component_type", Under E v (oneAt "component_type" (.classification x.componentType))),
      ("mime_type", Under E v (optAt "mime_type" .mimeType x.mimeType)),
      ("supplier", Under E v (optAt "supplier" .organizationalEntity x.supplier)),
      ("author", Under E v (optAt "author" .normalizedString x.author)),
      ("publisher", Under E v (optAt "publisher" .normalizedString x.publisher)),
      ("group", Under E v (optAt "group" .normalizedString x.group)),
      ("name", Under E v (oneAt "name" (.normalizedString x.name))),
      ("version", Under E v (optAt "version" .normalizedString x.version)),
      ("description", Under E v (optAt "description" .normalizedString x.description)),
      ("scope", Under E v (optAt "scope" .scope x.scope)),
      ("hashes", Under E v (below "hashes" (manyAt "inner" .hash x.hashes))),
      ("licenses", Under E v (optAt "licenses" .licenses x.licenses)),
      ("copyright", Under E v (optAt "copyright" .normalizedString x.copyright)),
      ("cpe", Under E v (optAt "cpe" .cpe x.cpe)),
      ("purl", Under E v (optAt "purl" .purl x.purl)),
      ("swid", Under E v (optAt "swid" .swid x.swid)),
      ("pedigree", Under E v (optAt "pedigree" .pedigree x.pedigree)),
      ("external_references", Under E v (below "external_references" (manyAt "inner" .externalReference x.externalReferences))),
      ("properties", Under E v (below "properties" (manyAt "inner" .property x.properties))),
      ("components", Under E v (below "components" (manyAt "inner" .component x.components))),
      ("evidence", Under E v (optAt "evidence" .componentEvidence x.evidence))]
    (notesCons (at_field "component_type" .classification x.componentType (fun _ => rfl)) <|
      notesCons (at_fieldOption "mime_type" .mimeType x.mimeType (fun _ => rfl)) <|
      notesCons (at_structOption "supplier" .organizationalEntity x.supplier (fun _ => rfl)) <|
      notesCons (at_fieldOption "author" .normalizedString x.author (fun _ => rfl)) <|
      notesCons (at_fieldOption "publisher" .normalizedString x.publisher (fun _ => rfl)) <|
      notesCons (at_fieldOption "group" .normalizedString x.group (fun _ => rfl)) <|
      notesCons (at_field "name" .normalizedString x.name (fun _ => rfl)) <|
      notesCons (at_fieldOption "version" .normalizedString x.version (fun _ => rfl)) <|
      notesCons (at_fieldOption "description" .normalizedString x.description (fun _ => rfl)) <|
      notesCons (at_enumOption "scope" .scope x.scope (fun _ => rfl)) <|
      notesCons (at_wrapped "hashes" .hash x.hashes (fun _ => rfl) (fun _ => rfl)) <|
      notesCons (at_structOption "licenses" .licenses x.licenses (fun _ => rfl)) <|
      notesCons (at_fieldOption "copyright" .normalizedString x.copyright (fun _ => rfl)) <|
      notesCons (at_fieldOption "cpe" .cpe x.cpe (fun _ => rfl)) <|
      notesCons (at_fieldOption "purl" .purl x.purl (fun _ => rfl)) <|
      notesCons (at_structOption "swid" .swid x.swid (fun _ => rfl)) <|
      notesCons (at_structOption "pedigree" .pedigree x.pedigree (fun _ => rfl)) <|
      notesCons (at_wrapped "external_references" .externalReference x.externalReferences (fun _ => rfl) (fun _ => rfl)) <|
      notesCons (at_wrapped "properties" .property x.properties (fun _ => rfl) (fun _ => rfl)) <|
      notesCons (at_wrapped "components" .component x.components (fun _ => rfl) (fun _ => rfl)) <|
      notesCons (at_structOption "evidence" .componentEvidence x.evidence (fun _ => rfl)) <| .nil)
    (by simp only [List.map]; decide) p).trans ?_
  show _ ↔ (¬ True ∧ p = []) ∨ Under E v (oneAt "component_type" (.classification x.componentType) ++ optAt "mime_type" .mimeType x.mimeType ++ optAt "supplier" .organizationalEntity x.supplier ++ optAt "author" .normalizedString x.author ++ optAt "publisher" .normalizedString x.publisher ++ optAt "group" .normalizedString x.group ++ oneAt "name" (.normalizedString x.name) ++ optAt "version" .normalizedString x.version ++ optAt "description" .normalizedString x.description ++ optAt "scope" .scope x.scope ++ below "hashes" (manyAt "inner" .hash x.hashes) ++ optAt "licenses" .licenses x.licenses ++ optAt "copyright" .normalizedString x.copyright ++ optAt "cpe" .cpe x.cpe ++ optAt "purl" .purl x.purl ++ optAt "swid" .swid x.swid ++ optAt "pedigree" .pedigree x.pedigree ++ below "external_references" (manyAt "inner" .externalReference x.externalReferences) ++ below "properties" (manyAt "inner" .property x.properties) ++ below "components" (manyAt "inner" .component x.components) ++ optAt "evidence" .componentEvidence x.evidence) p
  simp only [List.mem_cons, exists_eq_or_imp, List.not_mem_nil, false_and, exists_false, exists_eq_left, not_true_eq_false, under_append, under_nil, or_false, false_or, or_assoc]

theorem places_pedigree (E : VEnv) (v : SpecVersion) (x : Pedigree) (p : Place) :
    TellsOf (Pedigree.validate E v x) p ↔
      (Elem.pedigree x).fault E v p ∨ Under E v ((Elem.pedigree x).located v) p := by
  rw [Pedigree.validate_eq]
  refine (notes_chain [
      ("ancestors", Under E v (below "ancestors" (manyAt "inner" .component x.ancestors))),
      ("descendants", Under E v (below "descendants" (manyAt "inner" .component x.descendants))),
      ("variants", Under E v (below "variants" (manyAt "inner" .component x.variants))),
      ("commits", Under E v (below "commits" (manyAt "inner" .commit x.commits))),
      ("patches", Under E v (below "patches" (manyAt "inner" .patch x.patches)))]
    (notesCons (at_wrapped "ancestors" .component x.ancestors (fun _ => rfl) (fun _ => rfl)) <|
      notesCons (at_wrapped "descendants" .component x.descendants (fun _ => rfl) (fun _ => rfl)) <|
      notesCons (at_wrapped "variants" .component x.variants (fun _ => rfl) (fun _ => rfl)) <|
      notesCons (at_wrapped "commits" .commit x.commits (fun _ => rfl) (fun _ => rfl)) <|
      notesCons (at_wrapped "patches" .patch x.patches (fun _ => rfl) (fun _ => rfl)) <| .nil)
    (by simp only [List.map]; decide) p).trans ?_
  show _ ↔ (¬ True ∧ p = []) ∨ Under E v (below "ancestors" (manyAt "inner" .component x.ancestors) ++ below "descendants" (manyAt "inner" .component x.descendants) ++ below "variants" (manyAt "inner" .component x.variants) ++ below "commits" (manyAt "inner" .commit x.commits) ++ below "patches" (manyAt "inner" .patch x.patches)) p
  simp only [List.mem_cons, exists_eq_or_imp, List.not_mem_nil, false_and, exists_false, exists_eq_left, not_true_eq_false, under_append, under_nil, or_false, false_or, or_assoc]

theorem places_dataClassification (E : VEnv) (v : SpecVersion) (x : DataClassification) (p : Place) :
    TellsOf (DataClassification.validate E v x) p ↔
      (Elem.dataClassification x).fault E v p ∨ Under E v ((Elem.dataClassification x).located v) p := by
  unfold DataClassification.validate
  refine (notes_chain [
      ("flow", Under E v (oneAt "flow" (.dataFlowType x.flow))),
      ("classification", Under E v (oneAt "classification" (.normalizedString x.classification)))]
    (notesCons (at_enum "flow" .dataFlowType x.flow (fun _ => rfl)) <|
      notesCons (at_enum "classification" .normalizedString x.classification (fun _ => rfl)) <| .nil)
    (by simp only [List.map]; decide) p).trans ?_
  show _ ↔ (¬ True ∧ p = []) ∨ Under E v (oneAt "flow" (.dataFlowType x.flow) ++ oneAt "classification" (.normalizedString x.classification)) p
  simp only [List.mem_cons, exists_eq_or_imp, List.not_mem_nil, false_and, exists_false, exists_eq_left, not_true_eq_false, under_append, under_nil, or_false, false_or, or_assoc]

theorem places_serviceData (E : VEnv) (v : SpecVersion) (x : ServiceData) (p : Place) :
    TellsOf (ServiceData.validate E v x) p ↔
      (Elem.serviceData x).fault E v p ∨ Under E v ((Elem.serviceData x).located v) p := by
  unfold ServiceData.validate
  refine (notes_chain [
      ("name", Under E v (optAt "name" .normalizedString x.name)),
      ("description", Under E v (optAt "description" .normalizedString x.description)),
      ("classification", Under E v (oneAt "classification" (.dataClassification x.classification))),
      ("governance", Under E v (optAt "governance" .dataGovernance x.governance)),
      ("source", Under E v (manyAt "source" .uri x.source)),
      ("destination", Under E v (manyAt "destination" .uri x.destination))]
    (notesCons (at_fieldOption "name" .normalizedString x.name (fun _ => rfl)) <|
      notesCons (at_fieldOption "description" .normalizedString x.description (fun _ => rfl)) <|
      notesCons (at_struct "classification" .dataClassification x.classification (fun _ => rfl)) <|
      notesCons (at_structOption "governance" .dataGovernance x.governance (fun _ => rfl)) <|
      notesCons (at_listOption "source" .uri x.source (fun _ => rfl)) <|
      notesCons (at_listOption "destination" .uri x.destination (fun _ => rfl)) <| .nil)
    (by simp only [List.map]; decide) p).trans ?_
  show _ ↔ (¬ True ∧ p = []) ∨ Under E v (optAt "name" .normalizedString x.name ++ optAt "description" .normalizedString x.description ++ oneAt "classification" (.dataClassification x.classification) ++ optAt "governance" .dataGovernance x.governance ++ manyAt "source" .uri x.source ++ manyAt "destination" .uri x.destination) p
  simp only [List.mem_cons, exists_eq_or_imp, List.not_mem_nil, false_and, exists_false, exists_eq_left, not_true_eq_false, under_append, under_nil, or_false, false_or, or_assoc]

theorem places_service (E : VEnv) (v : SpecVersion) (x : Service) (p : Place) :
    TellsOf (Service.validate E v x) p ↔
      (Elem.service x).fault E v p ∨ Under E v ((Elem.service x).located v) p := by
  rw [Service.validate_eq]
  refine (notes_chain [
      ("provider", Under E v (optAt "provider" .organizationalEntity x.provider)),
      ("group", Under E v (optAt "group" .normalizedString x.group)),
      ("name", Under E v (oneAt "name" (.normalizedString x.name))),
      ("version", Under E v (optAt "version" .normalizedString x.version)),
      ("description", Under E v (optAt "description" .normalizedString x.description)),
      ("endpoints", Under E v (manyAt "endpoints" .uri x.endpoints)),
      ("data", Under E v (optAt "data" .serviceDataChoice x.data)),
      ("licenses", Under E v (optAt "licenses" .licenses x.licenses)),
      ("external_references", Under E v (below "external_references" (manyAt "inner" .externalReference x.externalReferences))),
      ("properties", Under E v (below "properties" (manyAt "inner" .property x.properties))),
      ("services", Under E v (below "services" (manyAt "inner" .service x.services))),
      ("trust_zone", Under E v (optAt "trust_zone" .normalizedString x.trustZone))]
    (notesCons (at_structOption "provider" .organizationalEntity x.provider (fun _ => rfl)) <|
      notesCons (at_fieldOption "group" .normalizedString x.group (fun _ => rfl)) <|
      notesCons (at_field "name" .normalizedString x.name (fun _ => rfl)) <|
      notesCons (at_fieldOption "version" .normalizedString x.version (fun _ => rfl)) <|
      notesCons (at_fieldOption "description" .normalizedString x.description (fun _ => rfl)) <|
      notesCons (at_listOption "endpoints" .uri x.endpoints (fun _ => rfl)) <|
      notesCons (at_structOption "data" .serviceDataChoice x.data (fun _ => rfl)) <|
      notesCons (at_structOption "licenses" .licenses x.licenses (fun _ => rfl)) <|
      notesCons (at_wrapped "external_references" .externalReference x.externalReferences (fun _ => rfl) (fun _ => rfl)) <|
      notesCons (at_wrapped "properties" .property x.properties (fun _ => rfl) (fun _ => rfl)) <|
      notesCons (at_wrapped "services" .service x.services (fun _ => rfl) (fun _ => rfl)) <|
      notesCons (at_fieldOption "trust_zone" .normalizedString x.trustZone (fun _ => rfl)) <| .nil)
    (by simp only [List.map]; decide) p).trans ?_
  show _ ↔ (¬ True ∧ p = []) ∨ Under E v (optAt "provider" .organizationalEntity x.provider ++ optAt "group" .normalizedString x.group ++ oneAt "name" (.normalizedString x.name) ++ optAt "version" .normalizedString x.version ++ optAt "description" .normalizedString x.description ++ manyAt "endpoints" .uri x.endpoints ++ optAt "data" .serviceDataChoice x.data ++ optAt "licenses" .licenses x.licenses ++ below "external_references" (manyAt "inner" .externalReference x.externalReferences) ++ below "properties" (manyAt "inner" .property x.properties) ++ below "services" (manyAt "inner" .service x.services) ++ optAt "trust_zone" .normalizedString x.trustZone) p
  simp only [List.mem_cons, exists_eq_or_imp, List.not_mem_nil, false_and, exists_false, exists_eq_left, not_true_eq_false, under_append, under_nil, or_false, false_or, or_assoc]

theorem places_tool (E : VEnv) (v : SpecVersion) (x : Tool) (p : Place) :
    TellsOf (Tool.validate E v x) p ↔
      (Elem.tool x).fault E v p ∨ Under E v ((Elem.tool x).located v) p := by
  unfold Tool.validate
  refine (notes_chain [
      ("vendor", Under E v (optAt "vendor" .normalizedString x.vendor)),
      ("name", Under E v (optAt "name" .normalizedString x.name)),
      ("version", Under E v (optAt "version" .normalizedString x.version)),
      ("hashes", Under E v (soleAt "hashes" (manyAt "inner" .hash x.hashes))),
      ("external_references", Under E v (below "external_references" (manyAt "inner" .externalReference x.externalReferences)))]
    (notesCons (at_fieldOption "vendor" .normalizedString x.vendor (fun _ => rfl)) <|
      notesCons (at_fieldOption "name" .normalizedString x.name (fun _ => rfl)) <|
      notesCons (at_fieldOption "version" .normalizedString x.version (fun _ => rfl)) <|
      notesCons (at_sole "hashes" .hash x.hashes (fun _ => rfl) (fun _ => rfl)) <|
      notesCons (at_wrapped "external_references" .externalReference x.externalReferences (fun _ => rfl) (fun _ => rfl)) <| .nil)
    (by simp only [List.map]; decide) p).trans ?_
  show _ ↔ (¬ True ∧ p = []) ∨ Under E v (optAt "vendor" .normalizedString x.vendor ++ optAt "name" .normalizedString x.name ++ optAt "version" .normalizedString x.version ++ soleAt "hashes" (manyAt "inner" .hash x.hashes) ++ below "external_references" (manyAt "inner" .externalReference x.externalReferences)) p
  simp only [List.mem_cons, exists_eq_or_imp, List.not_mem_nil, false_and, exists_false, exists_eq_left, not_true_eq_false, under_append, under_nil, or_false, false_or, or_assoc]

theorem places_metadata (E : VEnv) (v : SpecVersion) (x : Metadata) (p : Place) :
    TellsOf (Metadata.validate E v x) p ↔
      (Elem.metadata x).fault E v p ∨ Under E v ((Elem.metadata x).located v) p := by
  unfold Metadata.validate
  refine (notes_chain [
      ("timestamp", Under E v (optAt "timestamp" .dateTime x.timestamp)),
      ("tools", Under E v (soleAt "tools" (optAt "" .tools x.tools))),
      ("authors", Under E v (manyAt "authors" .organizationalContact x.authors)),
      ("component", Under E v (optAt "component" .component x.component)),
      ("manufacture", Under E v (optAt "manufacture" .organizationalEntity x.manufacture)),
      ("supplier", Under E v (optAt "supplier" .organizationalEntity x.supplier)),
      ("licenses", Under E v (soleAt "licenses" (optAt "" .licenses x.licenses))),
      ("properties", Under E v (soleAt "properties" (manyAt "inner" .property x.properties)))]
    (notesCons (at_fieldOption "timestamp" .dateTime x.timestamp (fun _ => rfl)) <|
      notesCons (at_soleOne "tools" .tools x.tools (fun _ => rfl)) <|
      notesCons (at_listOption "authors" .organizationalContact x.authors (fun _ => rfl)) <|
      notesCons (at_structOption "component" .component x.component (fun _ => rfl)) <|
      notesCons (at_structOption "manufacture" .organizationalEntity x.manufacture (fun _ => rfl)) <|
      notesCons (at_structOption "supplier" .organizationalEntity x.supplier (fun _ => rfl)) <|
      notesCons (at_soleOne "licenses" .licenses x.licenses (fun _ => rfl)) <|
      notesCons (at_sole "properties" .property x.properties (fun _ => rfl) (fun _ => rfl)) <| .nil)
    (by simp only [List.map]; decide) p).trans ?_
  show _ ↔ (¬ True ∧ p = []) ∨ Under E v (optAt "timestamp" .dateTime x.timestamp ++ soleAt "tools" (optAt "" .tools x.tools) ++ manyAt "authors" .organizationalContact x.authors ++ optAt "component" .component x.component ++ optAt "manufacture" .organizationalEntity x.manufacture ++ optAt "supplier" .organizationalEntity x.supplier ++ soleAt "licenses" (optAt "" .licenses x.licenses) ++ soleAt "properties" (manyAt "inner" .property x.properties)) p
  simp only [List.mem_cons, exists_eq_or_imp, List.not_mem_nil, false_and, exists_false, exists_eq_left, not_true_eq_false, under_append, under_nil, or_false, false_or, or_assoc]

theorem places_composition (E : VEnv) (v : SpecVersion) (x : Composition) (p : Place) :
    TellsOf (Composition.validate E v x) p ↔
      (Elem.composition x).fault E v p ∨ Under E v ((Elem.composition x).located v) p := by
  unfold Composition.validate
  refine (notes_chain [
      ("aggregate", Under E v (oneAt "aggregate" (.aggregateType x.aggregate))),
      ("signature", Under E v (optAt "signature" .signature x.signature))]
    (notesCons (at_field "aggregate" .aggregateType x.aggregate (fun _ => rfl)) <|
      notesCons (at_structOption "signature" .signature x.signature (fun _ => rfl)) <| .nil)
    (by simp only [List.map]; decide) p).trans ?_
  show _ ↔ (¬ True ∧ p = []) ∨ Under E v (oneAt "aggregate" (.aggregateType x.aggregate) ++ optAt "signature" .signature x.signature) p
  simp only [List.mem_cons, exists_eq_or_imp, List.not_mem_nil, false_and, exists_false, exists_eq_left, not_true_eq_false, under_append, under_nil, or_false, false_or, or_assoc]

theorem places_advisory (E : VEnv) (v : SpecVersion) (x : Advisory) (p : Place) :
    TellsOf (Advisory.validate E v x) p ↔
      (Elem.advisory x).fault E v p ∨ Under E v ((Elem.advisory x).located v) p := by
  unfold Advisory.validate
  refine (notes_chain [
      ("title", Under E v (optAt "title" .normalizedString x.title)),
      ("url", Under E v (oneAt "url" (.uri x.url)))]
    (notesCons (at_fieldOption "title" .normalizedString x.title (fun _ => rfl)) <|
      notesCons (at_field "url" .uri x.url (fun _ => rfl)) <| .nil)
    (by simp only [List.map]; decide) p).trans ?_
  show _ ↔ (¬ True ∧ p = []) ∨ Under E v (optAt "title" .normalizedString x.title ++ oneAt "url" (.uri x.url)) p
  simp only [List.mem_cons, exists_eq_or_imp, List.not_mem_nil, false_and, exists_false, exists_eq_left, not_true_eq_false, under_append, under_nil, or_false, false_or, or_assoc]

theorem places_vulnerabilitySource (E : VEnv) (v : SpecVersion) (x : VulnerabilitySource) (p : Place) :
    TellsOf (VulnerabilitySource.validate E v x) p ↔
      (Elem.vulnerabilitySource x).fault E v p ∨ Under E v ((Elem.vulnerabilitySource x).located v) p := by
  unfold VulnerabilitySource.validate
  refine (notes_chain [
      ("name", Under E v (optAt "name" .normalizedString x.name)),
      ("url", Under E v (optAt "url" .uri x.url))]
    (notesCons (at_fieldOption "name" .normalizedString x.name (fun _ => rfl)) <|
      notesCons (at_fieldOption "url" .uri x.url (fun _ => rfl)) <| .nil)
    (by simp only [List.map]; decide) p).trans ?_
  show _ ↔ (¬ True ∧ p = []) ∨ Under E v (optAt "name" .normalizedString x.name ++ optAt "url" .uri x.url) p
  simp only [List.mem_cons, exists_eq_or_imp, List.not_mem_nil, false_and, exists_false, exists_eq_left, not_true_eq_false, under_append, under_nil, or_false, false_or, or_assoc]

theorem places_vulnerabilityReference (E : VEnv) (v : SpecVersion) (x : VulnerabilityReference) (p : Place) :
    TellsOf (VulnerabilityReference.validate E v x) p ↔
      (Elem.vulnerabilityReference x).fault E v p ∨ Under E v ((Elem.vulnerabilityReference x).located v) p := by
  unfold VulnerabilityReference.validate
  refine (notes_chain [
      ("id", Under E v (oneAt "id" (.normalizedString x.id))),
      ("vulnerability_source", Under E v (oneAt "vulnerability_source" (.vulnerabilitySource x.vulnerabilitySource)))]
    (notesCons (at_field "id" .normalizedString x.id (fun _ => rfl)) <|
      notesCons (at_struct "vulnerability_source" .vulnerabilitySource x.vulnerabilitySource (fun _ => rfl)) <| .nil)
    (by simp only [List.map]; decide) p).trans ?_
  show _ ↔ (¬ True ∧ p = []) ∨ Under E v (oneAt "id" (.normalizedString x.id) ++ oneAt "vulnerability_source" (.vulnerabilitySource x.vulnerabilitySource)) p
  simp only [List.mem_cons, exists_eq_or_imp, List.not_mem_nil, false_and, exists_false, exists_eq_left, not_true_eq_false, under_append, under_nil, or_false, false_or, or_assoc]

theorem places_vulnerabilityRating (E : VEnv) (v : SpecVersion) (x : VulnerabilityRating) (p : Place) :
    TellsOf (VulnerabilityRating.validate E v x) p ↔
      (Elem.vulnerabilityRating x).fault E v p ∨ Under E v ((Elem.vulnerabilityRating x).located v) p := by
  unfold VulnerabilityRating.validate
  refine (notes_chain [
      ("vulnerability_source", Under E v (optAt "vulnerability_source" .vulnerabilitySource x.vulnerabilitySource)),
      ("severity", Under E v (optAt "severity" .severity x.severity)),
      ("score_method", Under E v (optAt "score_method" .scoreMethod x.scoreMethod)),
      ("vector", Under E v (optAt "vector" .normalizedString x.vector))]
    (notesCons (at_structOption "vulnerability_source" .vulnerabilitySource x.vulnerabilitySource (fun _ => rfl)) <|
      notesCons (at_enumOption "severity" .severity x.severity (fun _ => rfl)) <|
      notesCons (at_fieldOption "score_method" .scoreMethod x.scoreMethod (fun _ => rfl)) <|
      notesCons (at_fieldOption "vector" .normalizedString x.vector (fun _ => rfl)) <| .nil)
    (by simp only [List.map]; decide) p).trans ?_
  show _ ↔ (¬ True ∧ p = []) ∨ Under E v (optAt "vulnerability_source" .vulnerabilitySource x.vulnerabilitySource ++ optAt "severity" .severity x.severity ++ optAt "score_method" .scoreMethod x.scoreMethod ++ optAt "vector" .normalizedString x.vector) p
  simp only [List.mem_cons, exists_eq_or_imp, List.not_mem_nil, false_and, exists_false, exists_eq_left, not_true_eq_false, under_append, under_nil, or_false, false_or, or_assoc]

theorem places_vulnerabilityCredits (E : VEnv) (v : SpecVersion) (x : VulnerabilityCredits) (p : Place) :
    TellsOf (VulnerabilityCredits.validate E v x) p ↔
      (Elem.vulnerabilityCredits x).fault E v p ∨ Under E v ((Elem.vulnerabilityCredits x).located v) p := by
  unfold VulnerabilityCredits.validate
  refine (notes_chain [
      ("organizations", Under E v (manyAt "organizations" .organizationalEntity x.organizations)),
      ("individuals", Under E v (manyAt "individuals" .organizationalContact x.individuals))]
    (notesCons (at_listOption "organizations" .organizationalEntity x.organizations (fun _ => rfl)) <|
      notesCons (at_listOption "individuals" .organizationalContact x.individuals (fun _ => rfl)) <| .nil)
    (by simp only [List.map]; decide) p).trans ?_
  show _ ↔ (¬ True ∧ p = []) ∨ Under E v (manyAt "organizations" .organizationalEntity x.organizations ++ manyAt "individuals" .organizationalContact x.individuals) p
  simp only [List.mem_cons, exists_eq_or_imp, List.not_mem_nil, false_and, exists_false, exists_eq_left, not_true_eq_false, under_append, under_nil, or_false, false_or, or_assoc]

theorem places_vulnerabilityAnalysis (E : VEnv) (v : SpecVersion) (x : VulnerabilityAnalysis) (p : Place) :
    TellsOf (VulnerabilityAnalysis.validate E v x) p ↔
      (Elem.vulnerabilityAnalysis x).fault E v p ∨ Under E v ((Elem.vulnerabilityAnalysis x).located v) p ∨ Under E v (optAt "last_updated" .dateTime x.firstIssued) p := by
  unfold VulnerabilityAnalysis.validate
  refine (notes_chain [
      ("state", Under E v (optAt "state" .impactAnalysisState x.state)),
      ("justification", Under E v (optAt "justification" .impactAnalysisJustification x.justification)),
      ("responses", Under E v (manyAt "responses" .impactAnalysisResponse x.responses)),
      ("first_issued", Under E v (optAt "first_issued" .dateTime x.firstIssued)),
      ("last_updated", Under E v (optAt "last_updated" .dateTime x.firstIssued))]
    (notesCons (at_enumOption "state" .impactAnalysisState x.state (fun _ => rfl)) <|
      notesCons (at_enumOption "justification" .impactAnalysisJustification x.justification (fun _ => rfl)) <|
      notesCons (at_listOption "responses" .impactAnalysisResponse x.responses (fun _ => rfl)) <|
      notesCons (at_fieldOption "first_issued" .dateTime x.firstIssued (fun _ => rfl)) <|
      notesCons (at_fieldOption "last_updated" .dateTime x.firstIssued (fun _ => rfl)) <| .nil)
    (by simp only [List.map]; decide) p).trans ?_
  show _ ↔ (¬ True ∧ p = []) ∨ Under E v (optAt "state" .impactAnalysisState x.state ++ optAt "justification" .impactAnalysisJustification x.justification ++ manyAt "responses" .impactAnalysisResponse x.responses ++ optAt "first_issued" .dateTime x.firstIssued) p ∨ Under E v (optAt "last_updated" .dateTime x.firstIssued) p
  simp only [List.mem_cons, exists_eq_or_imp, List.not_mem_nil, false_and, exists_false, exists_eq_left, not_true_eq_false, under_append, under_nil, or_false, false_or, or_assoc]

theorem places_targetVersion (E : VEnv) (v : SpecVersion) (x : TargetVersion) (p : Place) :
    TellsOf (TargetVersion.validate E v x) p ↔
      (Elem.targetVersion x).fault E v p ∨ Under E v ((Elem.targetVersion x).located v) p := by
  unfold TargetVersion.validate
  refine (notes_chain [
      ("version_range", Under E v (oneAt "version_range" (.versionRange x.versionRange))),
      ("status", Under E v (oneAt "status" (.status x.status)))]
    (notesCons (at_enum "version_range" .versionRange x.versionRange (fun _ => rfl)) <|
      notesCons (at_enum "status" .status x.status (fun _ => rfl)) <| .nil)
    (by simp only [List.map]; decide) p).trans ?_
  show _ ↔ (¬ True ∧ p = []) ∨ Under E v (oneAt "version_range" (.versionRange x.versionRange) ++ oneAt "status" (.status x.status)) p
  simp only [List.mem_cons, exists_eq_or_imp, List.not_mem_nil, false_and, exists_false, exists_eq_left, not_true_eq_false, under_append, under_nil, or_false, false_or, or_assoc]

theorem places_vulnerabilityTarget (E : VEnv) (v : SpecVersion) (x : VulnerabilityTarget) (p : Place) :
    TellsOf (VulnerabilityTarget.validate E v x) p ↔
      (Elem.vulnerabilityTarget x).fault E v p ∨ Under E v ((Elem.vulnerabilityTarget x).located v) p := by
  unfold VulnerabilityTarget.validate
  refine (notes_chain [
      ("versions", Under E v (below "versions" (manyAt "inner" .targetVersion x.versions)))]
    (notesCons (at_wrapped "versions" .targetVersion x.versions (fun _ => rfl) (fun _ => rfl)) <| .nil)
    (by simp only [List.map]; decide) p).trans ?_
  show _ ↔ (¬ True ∧ p = []) ∨ Under E v (below "versions" (manyAt "inner" .targetVersion x.versions)) p
  simp only [List.mem_cons, exists_eq_or_imp, List.not_mem_nil, false_and, exists_false, exists_eq_left, not_true_eq_false, under_append, under_nil, or_false, false_or, or_assoc]

theorem places_vulnerability (E : VEnv) (v : SpecVersion) (x : Vulnerability) (p : Place) :
    TellsOf (Vulnerability.validate E v x) p ↔
      (Elem.vulnerability x).fault E v p ∨ Under E v ((Elem.vulnerability x).located v) p := by
  unfold Vulnerability.validate
  refine (notes_chain [
      ("id", Under E v (optAt "id" .normalizedString x.id)),
      ("vulnerability_source", Under E v (optAt "vulnerability_source" .vulnerabilitySource x.vulnerabilitySource)),
      ("vulnerability_references", Under E v (soleAt "vulnerability_references" (manyAt "inner" .vulnerabilityReference x.vulnerabilityReferences))),
      ("vulnerability_ratings", Under E v (soleAt "vulnerability_ratings" (manyAt "inner" .vulnerabilityRating x.vulnerabilityRatings))),
      ("advisories", Under E v (soleAt "advisories" (manyAt "inner" .advisory x.advisories))),
      ("created", Under E v (optAt "created" .dateTime x.created)),
      ("published", Under E v (optAt "published" .dateTime x.published)),
      ("updated", Under E v (optAt "updated" .dateTime x.updated)),
      ("vulnerability_credits", Under E v (optAt "vulnerability_credits" .vulnerabilityCredits x.vulnerabilityCredits)),
      ("tools", Under E v (optAt "tools" .tools x.tools)),
      ("vulnerability_analysis", Under E v (optAt "vulnerability_analysis" .vulnerabilityAnalysis x.vulnerabilityAnalysis)),
      ("vulnerability_targets", Under E v (below "vulnerability_targets" (manyAt "inner" .vulnerabilityTarget x.vulnerabilityTargets))),
      ("properties", Under E v (below "properties" (manyAt "inner" .property x.properties)))]
    (notesCons (at_fieldOption "id" .normalizedString x.id (fun _ => rfl)) <|
      notesCons (at_structOption "vulnerability_source" .vulnerabilitySource x.vulnerabilitySource (fun _ => rfl)) <|
      notesCons (at_sole "vulnerability_references" .vulnerabilityReference x.vulnerabilityReferences (fun _ => rfl) (fun _ => rfl)) <|
      notesCons (at_sole "vulnerability_ratings" .vulnerabilityRating x.vulnerabilityRatings (fun _ => rfl) (fun _ => rfl)) <|
      notesCons (at_sole "advisories" .advisory x.advisories (fun _ => rfl) (fun _ => rfl)) <|
      notesCons (at_fieldOption "created" .dateTime x.created (fun _ => rfl)) <|
      notesCons (at_fieldOption "published" .dateTime x.published (fun _ => rfl)) <|
      notesCons (at_fieldOption "updated" .dateTime x.updated (fun _ => rfl)) <|
      notesCons (at_structOption "vulnerability_credits" .vulnerabilityCredits x.vulnerabilityCredits (fun _ => rfl)) <|
      notesCons (at_structOption "tools" .tools x.tools (fun _ => rfl)) <|
      notesCons (at_structOption "vulnerability_analysis" .vulnerabilityAnalysis x.vulnerabilityAnalysis (fun _ => rfl)) <|
      notesCons (at_wrapped "vulnerability_targets" .vulnerabilityTarget x.vulnerabilityTargets (fun _ => rfl) (fun _ => rfl)) <|
      notesCons (at_wrapped "properties" .property x.properties (fun _ => rfl) (fun _ => rfl)) <| .nil)
    (by simp only [List.map]; decide) p).trans ?_
  show _ ↔ (¬ True ∧ p = []) ∨ Under E v (optAt "id" .normalizedString x.id ++ optAt "vulnerability_source" .vulnerabilitySource x.vulnerabilitySource ++ soleAt "vulnerability_references" (manyAt "inner" .vulnerabilityReference x.vulnerabilityReferences) ++ soleAt "vulnerability_ratings" (manyAt "inner" .vulnerabilityRating x.vulnerabilityRatings) ++ soleAt "advisories" (manyAt "inner" .advisory x.advisories) ++ optAt "created" .dateTime x.created ++ optAt "published" .dateTime x.published ++ optAt "updated" .dateTime x.updated ++ optAt "vulnerability_credits" .vulnerabilityCredits x.vulnerabilityCredits ++ optAt "tools" .tools x.tools ++ optAt "vulnerability_analysis" .vulnerabilityAnalysis x.vulnerabilityAnalysis ++ below "vulnerability_targets" (manyAt "inner" .vulnerabilityTarget x.vulnerabilityTargets) ++ below "properties" (manyAt "inner" .property x.properties)) p
  simp only [List.mem_cons, exists_eq_or_imp, List.not_mem_nil, false_and, exists_false, exists_eq_left, not_true_eq_false, under_append, under_nil, or_false, false_or, or_assoc]

theorem places_annotation (E : VEnv) (v : SpecVersion) (x : Annotation) (p : Place) :
    TellsOf (Annotation.validate E v x) p ↔
      (Elem.annotation x).fault E v p ∨ Under E v ((Elem.annotation x).located v) p := by
  unfold Annotation.validate
  refine (notes_chain [
      ("timestamp", Under E v (oneAt "timestamp" (.dateTime x.timestamp))),
      ("annotator", Under E v (oneAt "annotator" (.annotator x.annotator)))]
    (notesCons (at_field "timestamp" .dateTime x.timestamp (fun _ => rfl)) <|
      notesCons (at_struct "annotator" .annotator x.annotator (fun _ => rfl)) <| .nil)
    (by simp only [List.map]; decide) p).trans ?_
  show _ ↔ (¬ True ∧ p = []) ∨ Under E v (oneAt "timestamp" (.dateTime x.timestamp) ++ oneAt "annotator" (.annotator x.annotator)) p
  simp only [List.mem_cons, exists_eq_or_imp, List.not_mem_nil, false_and, exists_false, exists_eq_left, not_true_eq_false, under_append, under_nil, or_false, false_or, or_assoc]

theorem places_input (E : VEnv) (v : SpecVersion) (x : Input) (p : Place) :
    TellsOf (Input.validate E v x) p ↔
      (Elem.input x).fault E v p ∨ Under E v ((Elem.input x).located v) p := by
  unfold Input.validate
  refine (notes_chain [
      ((Input.requiredName x.required), Under E v (inputAt x.required)),
      ("source", Under E v (optAt "source" .resourceReference x.source)),
      ("target", Under E v (optAt "target" .resourceReference x.target)),
      ("properties", Under E v (below "properties" (manyAt "inner" .property x.properties)))]
    (notesCons (at_input x.required) <|
      notesCons (at_structOption "source" .resourceReference x.source (fun _ => rfl)) <|
      notesCons (at_structOption "target" .resourceReference x.target (fun _ => rfl)) <|
      notesCons (at_wrapped "properties" .property x.properties (fun _ => rfl) (fun _ => rfl)) <| .nil)
    (by cases x.required <;> (simp only [List.map, Input.requiredName]; decide)) p).trans ?_
  show _ ↔ (¬ True ∧ p = []) ∨ Under E v (inputAt x.required ++ optAt "source" .resourceReference x.source ++ optAt "target" .resourceReference x.target ++ below "properties" (manyAt "inner" .property x.properties)) p
  simp only [List.mem_cons, exists_eq_or_imp, List.not_mem_nil, false_and, exists_false, exists_eq_left, not_true_eq_false, under_append, under_nil, or_false, false_or, or_assoc]

theorem places_output (E : VEnv) (v : SpecVersion) (x : Output) (p : Place) :
    TellsOf (Output.validate E v x) p ↔
      (Elem.output x).fault E v p ∨ Under E v ((Elem.output x).located v) p := by
  unfold Output.validate
  refine (notes_chain [
      ((Output.requiredName x.required), Under E v (outputAt x.required)),
      ("type", Under E v (optAt "type" .outputType x.type)),
      ("source", Under E v (optAt "source" .resourceReference x.source)),
      ("target", Under E v (optAt "target" .resourceReference x.target)),
      ("properties", Under E v (below "properties" (manyAt "inner" .property x.properties)))]
    (notesCons (at_output x.required) <|
      notesCons (at_structOption "type" .outputType x.type (fun _ => rfl)) <|
      notesCons (at_structOption "source" .resourceReference x.source (fun _ => rfl)) <|
      notesCons (at_structOption "target" .resourceReference x.target (fun _ => rfl)) <|
      notesCons (at_wrapped "properties" .property x.properties (fun _ => rfl) (fun _ => rfl)) <| .nil)
    (by cases x.required <;> (simp only [List.map, Output.requiredName]; decide)) p).trans ?_
  show _ ↔ (¬ True ∧ p = []) ∨ Under E v (outputAt x.required ++ optAt "type" .outputType x.type ++ optAt "source" .resourceReference x.source ++ optAt "target" .resourceReference x.target ++ below "properties" (manyAt "inner" .property x.properties)) p
  simp only [List.mem_cons, exists_eq_or_imp, List.not_mem_nil, false_and, exists_false, exists_eq_left, not_true_eq_false, under_append, under_nil, or_false, false_or, or_assoc]

theorem places_command (E : VEnv) (v : SpecVersion) (x : Command) (p : Place) :
    TellsOf (Command.validate E v x) p ↔
      (Elem.command x).fault E v p ∨ Under E v ((Elem.command x).located v) p := by
  unfold Command.validate
  refine (notes_chain [
      ("properties", Under E v (below "properties" (manyAt "inner" .property x.properties)))]
    (notesCons (at_wrapped "properties" .property x.properties (fun _ => rfl) (fun _ => rfl)) <| .nil)
    (by simp only [List.map]; decide) p).trans ?_
  show _ ↔ (¬ True ∧ p = []) ∨ Under E v (below "properties" (manyAt "inner" .property x.properties)) p
  simp only [List.mem_cons, exists_eq_or_imp, List.not_mem_nil, false_and, exists_false, exists_eq_left, not_true_eq_false, under_append, under_nil, or_false, false_or, or_assoc]

theorem places_step (E : VEnv) (v : SpecVersion) (x : Step) (p : Place) :
    TellsOf (Step.validate E v x) p ↔
      (Elem.step x).fault E v p ∨ Under E v ((Elem.step x).located v) p := by
  unfold Step.validate
  refine (notes_chain [
      ("commands", Under E v (manyAt "commands" .command x.commands)),
      ("properties", Under E v (below "properties" (manyAt "inner" .property x.properties)))]
    (notesCons (at_listOption "commands" .command x.commands (fun _ => rfl)) <|
      notesCons (at_wrapped "properties" .property x.properties (fun _ => rfl) (fun _ => rfl)) <| .nil)
    (by simp only [List.map]; decide) p).trans ?_
  show _ ↔ (¬ True ∧ p = []) ∨ Under E v (manyAt "commands" .command x.commands ++ below "properties" (manyAt "inner" .property x.properties)) p
  simp only [List.mem_cons, exists_eq_or_imp, List.not_mem_nil, false_and, exists_false, exists_eq_left, not_true_eq_false, under_append, under_nil, or_false, false_or, or_assoc]

theorem places_triggerEvent (E : VEnv) (v : SpecVersion) (x : TriggerEvent) (p : Place) :
    TellsOf (TriggerEvent.validate E v x) p ↔
      (Elem.triggerEvent x).fault E v p ∨ Under E v ((Elem.triggerEvent x).located v) p := by
  unfold TriggerEvent.validate
  refine (notes_chain [
      ("time_received", Under E v (optAt "time_received" .dateTime x.timeReceived)),
      ("data", Under E v (optAt "data" .attachment x.data)),
      ("source", Under E v (optAt "source" .resourceReference x.source)),
      ("target", Under E v (optAt "target" .resourceReference x.target)),
      ("properties", Under E v (below "properties" (manyAt "inner" .property x.properties)))]
    (notesCons (at_fieldOption "time_received" .dateTime x.timeReceived (fun _ => rfl)) <|
      notesCons (at_structOption "data" .attachment x.data (fun _ => rfl)) <|
      notesCons (at_structOption "source" .resourceReference x.source (fun _ => rfl)) <|
      notesCons (at_structOption "target" .resourceReference x.target (fun _ => rfl)) <|
      notesCons (at_wrapped "properties" .property x.properties (fun _ => rfl) (fun _ => rfl)) <| .nil)
    (by simp only [List.map]; decide) p).trans ?_
  show _ ↔ (¬ True ∧ p = []) ∨ Under E v (optAt "time_received" .dateTime x.timeReceived ++ optAt "data" .attachment x.data ++ optAt "source" .resourceReference x.source ++ optAt "target" .resourceReference x.target ++ below "properties" (manyAt "inner" .property x.properties)) p
  simp only [List.mem_cons, exists_eq_or_imp, List.not_mem_nil, false_and, exists_false, exists_eq_left, not_true_eq_false, under_append, under_nil, or_false, false_or, or_assoc]

theorem places_condition (E : VEnv) (v : SpecVersion) (x : Condition) (p : Place) :
    TellsOf (Condition.validate E v x) p ↔
      (Elem.condition x).fault E v p ∨ Under E v ((Elem.condition x).located v) p := by
  unfold Condition.validate
  refine (notes_chain [
      ("properties", Under E v (below "properties" (manyAt "inner" .property x.properties)))]
    (notesCons (at_wrapped "properties" .property x.properties (fun _ => rfl) (fun _ => rfl)) <| .nil)
    (by simp only [List.map]; decide) p).trans ?_
  show _ ↔ (¬ True ∧ p = []) ∨ Under E v (below "properties" (manyAt "inner" .property x.properties)) p
  simp only [List.mem_cons, exists_eq_or_imp, List.not_mem_nil, false_and, exists_false, exists_eq_left, not_true_eq_false, under_append, under_nil, or_false, false_or, or_assoc]

theorem places_trigger (E : VEnv) (v : SpecVersion) (x : Trigger) (p : Place) :
    TellsOf (Trigger.validate E v x) p ↔
      (Elem.trigger x).fault E v p ∨ Under E v ((Elem.trigger x).located v) p := by
  unfold Trigger.validate
  refine (notes_chain [
      ("bom_ref", Under E v (oneAt "bom_ref" (.bomRefAttribute x.bomRef))),
      ("resource_reference", Under E v (manyAt "resource_reference" .resourceReference x.resourceReferences)),
      ("type", Under E v (oneAt "type" (.triggerType x.type))),
      ("event", Under E v (optAt "event" .triggerEvent x.event)),
      ("conditions", fun p => Again "conditions" x.conditions p ∨ Under E v (firstAt "conditions" .condition x.conditions) p),
      ("time_activated", Under E v (optAt "time_activated" .dateTime x.timeActivated)),
      ("inputs", fun p => Again "inputs" x.inputs p ∨ Under E v (firstAt "inputs" .input x.inputs) p),
      ("outputs", fun p => Again "outputs" x.outputs p ∨ Under E v (firstAt "outputs" .output x.outputs) p),
      ("properties", Under E v (below "properties" (manyAt "inner" .property x.properties)))]
    (notesCons (at_field "bom_ref" .bomRefAttribute x.bomRef (fun _ => rfl)) <|
      notesCons (at_listOption "resource_reference" .resourceReference x.resourceReferences (fun _ => rfl)) <|
      notesCons (at_struct "type" .triggerType x.type (fun _ => rfl)) <|
      notesCons (at_structOption "event" .triggerEvent x.event (fun _ => rfl)) <|
      notesCons (at_unique "conditions" .condition x.conditions (fun _ => rfl)) <|
      notesCons (at_fieldOption "time_activated" .dateTime x.timeActivated (fun _ => rfl)) <|
      notesCons (at_unique "inputs" .input x.inputs (fun _ => rfl)) <|
      notesCons (at_unique "outputs" .output x.outputs (fun _ => rfl)) <|
      notesCons (at_wrapped "properties" .property x.properties (fun _ => rfl) (fun _ => rfl)) <| .nil)
    (by simp only [List.map]; decide) p).trans ?_
  show _ ↔ _ ∨ Under E v (oneAt "bom_ref" (.bomRefAttribute x.bomRef) ++ manyAt "resource_reference" .resourceReference x.resourceReferences ++ oneAt "type" (.triggerType x.type) ++ optAt "event" .triggerEvent x.event ++ firstAt "conditions" .condition x.conditions ++ optAt "time_activated" .dateTime x.timeActivated ++ firstAt "inputs" .input x.inputs ++ firstAt "outputs" .output x.outputs ++ below "properties" (manyAt "inner" .property x.properties)) p
  simp only [List.mem_cons, exists_eq_or_imp, List.not_mem_nil, false_and, exists_false, exists_eq_left, not_true_eq_false, fault_trigger, under_append, under_nil, or_false, false_or, or_assoc]
  try grind

theorem places_volume (E : VEnv) (v : SpecVersion) (x : Volume) (p : Place) :
    TellsOf (Volume.validate E v x) p ↔
      (Elem.volume x).fault E v p ∨ Under E v ((Elem.volume x).located v) p := by
  unfold Volume.validate
  refine (notes_chain [
      ("mode", Under E v (oneAt "mode" (.volumeMode x.mode)))]
    (notesCons (at_field "mode" .volumeMode x.mode (fun _ => rfl)) <| .nil)
    (by simp only [List.map]; decide) p).trans ?_
  show _ ↔ (¬ True ∧ p = []) ∨ Under E v (oneAt "mode" (.volumeMode x.mode)) p
  simp only [List.mem_cons, exists_eq_or_imp, List.not_mem_nil, false_and, exists_false, exists_eq_left, not_true_eq_false, under_append, under_nil, or_false, false_or, or_assoc]

theorem places_workspace (E : VEnv) (v : SpecVersion) (x : Workspace) (p : Place) :
    TellsOf (Workspace.validate E v x) p ↔
      (Elem.workspace x).fault E v p ∨ Under E v ((Elem.workspace x).located v) p := by
  unfold Workspace.validate
  refine (notes_chain [
      ("resource_references", fun p => Again "resource_references" x.resourceReferences p ∨ Under E v (firstAt "resource_references" .resourceReference x.resourceReferences) p),
      ("access_mode", Under E v (optAt "access_mode" .accessMode x.accessMode))]
    (notesCons (at_unique "resource_references" .resourceReference x.resourceReferences (fun _ => rfl)) <|
      notesCons (at_fieldOption "access_mode" .accessMode x.accessMode (fun _ => rfl)) <| .nil)
    (by simp only [List.map]; decide) p).trans ?_
  show _ ↔ _ ∨ Under E v (firstAt "resource_references" .resourceReference x.resourceReferences ++ optAt "access_mode" .accessMode x.accessMode) p
  simp only [List.mem_cons, exists_eq_or_imp, List.not_mem_nil, false_and, exists_false, exists_eq_left, not_true_eq_false, fault_workspace, under_append, under_nil, or_false, false_or, or_assoc]
  try grind

theorem places_workflowTask (E : VEnv) (v : SpecVersion) (x : WorkflowTask) (p : Place) :
    TellsOf (WorkflowTask.validate E v x) p ↔
      (Elem.workflowTask x).fault E v p ∨ Under E v ((Elem.workflowTask x).located v) p := by
  unfold WorkflowTask.validate
  refine (notes_chain [
      ("resource_references", Under E v (manyAt "resource_references" .resourceReference x.resourceReferences)),
      ("task_types", Under E v (listAt "task_types" .taskType x.taskTypes)),
      ("trigger", Under E v (optAt "trigger" .trigger x.trigger)),
      ("steps", fun p => Again "steps" x.steps p ∨ Under E v (firstAt "steps" .step x.steps) p),
      ("inputs", fun p => Again "inputs" x.inputs p ∨ Under E v (firstAt "inputs" .input x.inputs) p),
      ("outputs", fun p => Again "outputs" x.outputs p ∨ Under E v (firstAt "outputs" .output x.outputs) p),
      ("time_start", Under E v (optAt "time_start" .dateTime x.timeStart)),
      ("time_end", Under E v (optAt "time_end" .dateTime x.timeEnd)),
      ("workspaces", fun p => Again "workspaces" x.workspaces p ∨ Under E v (firstAt "workspaces" .workspace x.workspaces) p),
      ("runtime_topology", Again "runtime_topology" x.runtimeTopology)]
    (notesCons (at_listOption "resource_references" .resourceReference x.resourceReferences (fun _ => rfl)) <|
      notesCons (at_list "task_types" .taskType x.taskTypes (fun _ => rfl)) <|
      notesCons (at_structOption "trigger" .trigger x.trigger (fun _ => rfl)) <|
      notesCons (at_unique "steps" .step x.steps (fun _ => rfl)) <|
      notesCons (at_unique "inputs" .input x.inputs (fun _ => rfl)) <|
      notesCons (at_unique "outputs" .output x.outputs (fun _ => rfl)) <|
      notesCons (at_fieldOption "time_start" .dateTime x.timeStart (fun _ => rfl)) <|
      notesCons (at_fieldOption "time_end" .dateTime x.timeEnd (fun _ => rfl)) <|
      notesCons (at_unique "workspaces" .workspace x.workspaces (fun _ => rfl)) <|
      notesCons (at_uniqueSkip "runtime_topology" x.runtimeTopology) <| .nil)
    (by simp only [List.map]; decide) p).trans ?_
  show _ ↔ _ ∨ Under E v (manyAt "resource_references" .resourceReference x.resourceReferences ++ listAt "task_types" .taskType x.taskTypes ++ optAt "trigger" .trigger x.trigger ++ firstAt "steps" .step x.steps ++ firstAt "inputs" .input x.inputs ++ firstAt "outputs" .output x.outputs ++ optAt "time_start" .dateTime x.timeStart ++ optAt "time_end" .dateTime x.timeEnd ++ firstAt "workspaces" .workspace x.workspaces) p
  simp only [List.mem_cons, exists_eq_or_imp, List.not_mem_nil, false_and, exists_false, exists_eq_left, not_true_eq_false, fault_workflowTask, under_append, under_nil, or_false, false_or, or_assoc]
  try grind

theorem places_workflow (E : VEnv) (v : SpecVersion) (x : Workflow) (p : Place) :
    TellsOf (Workflow.validate E v x) p ↔
      (Elem.workflow x).fault E v p ∨ Under E v ((Elem.workflow x).located v) p := by
  unfold Workflow.validate
  refine (notes_chain [
      ("resource_references", Under E v (manyAt "resource_references" .resourceReference x.resourceReferences)),
      ("tasks", fun p => Again "tasks" x.tasks p ∨ Under E v (firstAt "tasks" .workflowTask x.tasks) p),
      ("task_dependencies", Again "task_dependencies" x.taskDependencies),
      ("task_types", Under E v (listAt "task_types" .taskType x.taskTypes)),
      ("trigger", Under E v (optAt "trigger" .trigger x.trigger)),
      ("steps", fun p => Again "steps" x.steps p ∨ Under E v (firstAt "steps" .step x.steps) p),
      ("inputs", fun p => Again "inputs" x.inputs p ∨ Under E v (firstAt "inputs" .input x.inputs) p),
      ("outputs", fun p => Again "outputs" x.outputs p ∨ Under E v (firstAt "outputs" .output x.outputs) p),
      ("time_start", Under E v (optAt "time_start" .dateTime x.timeStart)),
      ("time_end", Under E v (optAt "time_end" .dateTime x.timeEnd)),
      ("workspaces", fun p => Again "workspaces" x.workspaces p ∨ Under E v (firstAt "workspaces" .workspace x.workspaces) p),
      ("runtime_topology", Again "runtime_topology" x.runtimeTopology)]
    (notesCons (at_listOption "resource_references" .resourceReference x.resourceReferences (fun _ => rfl)) <|
      notesCons (at_unique "tasks" .workflowTask x.tasks (fun _ => rfl)) <|
      notesCons (at_uniqueSkip "task_dependencies" x.taskDependencies) <|
      notesCons (at_list "task_types" .taskType x.taskTypes (fun _ => rfl)) <|
      notesCons (at_structOption "trigger" .trigger x.trigger (fun _ => rfl)) <|
      notesCons (at_unique "steps" .step x.steps (fun _ => rfl)) <|
      notesCons (at_unique "inputs" .input x.inputs (fun _ => rfl)) <|
      notesCons (at_unique "outputs" .output x.outputs (fun _ => rfl)) <|
      notesCons (at_fieldOption "time_start" .dateTime x.timeStart (fun _ => rfl)) <|
      notesCons (at_fieldOption "time_end" .dateTime x.timeEnd (fun _ => rfl)) <|
      notesCons (at_unique "workspaces" .workspace x.workspaces (fun _ => rfl)) <|
      notesCons (at_uniqueSkip "runtime_topology" x.runtimeTopology) <| .nil)
    (by simp only [List.map]; decide) p).trans ?_
  show _ ↔ _ ∨ Under E v (manyAt "resource_references" .resourceReference x.resourceReferences ++ firstAt "tasks" .workflowTask x.tasks ++ listAt "task_types" .taskType x.taskTypes ++ optAt "trigger" .trigger x.trigger ++ firstAt "steps" .step x.steps ++ firstAt "inputs" .input x.inputs ++ firstAt "outputs" .output x.outputs ++ optAt "time_start" .dateTime x.timeStart ++ optAt "time_end" .dateTime x.timeEnd ++ firstAt "workspaces" .workspace x.workspaces) p
  simp only [List.mem_cons, exists_eq_or_imp, List.not_mem_nil, false_and, exists_false, exists_eq_left, not_true_eq_false, fault_workflow, under_append, under_nil, or_false, false_or, or_assoc]
  try grind

/-! ## Other types -/

theorem places_single {s : VStep} {n : String} {P : Place → Prop} (h : Notes s n P) (p : Place) :
    TellsOf (chain [s]) p ↔ P p := by
  refine (notes_chain [(n, P)] (notesCons h .nil) (by simp) p).trans ?_
  simp

theorem places_two {s t : VStep} {n m : String} {P Q : Place → Prop} (h : Notes s n P)
    (h' : Notes t m Q) (hne : n ≠ m) (p : Place) : TellsOf (chain [s, t]) p ↔ P p ∨ Q p := by
  refine (notes_chain [(n, P), (m, Q)] (notesCons h (notesCons h' .nil)) (by simp [hne]) p).trans ?_
  simp

/-- No fault of its own. -/
theorem unfaulty {A B p : Prop} (h : A ↔ B) : A ↔ (¬ True ∧ p) ∨ B := by
  simp [h]

theorem under_here {E : VEnv} {v : SpecVersion} (e : Elem) (p : Place) :
    TellsOf (e.outcome E v) p ↔ Under E v (oneAt "" e) p := by
  rw [under_one]
  exact ⟨fun h => ⟨p, rfl, h⟩, fun ⟨s, hs, h⟩ => by
    have : p = s := hs
    exact this ▸ h⟩

theorem hop_pos {n : String} (h : n ≠ "") : hop n = [.field n] := if_neg h

theorem places_attachedText (E : VEnv) (v : SpecVersion) (x : AttachedText) (p : Place) :
    TellsOf (AttachedText.validate E v x) p ↔
      (Elem.attachedText x).fault E v p ∨ Under E v ((Elem.attachedText x).located v) p := by
  obtain ⟨ct, enc, content⟩ := x
  unfold AttachedText.validate
  have hdec : (∃ bytes, IsBase64 bytes content.toList) ↔ ∃ bytes, b64Decode content.toList = some bytes := by
    simp only [b64Decode_iff]
  show _ ↔ (enc = some .base64 ∧ (¬ ∃ bytes, IsBase64 bytes content.toList) ∧
        p = [.field "content"] ∨
      (∃ s, enc = some (.unknownEncoding s)) ∧ p = [.field "encoding"]) ∨
    Under E v (optAt "content_type" .normalizedString ct) p
  have h1 : Notes (addFieldOption "content_type" ct validateNormalizedString) "content_type"
      (Under E v (optAt "content_type" .normalizedString ct)) :=
    at_fieldOption "content_type" .normalizedString ct fun _ => rfl
  cases enc with
  | none =>
    refine (places_two h1 (notes_ok "x") (by decide) p).trans ?_
    simp
  | some e =>
    cases e with
    | base64 =>
      cases hd : b64Decode content.toList with
      | none =>
        simp only [hd]
        refine (places_two h1 (notes_field "content" _ _) (by decide) p).trans ?_
        simp [hdec, hd, hop, or_comm]
      | some bs =>
        simp only [hd]
        refine (places_two h1 (notes_ok "x") (by decide) p).trans ?_
        simp [hdec, hd]
    | unknownEncoding u =>
      refine (places_two h1 (notes_field "encoding" _ _) (by decide) p).trans ?_
      simp [validateEncoding, Encoding.fallback?, Check.require, hop, or_comm]

theorem places_callstack (E : VEnv) (v : SpecVersion) (x : Callstack) (p : Place) :
    TellsOf (Callstack.validate E v x) p ↔
      (Elem.callstack x).fault E v p ∨ Under E v ((Elem.callstack x).located v) p :=
  unfaulty (places_single (at_list "frames" .frame x.frames fun _ => rfl) p)

theorem places_licenseIdentifier (E : VEnv) (v : SpecVersion) (x : LicenseIdentifier) (p : Place) :
    TellsOf (LicenseIdentifier.validate E v x) p ↔
      (Elem.licenseIdentifier x).fault E v p ∨ Under E v ((Elem.licenseIdentifier x).located v) p := by
  cases x with
  | spdxId i => exact unfaulty (places_single (at_enum "SpdxId" .spdxId i fun _ => rfl) p)
  | name i => exact unfaulty (places_single (at_enum "Name" .normalizedString i fun _ => rfl) p)

theorem places_licenseContact (E : VEnv) (v : SpecVersion) (x : LicenseContact) (p : Place) :
    TellsOf (LicenseContact.validate E v x) p ↔
      (Elem.licenseContact x).fault E v p ∨ Under E v ((Elem.licenseContact x).located v) p := by
  cases x with
  | organization o => exact unfaulty (under_here (.organizationalEntity o) p)
  | contact c => exact unfaulty (under_here (.organizationalContact c) p)

theorem places_licenseChoice (E : VEnv) (v : SpecVersion) (x : LicenseChoice) (p : Place) :
    TellsOf (LicenseChoice.validate E v x) p ↔
      (Elem.licenseChoice x).fault E v p ∨ Under E v ((Elem.licenseChoice x).located v) p := by
  cases x with
  | license l => exact unfaulty (places_single (at_struct "license" .license l fun _ => rfl) p)
  | expression e =>
    exact unfaulty (places_single (at_enum "expression" .spdxExpression e fun _ => rfl) p)

theorem places_licenses (E : VEnv) (v : SpecVersion) (x : Licenses) (p : Place) :
    TellsOf (Licenses.validate E v x) p ↔
      (Elem.licenses x).fault E v p ∨ Under E v ((Elem.licenses x).located v) p := by
  unfold Licenses.validate
  show _ ↔ (¬ (v = .v1_5 → (∀ c ∈ x, ∃ l, c = LicenseChoice.license l) ∨ x.length ≤ 1) ∧
    p = [.field "licenses"]) ∨ Under E v (listAt "inner" .licenseChoice x) p
  have hc := licenses_counts x
  have hv : SpecVersion.le .v1_5 v = true ↔ v = .v1_5 := by cases v <;> decide
  have h1 : Notes (addList "inner" x (LicenseChoice.validate E v)) "inner"
      (Under E v (listAt "inner" .licenseChoice x)) := at_list "inner" .licenseChoice x fun _ => rfl
  simp only [hv]
  by_cases h5 : v = .v1_5
  · simp only [if_pos h5]
    split
    · rename_i h
      refine (places_two h1 (notes_custom "licenses" _) (by decide) p).trans ?_
      have : ¬ ((∀ c ∈ x, ∃ l, c = LicenseChoice.license l) ∨ x.length ≤ 1) := by
        rw [← hc]; exact fun hh => hh.1 h
      simp only [h5, true_implies, this, not_false_eq_true, true_and, hop_pos (n := "licenses") (by decide)]
      exact or_comm
    · split
      · rename_i h
        refine (places_two h1 (notes_custom "licenses" _) (by decide) p).trans ?_
        have : ¬ ((∀ c ∈ x, ∃ l, c = LicenseChoice.license l) ∨ x.length ≤ 1) := by
          rw [← hc]; exact fun hh => hh.2 h
        simp only [h5, true_implies, this, not_false_eq_true, true_and, hop_pos (n := "licenses") (by decide)]
        exact or_comm
      · rename_i h1' h2'
        refine (places_two h1 (notes_ok "x") (by decide) p).trans ?_
        have : ((∀ c ∈ x, ∃ l, c = LicenseChoice.license l) ∨ x.length ≤ 1) := hc.mp ⟨h1', h2'⟩
        simp only [this, implies_true, not_true_eq_false, false_and, false_or, or_false]
  · simp only [if_neg h5]
    refine (places_two h1 (notes_ok "x") (by decide) p).trans ?_
    simp only [h5, false_implies, not_true_eq_false, false_and, false_or, or_false]

theorem places_signature (E : VEnv) (v : SpecVersion) (x : Signature) (p : Place) :
    TellsOf (Signature.validate E v x) p ↔
      (Elem.signature x).fault E v p ∨ Under E v ((Elem.signature x).located v) p := by
  cases x with
  | signers l => exact unfaulty (places_single (at_list "Signers" .signer l fun _ => rfl) p)
  | chain l => exact unfaulty (places_single (at_list "Chain" .signer l fun _ => rfl) p)
  | single s => exact unfaulty (places_single (at_struct "Single" .signer s fun _ => rfl) p)

theorem places_dataGovernanceResponsibleParty (E : VEnv) (v : SpecVersion)
    (x : DataGovernanceResponsibleParty) (p : Place) :
    TellsOf (DataGovernanceResponsibleParty.validate E v x) p ↔
      (Elem.dataGovernanceResponsibleParty x).fault E v p ∨
        Under E v ((Elem.dataGovernanceResponsibleParty x).located v) p := by
  cases x with
  | organization o => exact unfaulty (under_here (.organizationalEntity o) p)
  | contact c => exact unfaulty (under_here (.organizationalContact c) p)

theorem places_dataset (E : VEnv) (v : SpecVersion) (x : Dataset) (p : Place) :
    TellsOf (Dataset.validate E v x) p ↔
      (Elem.dataset x).fault E v p ∨ Under E v ((Elem.dataset x).located v) p := by
  cases x with
  | component c => exact unfaulty (under_here (.componentData c) p)
  | reference r =>
    refine unfaulty ?_
    show TellsOf (.ok []) p ↔ Under E v [] p
    simp [tells_ok, noted_nil, under_nil]

theorem places_serviceDataChoice (E : VEnv) (v : SpecVersion) (x : ServiceDataChoice) (p : Place) :
    TellsOf (ServiceDataChoice.validate E v x) p ↔
      (Elem.serviceDataChoice x).fault E v p ∨ Under E v ((Elem.serviceDataChoice x).located v) p := by
  cases x with
  | serviceData l => exact unfaulty (places_single (at_list "inner" .serviceData l fun _ => rfl) p)
  | classification l =>
    exact unfaulty (places_single (at_list "inner" .dataClassification l fun _ => rfl) p)

theorem places_tools (E : VEnv) (v : SpecVersion) (x : Tools) (p : Place) :
    TellsOf (Tools.validate E v x) p ↔
      (Elem.tools x).fault E v p ∨ Under E v ((Elem.tools x).located v) p := by
  cases x with
  | list l =>
    have h : TellsOf (Tools.validate E v (.list l)) p ↔ Under E v (listAt "inner" .tool l) p := by
      cases v <;> exact places_single (at_list "inner" .tool l fun _ => rfl) p
    rw [h]
    show _ ↔ (¬ (v = .v1_5 ∨ ∃ l', Tools.list l = .list l') ∧ p = [.field "inner"]) ∨
      Under E v (listAt "inner" .tool l) p
    simp
  | object services components =>
    show _ ↔ (¬ (v = .v1_5 ∨ ∃ l', Tools.object services components = .list l') ∧
      p = [.field "inner"]) ∨
      Under E v (if v = .v1_5 then
        below "components" (manyAt "inner" .component components) ++
          below "services" (manyAt "inner" .service services)
        else []) p
    cases v with
    | v1_3 =>
      refine (places_single (notes_custom "inner" _) p).trans ?_
      simp [under_nil, hop]
    | v1_4 =>
      refine (places_single (notes_custom "inner" _) p).trans ?_
      simp [under_nil, hop]
    | v1_5 =>
      refine (places_two
        (at_wrapped (E := E) (v := .v1_5) "components" .component components (fun _ => rfl) fun _ => rfl)
        (at_wrapped (E := E) (v := .v1_5) "services" .service services (fun _ => rfl) fun _ => rfl)
        (by decide) p).trans ?_
      simp [under_append]

theorem places_annotator (E : VEnv) (v : SpecVersion) (x : Annotator) (p : Place) :
    TellsOf (Annotator.validate E v x) p ↔
      (Elem.annotator x).fault E v p ∨ Under E v ((Elem.annotator x).located v) p := by
  cases x with
  | organization o =>
    exact unfaulty (places_single (at_struct "organization" .organizationalEntity o fun _ => rfl) p)
  | individual c =>
    exact unfaulty (places_single (at_struct "contact" .organizationalContact c fun _ => rfl) p)
  | component c => exact unfaulty (places_single (at_struct "component" .component c fun _ => rfl) p)
  | service s => exact unfaulty (places_single (at_struct "service" .service s fun _ => rfl) p)

theorem places_resourceReference (E : VEnv) (v : SpecVersion) (x : ResourceReference) (p : Place) :
    TellsOf (ResourceReference.validate E v x) p ↔
      (Elem.resourceReference x).fault E v p ∨ Under E v ((Elem.resourceReference x).located v) p := by
  cases x with
  | ref r =>
    refine unfaulty ?_
    show TellsOf (.ok []) p ↔ Under E v [] p
    simp [tells_ok, noted_nil, under_nil]
  | externalReference e =>
    exact unfaulty (places_single
      (at_struct "external_reference" .externalReference e fun _ => rfl) p)

theorem places_formula (E : VEnv) (v : SpecVersion) (x : Formula) (p : Place) :
    TellsOf (Formula.validate E v x) p ↔
      (Elem.formula x).fault E v p ∨ Under E v ((Elem.formula x).located v) p := by
  show _ ↔ (v ≠ .v1_5 ∧ p = [] ∨
      v = .v1_5 ∧ (Again "components" x.components p ∨ Again "services" x.services p ∨
        Again "workflows" x.workflows p)) ∨
    Under E v (if v = .v1_5 then
      firstAt "components" .component x.components ++ firstAt "services" .service x.services ++
        firstAt "workflows" .workflow x.workflows ++
        below "properties" (manyAt "inner" .property x.properties)
      else []) p
  cases v with
  | v1_3 =>
    refine (tells_ofCheck (.error _) p).trans ?_
    simp [under_nil]
  | v1_4 =>
    refine (tells_ofCheck (.error _) p).trans ?_
    simp [under_nil]
  | v1_5 =>
    refine (notes_chain [
      ("components", fun p => Again "components" x.components p ∨
        Under E .v1_5 (firstAt "components" .component x.components) p),
      ("services", fun p => Again "services" x.services p ∨
        Under E .v1_5 (firstAt "services" .service x.services) p),
      ("workflows", fun p => Again "workflows" x.workflows p ∨
        Under E .v1_5 (firstAt "workflows" .workflow x.workflows) p),
      ("properties", Under E .v1_5 (below "properties" (manyAt "inner" .property x.properties)))]
      (notesCons (at_unique "components" .component x.components fun _ => rfl) <|
        notesCons (at_unique "services" .service x.services fun _ => rfl) <|
        notesCons (at_unique "workflows" .workflow x.workflows fun _ => rfl) <|
        notesCons (at_wrapped "properties" .property x.properties (fun _ => rfl) fun _ => rfl) <| .nil)
      (by simp only [List.map]; decide) p).trans ?_
    simp only [List.mem_cons, exists_eq_or_imp, List.not_mem_nil, false_and, exists_false,
      exists_eq_left, if_true, under_append, or_false, ne_eq, not_true_eq_false, false_or, true_and]
    grind

theorem customKind_at (n : String) (es : List String) (p : Place) :
    KindAt n (customKind es) p ↔ p = hop n ∧ es ≠ [] := by
  unfold customKind
  split
  · rename_i h
    simp [kindAt_none, h]
  · rename_i h
    constructor
    · rintro ⟨k, hk, s, rfl, hs⟩
      obtain rfl := Option.some.inj hk
      cases hs
      simp [h]
    · rintro ⟨rfl, -⟩
      obtain ⟨e, he⟩ := List.exists_mem_of_ne_nil es h
      exact ⟨_, rfl, [], by simp, .custom he⟩

/-- The messages of the reference checks are added to the others. -/
theorem noted_view {base st : VResult} {f : String → List String} (hv : View base f st)
    (hb : ∀ k, f k ≠ [] → base.lookup k = none) (p : Place) :
    Noted st p ↔ (∃ k, f k ≠ [] ∧ p = hop k) ∨ Noted base p := by
  constructor
  · rintro ⟨h, h'⟩
    rename_i n e s
    rw [VResult.error?, hv n] at h
    by_cases hf : f n = []
    · simp only [customKind, hf, if_true] at h
      exact .inr (.entry h h')
    · simp only [customKind, hf, if_false] at h
      obtain rfl := Option.some.inj h
      cases h'
      exact .inl ⟨n, hf, by simp⟩
  · rintro (⟨k, hk, rfl⟩ | ⟨h, h'⟩)
    · obtain ⟨e, he⟩ := List.exists_mem_of_ne_nil _ hk
      rw [← List.append_nil (hop k)]
      refine .entry (k := .custom (f k)) ?_ (.custom he)
      rw [VResult.error?, hv k]
      simp [customKind, hk]
    · rename_i n e s
      refine .entry (k := e) ?_ h'
      rw [VResult.error?, hv n]
      by_cases hf : f n = []
      · simpa only [customKind, hf, if_true, VResult.error?] using h
      · have := hb n hf
        rw [VResult.error?, this] at h
        cases h

theorem places_bom (E : VEnv) (v : SpecVersion) (x : Bom) (p : Place) :
    TellsOf (Bom.validateVersion E v x) p ↔
      (Elem.bom x).fault E v p ∨ Under E v ((Elem.bom x).located v) p := by
  obtain ⟨base, st, h1, h2, h3, h4⟩ := x.validateVersion_spec E v
  have hk : ∀ k, x.refMessages k ≠ [] → k ∈ refKeys := by
    intro k hk
    unfold Bom.refMessages at hk
    simp only [refKeys, List.mem_cons, List.not_mem_nil, or_false]
    grind
  rw [h2, tells_ok, noted_view h4 (fun k h => h3 k (hk k h))]
  have hbase : Noted base p ↔ Under E v ((Elem.bom x).located v) p := by
    rw [← tells_ok, ← h1]
    unfold Bom.partSteps
    refine (notes_chain [
      ("serial_number", Under E v (optAt "serial_number" .serialNumber x.serialNumber)),
      ("metadata", Under E v (optAt "metadata" .metadata x.metadata)),
      ("components", Under E v (below "components" (manyAt "inner" .component x.components))),
      ("services", Under E v (below "services" (manyAt "inner" .service x.services))),
      ("external_references", Under E v (below "external_references"
        (manyAt "inner" .externalReference x.externalReferences))),
      ("compositions", Under E v (below "compositions"
        (manyAt "composition" .composition x.compositions))),
      ("properties", Under E v (below "properties" (manyAt "inner" .property x.properties))),
      ("vulnerabilities", Under E v (below "vulnerabilities"
        (manyAt "inner" .vulnerability x.vulnerabilities)))]
      (notesCons (at_fieldOption "serial_number" .serialNumber x.serialNumber fun _ => rfl) <|
        notesCons (at_structOption "metadata" .metadata x.metadata fun _ => rfl) <|
        notesCons (at_wrapped "components" .component x.components (fun _ => rfl) fun _ => rfl) <|
        notesCons (at_wrapped "services" .service x.services (fun _ => rfl) fun _ => rfl) <|
        notesCons (at_wrapped "external_references" .externalReference x.externalReferences
          (fun _ => rfl) fun _ => rfl) <|
        notesCons (at_wrapped "compositions" .composition x.compositions
          (fun _ => rfl) fun _ => rfl) <|
        notesCons (at_wrapped "properties" .property x.properties (fun _ => rfl) fun _ => rfl) <|
        notesCons (at_wrapped "vulnerabilities" .vulnerability x.vulnerabilities
          (fun _ => rfl) fun _ => rfl) <| .nil)
      (by simp only [List.map]; decide) p).trans ?_
    show _ ↔ Under E v (optAt "serial_number" .serialNumber x.serialNumber ++
      optAt "metadata" .metadata x.metadata ++
      below "components" (manyAt "inner" .component x.components) ++
      below "services" (manyAt "inner" .service x.services) ++
      below "external_references" (manyAt "inner" .externalReference x.externalReferences) ++
      below "compositions" (manyAt "composition" .composition x.compositions) ++
      below "properties" (manyAt "inner" .property x.properties) ++
      below "vulnerabilities" (manyAt "inner" .vulnerability x.vulnerabilities)) p
    simp only [List.mem_cons, exists_eq_or_imp, List.not_mem_nil, false_and, exists_false,
      exists_eq_left, under_append, or_false, or_assoc]
  rw [hbase]
  refine or_congr ?_ Iff.rfl
  show _ ↔ ¬ x.refs.Nodup ∧ p = [.field "bom_ref"] ∨
      (∃ d ∈ x.dependencies.getD [], d.dependencyRef ∉ x.refs) ∧ p = [.field "dependency_ref"] ∨
      (∃ d ∈ x.dependencies.getD [], ∃ r ∈ d.dependencies, r ∉ x.refs) ∧
        p = [.field "sub dependency_ref"] ∨
      (∃ c ∈ x.compositions.getD [], ¬ CompositionKnown x c) ∧ p = [.field "composition ref"]
  have m1 : x.refMessages "bom_ref" ≠ [] ↔ ¬ x.refs.Nodup := by
    simp [Bom.refMessages, List.map_eq_nil_iff, repeatsFrom_eq_nil]
  have m2 : x.refMessages "dependency_ref" ≠ [] ↔
      ∃ d ∈ x.dependencies.getD [], d.dependencyRef ∉ x.refs := by
    simp [Bom.refMessages, List.map_eq_nil_iff, missing_eq_nil]
  have m3 : x.refMessages "sub dependency_ref" ≠ [] ↔
      ∃ d ∈ x.dependencies.getD [], ∃ r ∈ d.dependencies, r ∉ x.refs := by
    simp [Bom.refMessages, List.map_eq_nil_iff, missing_eq_nil]
    grind
  have m4 : x.refMessages "composition ref" ≠ [] ↔
      ∃ c ∈ x.compositions.getD [], ¬ CompositionKnown x c := by
    simp [Bom.refMessages, List.map_eq_nil_iff, missing_eq_nil, CompositionKnown]
    grind
  rw [← m1, ← m2, ← m3, ← m4]
  constructor
  · rintro ⟨k, h, rfl⟩
    have := hk k h
    simp only [refKeys, List.mem_cons, List.not_mem_nil, or_false] at this
    rcases this with rfl | rfl | rfl | rfl
    · exact .inl ⟨h, by decide⟩
    · exact .inr (.inl ⟨h, by decide⟩)
    · exact .inr (.inr (.inl ⟨h, by decide⟩))
    · exact .inr (.inr (.inr ⟨h, by decide⟩))
  · rintro (⟨h, rfl⟩ | ⟨h, rfl⟩ | ⟨h, rfl⟩ | ⟨h, rfl⟩)
    · exact ⟨_, h, by decide⟩
    · exact ⟨_, h, by decide⟩
    · exact ⟨_, h, by decide⟩
    · exact ⟨_, h, by decide⟩

end Cdx
