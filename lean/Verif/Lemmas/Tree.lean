import Verif.Spec.Tree
import Verif.Spec.Format.Bom
import Verif.Lemmas.Json

/-!
# JSON is written from the tree of fields (C90)
-/

set_option linter.unusedSectionVars false
set_option linter.unusedSimpArgs false
set_option linter.unusedVariables false

namespace Cdx

open Spec (Tree json jsonItems jsonMembers memberName)

namespace Spec

theorem jsonItems_eq (l : List Tree) : jsonItems l = l.map json := by
  induction l with
  | nil => rfl
  | cons t l ih => rw [jsonItems, ih]; rfl

theorem json_list {α : Type} (f : α → Tree) (l : List α) : json (.list f l) = .arr (l.map fun x => json (f x)) := by
  rw [Tree.list, json, jsonItems_eq, List.map_map]
  rfl

theorem json_name {α : Type} (d : α → String) (x : α) : json (.name d x) = .str (d x) := rfl

theorem json_text (s : String) : json (.text s) = .str s := rfl
theorem json_number (n : Nat) : json (.number n) = .nat n := rfl
theorem json_truth (b : Bool) : json (.truth b) = .bool b := rfl
theorem json_decimal (x : F32) : json (.decimal x) = Json.ofF32 x := rfl

theorem jsonMembers_eq (type : String) (ht : type ≠ "ServiceData") (l : List (String × Option Tree)) :
    jsonMembers type (l.filterMap fun p => p.2.map fun t => (p.1, t)) =
      Json.mkFields (l.map fun p => (memberName type p.1, p.2.map json)) := by
  induction l with
  | nil => rfl
  | cons p l ih =>
    obtain ⟨k, o⟩ := p
    cases o with
    | none => exact ih
    | some t =>
      show jsonMembers type ((k, t) :: _) = _
      rw [jsonMembers, if_neg fun h => ht h.1, ih]
      rfl

theorem json_mk (type : String) (ht : type ≠ "ServiceData") (l : List (String × Option Tree)) :
    json (.mk type l) = Json.mk (l.map fun p => (memberName type p.1, p.2.map json)) := by
  rw [Tree.mk, json, jsonMembers_eq type ht]
  rfl

theorem json_getD {α : Type} (f : α → Tree) (o : Option α) :
    json ((o.map f).getD .absent) = Json.orNull (fun x => json (f x)) o := by
  cases o <;> rfl

end Spec

open Spec

/-- The rules for single values. -/
macro "tree_simp" "[" ls:Lean.Parser.Tactic.simpLemma,* "]" : tactic =>
  `(tactic| simp (discharger := decide) only [json_mk, json_list, json_name, json_text, json_number, json_truth, json_decimal, json_getD,
      List.map_cons, List.map_nil, List.map_append, List.map_map, Option.map_map, Option.map_some, Option.map_none,
      Function.comp_def, Json.ofList, Json.ofEnum, since14, since15, List.append_nil, List.nil_append, List.cons_append,
      $ls,*])

theorem AttachedText.members : memberName "AttachedText" "contentType" = "contentType" ∧
    memberName "AttachedText" "encoding" = "encoding" ∧
    memberName "AttachedText" "content" = "content" := by decide +kernel

theorem AttachedText.json_tree (x : AttachedText) : json x.tree = x.toJson := by
  obtain ⟨h1, h2, h3⟩ := AttachedText.members
  tree_simp [AttachedText.tree, AttachedText.toJson, h1, h2, h3] <;> try rfl

theorem Property.members : memberName "Property" "name" = "name" ∧
    memberName "Property" "value" = "value" := by decide +kernel

theorem Property.json_tree (x : Property) : json x.tree = x.toJson := by
  obtain ⟨h1, h2⟩ := Property.members
  tree_simp [Property.tree, Property.toJson, h1, h2] <;> try rfl

theorem Hash.members : memberName "Hash" "alg" = "alg" ∧
    memberName "Hash" "content" = "content" := by decide +kernel

theorem Hash.json_tree (x : Hash) : json x.tree = x.toJson := by
  obtain ⟨h1, h2⟩ := Hash.members
  tree_simp [Hash.tree, Hash.toJson, h1, h2] <;> try rfl

theorem OrganizationalContact.members : memberName "OrganizationalContact" "bomRef" = "bomRef" ∧
    memberName "OrganizationalContact" "name" = "name" ∧
    memberName "OrganizationalContact" "email" = "email" ∧
    memberName "OrganizationalContact" "phone" = "phone" := by decide +kernel

theorem OrganizationalContact.json_tree (x : OrganizationalContact) : json x.tree = x.toJson := by
  obtain ⟨h1, h2, h3, h4⟩ := OrganizationalContact.members
  tree_simp [OrganizationalContact.tree, OrganizationalContact.toJson, h1, h2, h3, h4] <;> try rfl

theorem OrganizationalEntity.members : memberName "OrganizationalEntity" "bomRef" = "bomRef" ∧
    memberName "OrganizationalEntity" "name" = "name" ∧
    memberName "OrganizationalEntity" "url" = "url" ∧
    memberName "OrganizationalEntity" "contact" = "contact" := by decide +kernel

theorem OrganizationalEntity.json_tree (x : OrganizationalEntity) : json x.tree = x.toJson := by
  obtain ⟨h1, h2, h3, h4⟩ := OrganizationalEntity.members
  tree_simp [OrganizationalEntity.tree, OrganizationalEntity.toJson, h1, h2, h3, h4, OrganizationalContact.json_tree] <;> try rfl

theorem ExternalReference.members : memberName "ExternalReference" "externalReferenceType" = "type" ∧
    memberName "ExternalReference" "url" = "url" ∧
    memberName "ExternalReference" "comment" = "comment" ∧
    memberName "ExternalReference" "hashes" = "hashes" := by decide +kernel

theorem ExternalReference.json_tree (x : ExternalReference) : json x.tree = x.toJson := by
  obtain ⟨h1, h2, h3, h4⟩ := ExternalReference.members
  tree_simp [ExternalReference.tree, ExternalReference.toJson, h1, h2, h3, h4, Hash.json_tree] <;> try rfl

theorem VulnerabilitySource.members : memberName "VulnerabilitySource" "name" = "name" ∧
    memberName "VulnerabilitySource" "url" = "url" := by decide +kernel

theorem VulnerabilitySource.json_tree (x : VulnerabilitySource) : json x.tree = x.toJson := by
  obtain ⟨h1, h2⟩ := VulnerabilitySource.members
  tree_simp [VulnerabilitySource.tree, VulnerabilitySource.toJson, h1, h2] <;> try rfl

theorem VulnerabilityReference.members : memberName "VulnerabilityReference" "id" = "id" ∧
    memberName "VulnerabilityReference" "vulnerabilitySource" = "source" := by decide +kernel

theorem VulnerabilityReference.json_tree (x : VulnerabilityReference) : json x.tree = x.toJson := by
  obtain ⟨h1, h2⟩ := VulnerabilityReference.members
  tree_simp [VulnerabilityReference.tree, VulnerabilityReference.toJson, h1, h2, VulnerabilitySource.json_tree] <;> try rfl

theorem Advisory.members : memberName "Advisory" "title" = "title" ∧
    memberName "Advisory" "url" = "url" := by decide +kernel

theorem Advisory.json_tree (x : Advisory) : json x.tree = x.toJson := by
  obtain ⟨h1, h2⟩ := Advisory.members
  tree_simp [Advisory.tree, Advisory.toJson, h1, h2] <;> try rfl

theorem VulnerabilityCredits.members : memberName "VulnerabilityCredits" "organizations" = "organizations" ∧
    memberName "VulnerabilityCredits" "individuals" = "individuals" := by decide +kernel

theorem VulnerabilityCredits.json_tree (x : VulnerabilityCredits) : json x.tree = x.toJson := by
  obtain ⟨h1, h2⟩ := VulnerabilityCredits.members
  tree_simp [VulnerabilityCredits.tree, VulnerabilityCredits.toJson, h1, h2, OrganizationalEntity.json_tree, OrganizationalContact.json_tree] <;> try rfl

theorem Algorithm.json_tree (a : Algorithm) : json a.tree = a.toJson := by
  unfold Algorithm.tree Algorithm.toJson
  generalize Algorithm.new a.display = b
  cases b <;> rfl

theorem Signer.members : memberName "Signer" "algorithm" = "algorithm" ∧
    memberName "Signer" "value" = "value" := by decide +kernel

theorem Signer.json_tree (x : Signer) : json x.tree = x.toJson := by
  obtain ⟨h1, h2⟩ := Signer.members
  tree_simp [Signer.tree, Signer.toJson, h1, h2, Algorithm.json_tree] <;> try rfl

theorem Signature.json_tree (x : Signature) : json x.tree = x.toJson := by
  cases x <;> tree_simp [Signature.tree, json, tags, Signature.toJson, Signer.json_tree] <;> rfl

theorem Dependency.members : memberName "Dependency" "dependencyRef" = "ref" ∧
    memberName "Dependency" "dependencies" = "dependsOn" := by decide +kernel

theorem Dependency.json_tree (x : Dependency) : json x.tree = x.toJson := by
  obtain ⟨h1, h2⟩ := Dependency.members
  rcases x with ⟨r, _ | ⟨d, l⟩⟩ <;>
    tree_simp [Dependency.tree, Dependency.toJson, h1, h2, Json.unlessEmpty, if_true, reduceCtorEq, if_false,
      List.isEmpty_nil, List.isEmpty_cons, Bool.false_eq_true] <;> try rfl

theorem Composition.members : memberName "Composition" "aggregate" = "aggregate" ∧
    memberName "Composition" "assemblies" = "assemblies" ∧
    memberName "Composition" "dependencies" = "dependencies" ∧
    memberName "Composition" "signature" = "signature" ∧
    memberName "Composition" "bomRef" = "bomRef" ∧
    memberName "Composition" "vulnerabilities" = "vulnerabilities" := by decide +kernel

theorem Composition.json_tree (v : SpecVersion) (x : Composition) : json (x.at v).tree = x.toJson v := by
  obtain ⟨h1, h2, h3, h4, h5, h6⟩ := Composition.members
  cases v <;>
    tree_simp [Composition.tree, Composition.at, Composition.toJson, h1, h2, h3, h4, h5, h6, Signature.json_tree] <;>
    simp only [Json.mk, Json.mkFields, List.filterMap_cons, List.filterMap_nil, Option.map_none, List.filterMap_append] <;>
    try rfl

theorem IdentifiableAction.members : memberName "IdentifiableAction" "timestamp" = "timestamp" ∧
    memberName "IdentifiableAction" "name" = "name" ∧
    memberName "IdentifiableAction" "email" = "email" := by decide +kernel

theorem IdentifiableAction.json_tree (x : IdentifiableAction) : json x.tree = x.toJson := by
  obtain ⟨h1, h2, h3⟩ := IdentifiableAction.members
  tree_simp [IdentifiableAction.tree, IdentifiableAction.toJson, h1, h2, h3] <;> try rfl

theorem Commit.members : memberName "Commit" "uid" = "uid" ∧
    memberName "Commit" "url" = "url" ∧
    memberName "Commit" "author" = "author" ∧
    memberName "Commit" "committer" = "committer" ∧
    memberName "Commit" "message" = "message" := by decide +kernel

theorem Commit.json_tree (x : Commit) : json x.tree = x.toJson := by
  obtain ⟨h1, h2, h3, h4, h5⟩ := Commit.members
  tree_simp [Commit.tree, Commit.toJson, h1, h2, h3, h4, h5, IdentifiableAction.json_tree] <;> try rfl

theorem Diff.members : memberName "Diff" "text" = "text" ∧
    memberName "Diff" "url" = "url" := by decide +kernel

theorem Diff.json_tree (x : Diff) : json x.tree = x.toJson := by
  obtain ⟨h1, h2⟩ := Diff.members
  tree_simp [Diff.tree, Diff.toJson, h1, h2, AttachedText.json_tree] <;> try rfl

theorem Source.members : memberName "Source" "name" = "name" ∧
    memberName "Source" "url" = "url" := by decide +kernel

theorem Source.json_tree (x : Source) : json x.tree = x.toJson := by
  obtain ⟨h1, h2⟩ := Source.members
  tree_simp [Source.tree, Source.toJson, h1, h2] <;> try rfl

theorem Issue.members : memberName "Issue" "issueType" = "type" ∧
    memberName "Issue" "id" = "id" ∧
    memberName "Issue" "name" = "name" ∧
    memberName "Issue" "description" = "description" ∧
    memberName "Issue" "source" = "source" ∧
    memberName "Issue" "references" = "references" := by decide +kernel

theorem Issue.json_tree (x : Issue) : json x.tree = x.toJson := by
  obtain ⟨h1, h2, h3, h4, h5, h6⟩ := Issue.members
  tree_simp [Issue.tree, Issue.toJson, h1, h2, h3, h4, h5, h6, Source.json_tree] <;> try rfl

theorem Patch.members : memberName "Patch" "patchType" = "type" ∧
    memberName "Patch" "diff" = "diff" ∧
    memberName "Patch" "resolves" = "resolves" := by decide +kernel

theorem Patch.json_tree (x : Patch) : json x.tree = x.toJson := by
  obtain ⟨h1, h2, h3⟩ := Patch.members
  tree_simp [Patch.tree, Patch.toJson, h1, h2, h3, Diff.json_tree, Issue.json_tree] <;> try rfl

theorem VulnerabilityAnalysis.members : memberName "VulnerabilityAnalysis" "state" = "state" ∧
    memberName "VulnerabilityAnalysis" "justification" = "justification" ∧
    memberName "VulnerabilityAnalysis" "responses" = "responses" ∧
    memberName "VulnerabilityAnalysis" "detail" = "detail" ∧
    memberName "VulnerabilityAnalysis" "firstIssued" = "firstIssued" ∧
    memberName "VulnerabilityAnalysis" "lastUpdated" = "lastUpdated" := by decide +kernel

theorem VulnerabilityAnalysis.json_tree (v : SpecVersion) (x : VulnerabilityAnalysis) : json (x.at v).tree = x.toJson v := by
  obtain ⟨h1, h2, h3, h4, h5, h6⟩ := VulnerabilityAnalysis.members
  cases v <;>
    tree_simp [VulnerabilityAnalysis.tree, VulnerabilityAnalysis.at, VulnerabilityAnalysis.toJson, h1, h2, h3, h4, h5, h6] <;>
    simp only [Json.mk, Json.mkFields, List.filterMap_cons, List.filterMap_nil, Option.map_none, List.filterMap_append] <;>
    try rfl

theorem TargetVersion.members : memberName "TargetVersion" "version" = "version" ∧
    memberName "TargetVersion" "range" = "range" ∧
    memberName "TargetVersion" "undefinedVersionRange" = "undefinedVersionRange" ∧
    memberName "TargetVersion" "status" = "status" := by decide +kernel

theorem TargetVersion.json_tree (x : TargetVersion) : json x.tree = x.toJson := by
  obtain ⟨h1, h2, h3, h4⟩ := TargetVersion.members
  rcases x with ⟨_ | _ | _, s⟩ <;>
    tree_simp [TargetVersion.tree, TargetVersion.toJson, VersionRange.field, VersionRange.toFields, h1, h2, h3, h4] <;> try rfl

theorem VulnerabilityTarget.members : memberName "VulnerabilityTarget" "bomRef" = "ref" ∧
    memberName "VulnerabilityTarget" "versions" = "versions" := by decide +kernel

theorem VulnerabilityTarget.json_tree (x : VulnerabilityTarget) : json x.tree = x.toJson := by
  obtain ⟨h1, h2⟩ := VulnerabilityTarget.members
  tree_simp [VulnerabilityTarget.tree, VulnerabilityTarget.toJson, h1, h2, TargetVersion.json_tree] <;> try rfl

theorem LicenseContact.json_tree (x : LicenseContact) : json x.tree = x.toJson := by
  cases x <;> simp only [LicenseContact.tree, LicenseContact.toJson, json, OrganizationalEntity.json_tree,
    OrganizationalContact.json_tree] <;> rfl

theorem Licensing.members : memberName "Licensing" "altIds" = "altIds" ∧
    memberName "Licensing" "licensor" = "licensor" ∧
    memberName "Licensing" "licensee" = "licensee" ∧
    memberName "Licensing" "purchaser" = "purchaser" ∧
    memberName "Licensing" "purchaseOrder" = "purchaseOrder" ∧
    memberName "Licensing" "licenseTypes" = "licenseTypes" ∧
    memberName "Licensing" "lastRenewal" = "lastRenewal" ∧
    memberName "Licensing" "expiration" = "expiration" := by decide +kernel

theorem Licensing.json_tree (x : Licensing) : json x.tree = x.toJson := by
  obtain ⟨h1, h2, h3, h4, h5, h6, h7, h8⟩ := Licensing.members
  tree_simp [Licensing.tree, Licensing.toJson, h1, h2, h3, h4, h5, h6, h7, h8, LicenseContact.json_tree] <;> try rfl

theorem License.members : memberName "License" "spdxId" = "id" ∧
    memberName "License" "name" = "name" ∧
    memberName "License" "text" = "text" ∧
    memberName "License" "url" = "url" ∧
    memberName "License" "bomRef" = "bomRef" ∧
    memberName "License" "licensing" = "licensing" ∧
    memberName "License" "properties" = "properties" := by decide +kernel

theorem License.json_tree (v : SpecVersion) (x : License) : json (x.at v).tree = x.toJson v := by
  obtain ⟨h1, h2, h3, h4, h5, h6, h7⟩ := License.members
  rcases x with ⟨a, _ | _, c, d, e, f⟩ <;> cases v <;>
    tree_simp [License.tree, License.at, License.toJson, LicenseIdentifier.field, LicenseIdentifier.toFields,
      h1, h2, h3, h4, h5, h6, h7, AttachedText.json_tree, Licensing.json_tree, Property.json_tree] <;>
    simp only [Json.mk, Json.mkFields, List.filterMap_cons, List.filterMap_nil, Option.map_none, List.filterMap_append] <;>
    try rfl

theorem SpdxExpression.members : memberName "SpdxExpression" "bomRef" = "bomRef" ∧
    memberName "SpdxExpression" "expression" = "expression" := by decide +kernel

theorem SpdxExpression.json_tree (x : SpdxExpression) : json x.tree = x.toJson := by
  obtain ⟨h1, h2⟩ := SpdxExpression.members
  tree_simp [SpdxExpression.tree, SpdxExpression.toJson, h1, h2] <;> try rfl

theorem LicenseChoice.json_tree (v : SpecVersion) (x : LicenseChoice) : json (x.at v).tree = x.toJson v := by
  cases x <;> simp only [LicenseChoice.tree, LicenseChoice.at, LicenseChoice.toJson, json, License.json_tree,
    SpdxExpression.json_tree] <;> rfl

theorem Licenses.json_tree (v : SpecVersion) (x : Licenses) : json (x.at v).tree = Licenses.toJson v x := by
  tree_simp [Licenses.tree, Licenses.at, Licenses.toJson, LicenseChoice.json_tree] <;> try rfl

theorem VulnerabilityRating.members : memberName "VulnerabilityRating" "vulnerabilitySource" = "source" ∧
    memberName "VulnerabilityRating" "score" = "score" ∧
    memberName "VulnerabilityRating" "severity" = "severity" ∧
    memberName "VulnerabilityRating" "scoreMethod" = "method" ∧
    memberName "VulnerabilityRating" "vector" = "vector" ∧
    memberName "VulnerabilityRating" "justification" = "justification" := by decide +kernel

theorem VulnerabilityRating.json_tree (x : VulnerabilityRating) : json x.tree = x.toJson := by
  obtain ⟨h1, h2, h3, h4, h5, h6⟩ := VulnerabilityRating.members
  tree_simp [VulnerabilityRating.tree, VulnerabilityRating.toJson, h1, h2, h3, h4, h5, h6, VulnerabilitySource.json_tree] <;> try rfl

theorem Copyright.json_tree (s : String) : json (Copyright.tree s) = Copyright.toJson s := by
  have h : memberName "Copyright" "text" = "text" := by decide +kernel
  simp only [Copyright.tree, json, jsonMembers, h, String.reduceEq, false_and, if_false]
  rfl

theorem Occurrence.members : memberName "Occurrence" "bomRef" = "bomRef" ∧
    memberName "Occurrence" "location" = "location" := by decide +kernel

theorem Occurrence.json_tree (x : Occurrence) : json x.tree = x.toJson := by
  obtain ⟨h1, h2⟩ := Occurrence.members
  tree_simp [Occurrence.tree, Occurrence.toJson, h1, h2] <;> try rfl

theorem Frame.members : memberName "Frame" "package" = "package" ∧
    memberName "Frame" "module" = "module" ∧
    memberName "Frame" "function" = "function" ∧
    memberName "Frame" "parameters" = "parameters" ∧
    memberName "Frame" "line" = "line" ∧
    memberName "Frame" "column" = "column" ∧
    memberName "Frame" "fullFilename" = "fullFilename" := by decide +kernel

theorem Frame.json_tree (x : Frame) : json x.tree = x.toJson := by
  obtain ⟨h1, h2, h3, h4, h5, h6, h7⟩ := Frame.members
  tree_simp [Frame.tree, Frame.toJson, h1, h2, h3, h4, h5, h6, h7] <;> try rfl

theorem Callstack.members : memberName "Callstack" "frames" = "frames" := by decide +kernel

theorem Callstack.json_tree (x : Callstack) : json x.tree = x.toJson := by
  obtain h1 := Callstack.members
  tree_simp [Callstack.tree, Callstack.toJson, h1, Frame.json_tree] <;> try rfl

theorem Method.members : memberName "Method" "technique" = "technique" ∧
    memberName "Method" "confidence" = "confidence" ∧
    memberName "Method" "value" = "value" := by decide +kernel

theorem Method.json_tree (x : Method) : json x.tree = x.toJson := by
  obtain ⟨h1, h2, h3⟩ := Method.members
  tree_simp [Method.tree, Method.toJson, h1, h2, h3] <;> try rfl

theorem Identity.members : memberName "Identity" "field" = "field" ∧
    memberName "Identity" "confidence" = "confidence" ∧
    memberName "Identity" "methods" = "methods" ∧
    memberName "Identity" "tools" = "tools" := by decide +kernel

theorem Identity.json_tree (x : Identity) : json x.tree = x.toJson := by
  obtain ⟨h1, h2, h3, h4⟩ := Identity.members
  tree_simp [Identity.tree, Identity.toJson, h1, h2, h3, h4, Method.json_tree] <;> try rfl

theorem ComponentEvidence.members : memberName "ComponentEvidence" "licenses" = "licenses" ∧
    memberName "ComponentEvidence" "copyright" = "copyright" ∧
    memberName "ComponentEvidence" "occurrences" = "occurrences" ∧
    memberName "ComponentEvidence" "callstack" = "callstack" ∧
    memberName "ComponentEvidence" "identity" = "identity" := by decide +kernel

theorem ComponentEvidence.json_tree (v : SpecVersion) (x : ComponentEvidence) : json (x.at v).tree = x.toJson v := by
  obtain ⟨h1, h2, h3, h4, h5⟩ := ComponentEvidence.members
  cases v <;>
    tree_simp [ComponentEvidence.tree, ComponentEvidence.at, ComponentEvidence.toJson, h1, h2, h3, h4, h5, Licenses.json_tree, Copyright.json_tree, Occurrence.json_tree, Callstack.json_tree, Identity.json_tree] <;>
    simp only [Json.mk, Json.mkFields, List.filterMap_cons, List.filterMap_nil, Option.map_none, List.filterMap_append] <;>
    try rfl

theorem DataGovernanceResponsibleParty.json_tree (x : DataGovernanceResponsibleParty) : json x.tree = x.toJson := by
  cases x <;> simp only [DataGovernanceResponsibleParty.tree, DataGovernanceResponsibleParty.toJson, json,
    OrganizationalEntity.json_tree, OrganizationalContact.json_tree] <;> rfl

theorem DataGovernance.members : memberName "DataGovernance" "custodians" = "custodians" ∧
    memberName "DataGovernance" "stewards" = "stewards" ∧
    memberName "DataGovernance" "owners" = "owners" := by decide +kernel

theorem DataGovernance.json_tree (x : DataGovernance) : json x.tree = x.toJson := by
  obtain ⟨h1, h2, h3⟩ := DataGovernance.members
  tree_simp [DataGovernance.tree, DataGovernance.toJson, h1, h2, h3, DataGovernanceResponsibleParty.json_tree] <;> try rfl

theorem Attachment.members : memberName "Attachment" "content" = "content" ∧
    memberName "Attachment" "contentType" = "contentType" ∧
    memberName "Attachment" "encoding" = "encoding" := by decide +kernel

theorem Attachment.json_tree (x : Attachment) : json x.tree = x.toJson := by
  obtain ⟨h1, h2, h3⟩ := Attachment.members
  tree_simp [Attachment.tree, Attachment.toJson, h1, h2, h3] <;> try rfl

theorem Graphic.members : memberName "Graphic" "name" = "name" ∧
    memberName "Graphic" "image" = "image" := by decide +kernel

theorem Graphic.json_tree (x : Graphic) : json x.tree = x.toJson := by
  obtain ⟨h1, h2⟩ := Graphic.members
  tree_simp [Graphic.tree, Graphic.toJson, h1, h2, Attachment.json_tree] <;> try rfl

theorem GraphicsCollection.members : memberName "GraphicsCollection" "description" = "description" ∧
    memberName "GraphicsCollection" "collection" = "collection" := by decide +kernel

theorem GraphicsCollection.json_tree (x : GraphicsCollection) : json x.tree = x.toJson := by
  obtain ⟨h1, h2⟩ := GraphicsCollection.members
  tree_simp [GraphicsCollection.tree, GraphicsCollection.toJson, h1, h2, Graphic.json_tree] <;> try rfl

theorem DataContents.members : memberName "DataContents" "attachment" = "attachment" ∧
    memberName "DataContents" "url" = "url" ∧
    memberName "DataContents" "properties" = "properties" := by decide +kernel

theorem DataContents.json_tree (x : DataContents) : json x.tree = x.toJson := by
  obtain ⟨h1, h2, h3⟩ := DataContents.members
  tree_simp [DataContents.tree, DataContents.toJson, h1, h2, h3, Attachment.json_tree, Property.json_tree] <;> try rfl

theorem ComponentData.members : memberName "ComponentData" "bomRef" = "bomRef" ∧
    memberName "ComponentData" "dataType" = "type" ∧
    memberName "ComponentData" "name" = "name" ∧
    memberName "ComponentData" "contents" = "contents" ∧
    memberName "ComponentData" "classification" = "classification" ∧
    memberName "ComponentData" "sensitiveData" = "sensitiveData" ∧
    memberName "ComponentData" "graphics" = "graphics" ∧
    memberName "ComponentData" "description" = "description" ∧
    memberName "ComponentData" "governance" = "governance" := by decide +kernel

theorem ComponentData.json_tree (x : ComponentData) : json x.tree = x.toJson := by
  obtain ⟨h1, h2, h3, h4, h5, h6, h7, h8, h9⟩ := ComponentData.members
  tree_simp [ComponentData.tree, ComponentData.toJson, h1, h2, h3, h4, h5, h6, h7, h8, h9, DataContents.json_tree, GraphicsCollection.json_tree, DataGovernance.json_tree] <;> try rfl

theorem ModelParametersApproach.members : memberName "ModelParametersApproach" "approachType" = "type" := by decide +kernel

theorem ModelParametersApproach.json_tree (x : ModelParametersApproach) : json x.tree = x.toJson := by
  obtain h1 := ModelParametersApproach.members
  tree_simp [ModelParametersApproach.tree, ModelParametersApproach.toJson, h1] <;> try rfl

theorem Dataset.json_tree (x : Dataset) : json x.tree = x.toJson := by
  cases x <;> simp only [Dataset.tree, Dataset.toJson, json, ComponentData.json_tree] <;> rfl

theorem MLParameter.members : memberName "MLParameter" "format" = "format" := by decide +kernel

theorem MLParameter.json_tree (x : MLParameter) : json x.tree = x.toJson := by
  obtain h1 := MLParameter.members
  tree_simp [MLParameter.tree, MLParameter.toJson, h1] <;> try rfl

theorem ModelParameters.members : memberName "ModelParameters" "approach" = "approach" ∧
    memberName "ModelParameters" "task" = "task" ∧
    memberName "ModelParameters" "architectureFamily" = "architectureFamily" ∧
    memberName "ModelParameters" "modelArchitecture" = "modelArchitecture" ∧
    memberName "ModelParameters" "datasets" = "datasets" ∧
    memberName "ModelParameters" "inputs" = "inputs" ∧
    memberName "ModelParameters" "outputs" = "outputs" := by decide +kernel

theorem ModelParameters.json_tree (x : ModelParameters) : json x.tree = x.toJson := by
  obtain ⟨h1, h2, h3, h4, h5, h6, h7⟩ := ModelParameters.members
  tree_simp [ModelParameters.tree, ModelParameters.toJson, h1, h2, h3, h4, h5, h6, h7, ModelParametersApproach.json_tree, Dataset.json_tree, MLParameter.json_tree] <;> try rfl

theorem ConfidenceInterval.members : memberName "ConfidenceInterval" "lowerBound" = "lowerBound" ∧
    memberName "ConfidenceInterval" "upperBound" = "upperBound" := by decide +kernel

theorem ConfidenceInterval.json_tree (x : ConfidenceInterval) : json x.tree = x.toJson := by
  obtain ⟨h1, h2⟩ := ConfidenceInterval.members
  tree_simp [ConfidenceInterval.tree, ConfidenceInterval.toJson, h1, h2] <;> try rfl

theorem PerformanceMetric.members : memberName "PerformanceMetric" "metricType" = "type" ∧
    memberName "PerformanceMetric" "value" = "value" ∧
    memberName "PerformanceMetric" "slice" = "slice" ∧
    memberName "PerformanceMetric" "confidenceInterval" = "confidence_interval" := by decide +kernel

theorem PerformanceMetric.json_tree (x : PerformanceMetric) : json x.tree = x.toJson := by
  obtain ⟨h1, h2, h3, h4⟩ := PerformanceMetric.members
  tree_simp [PerformanceMetric.tree, PerformanceMetric.toJson, h1, h2, h3, h4, ConfidenceInterval.json_tree] <;> try rfl

theorem QuantitativeAnalysis.members : memberName "QuantitativeAnalysis" "performanceMetrics" = "performanceMetrics" ∧
    memberName "QuantitativeAnalysis" "graphics" = "graphics" := by decide +kernel

theorem QuantitativeAnalysis.json_tree (x : QuantitativeAnalysis) : json x.tree = x.toJson := by
  obtain ⟨h1, h2⟩ := QuantitativeAnalysis.members
  tree_simp [QuantitativeAnalysis.tree, QuantitativeAnalysis.toJson, h1, h2, PerformanceMetric.json_tree, GraphicsCollection.json_tree] <;> try rfl

theorem Considerations.json_tree (x : Considerations) : json x.tree = x.toJson := rfl

theorem ModelCard.members : memberName "ModelCard" "bomRef" = "bomRef" ∧
    memberName "ModelCard" "modelParameters" = "modelParameters" ∧
    memberName "ModelCard" "quantitativeAnalysis" = "quantitativeAnalysis" ∧
    memberName "ModelCard" "considerations" = "considerations" ∧
    memberName "ModelCard" "properties" = "properties" := by decide +kernel

theorem ModelCard.json_tree (x : ModelCard) : json x.tree = x.toJson := by
  obtain ⟨h1, h2, h3, h4, h5⟩ := ModelCard.members
  tree_simp [ModelCard.tree, ModelCard.toJson, h1, h2, h3, h4, h5, ModelParameters.json_tree, QuantitativeAnalysis.json_tree, Considerations.json_tree, Property.json_tree] <;> try rfl

theorem VulnerabilityProofOfConcept.members : memberName "VulnerabilityProofOfConcept" "reproductionSteps" = "reproductionSteps" ∧
    memberName "VulnerabilityProofOfConcept" "environment" = "environment" ∧
    memberName "VulnerabilityProofOfConcept" "supportingMaterial" = "supportingMaterial" := by decide +kernel

theorem VulnerabilityProofOfConcept.json_tree (x : VulnerabilityProofOfConcept) : json x.tree = x.toJson := by
  obtain ⟨h1, h2, h3⟩ := VulnerabilityProofOfConcept.members
  tree_simp [VulnerabilityProofOfConcept.tree, VulnerabilityProofOfConcept.toJson, h1, h2, h3, Attachment.json_tree] <;> try rfl

theorem DataClassification.members : memberName "DataClassification" "flow" = "flow" ∧
    memberName "DataClassification" "classification" = "classification" := by decide +kernel

theorem DataClassification.json_tree (x : DataClassification) : json x.tree = x.toJson := by
  obtain ⟨h1, h2⟩ := DataClassification.members
  tree_simp [DataClassification.tree, DataClassification.toJson, h1, h2] <;> try rfl

theorem ServiceData.json_tree (x : ServiceData) : json x.tree = x.toJson := by
  obtain ⟨c1, c2⟩ := DataClassification.members
  have h : memberName "ServiceData" "name" = "name" ∧ memberName "ServiceData" "description" = "description" ∧
      memberName "ServiceData" "governance" = "governance" ∧ memberName "ServiceData" "source" = "source" ∧
      memberName "ServiceData" "destination" = "destination" := by decide +kernel
  obtain ⟨h1, h2, h3, h4, h5⟩ := h
  have hc : json x.classification.tree = .obj [("flow", .str (DataFlowType.display x.classification.flow)),
      ("classification", .str x.classification.classification)] := DataClassification.json_tree _
  rcases x with ⟨_ | a, _ | b, c, _ | d, _ | e, _ | f⟩ <;>
    simp only [ServiceData.tree, Tree.mk, List.filterMap_cons, List.filterMap_nil, Option.map_none, Option.map_some, json,
      jsonMembers, hc, h1, h2, h3, h4, h5, true_and, String.reduceEq, if_false, if_true, and_false,
      json_list, json_text, DataGovernance.json_tree, List.cons_append, List.nil_append] <;> rfl

theorem ServiceDataChoice.json_tree (v : SpecVersion) (x : ServiceDataChoice) : json (x.at v).tree = x.toJson v := by
  cases x <;> cases v <;>
    tree_simp [ServiceDataChoice.at, ServiceDataChoice.tree, ServiceDataChoice.toJson, json, ServiceData.json_tree,
      DataClassification.json_tree] <;> rfl

theorem Swid.members : memberName "Swid" "tagId" = "tagId" ∧
    memberName "Swid" "name" = "name" ∧
    memberName "Swid" "version" = "version" ∧
    memberName "Swid" "tagVersion" = "tagVersion" ∧
    memberName "Swid" "patch" = "patch" ∧
    memberName "Swid" "text" = "text" ∧
    memberName "Swid" "url" = "url" := by decide +kernel

theorem Swid.json_tree (x : Swid) : json x.tree = x.toJson := by
  obtain ⟨h1, h2, h3, h4, h5, h6, h7⟩ := Swid.members
  tree_simp [Swid.tree, Swid.toJson, h1, h2, h3, h4, h5, h6, h7, AttachedText.json_tree] <;> try rfl

theorem LifecycleDescription.members : memberName "LifecycleDescription" "name" = "name" ∧
    memberName "LifecycleDescription" "description" = "description" := by decide +kernel

theorem LifecycleDescription.json_tree (x : LifecycleDescription) : json x.tree = x.toJson := by
  obtain ⟨h1, h2⟩ := LifecycleDescription.members
  tree_simp [LifecycleDescription.tree, LifecycleDescription.toJson, h1, h2] <;> try rfl

theorem Lifecycle.json_tree (x : Lifecycle) : json x.tree = x.toJson := by
  cases x <;> simp only [Lifecycle.tree, Lifecycle.toJson, json, LifecycleDescription.json_tree] <;> rfl

theorem Component.members : memberName "Component" "componentType" = "type" ∧
    memberName "Component" "mimeType" = "mime-type" ∧
    memberName "Component" "bomRef" = "bom-ref" ∧
    memberName "Component" "supplier" = "supplier" ∧
    memberName "Component" "author" = "author" ∧
    memberName "Component" "publisher" = "publisher" ∧
    memberName "Component" "group" = "group" ∧
    memberName "Component" "name" = "name" ∧
    memberName "Component" "version" = "version" ∧
    memberName "Component" "description" = "description" ∧
    memberName "Component" "scope" = "scope" ∧
    memberName "Component" "hashes" = "hashes" ∧
    memberName "Component" "licenses" = "licenses" ∧
    memberName "Component" "copyright" = "copyright" ∧
    memberName "Component" "cpe" = "cpe" ∧
    memberName "Component" "purl" = "purl" ∧
    memberName "Component" "swid" = "swid" ∧
    memberName "Component" "modified" = "modified" ∧
    memberName "Component" "pedigree" = "pedigree" ∧
    memberName "Component" "externalReferences" = "externalReferences" ∧
    memberName "Component" "properties" = "properties" ∧
    memberName "Component" "components" = "components" ∧
    memberName "Component" "evidence" = "evidence" ∧
    memberName "Component" "signature" = "signature" ∧
    memberName "Component" "modelCard" = "modelCard" ∧
    memberName "Component" "data" = "data" := by decide +kernel

theorem Pedigree.members : memberName "Pedigree" "ancestors" = "ancestors" ∧
    memberName "Pedigree" "descendants" = "descendants" ∧
    memberName "Pedigree" "variants" = "variants" ∧
    memberName "Pedigree" "commits" = "commits" ∧
    memberName "Pedigree" "patches" = "patches" ∧
    memberName "Pedigree" "notes" = "notes" := by decide +kernel

mutual

theorem Component.json_treeOpt (v : SpecVersion) : ∀ x : Option (List Component),
    (Component.treeOpt (Component.atOpt v x)).map json = Component.toJsonOpt v x
  | none => rfl
  | some l => by
    simp only [Component.atOpt, Component.treeOpt, Option.map_some, json, Component.toJsonOpt, Component.json_treeAll v l]
termination_by structural x => x

theorem Component.json_treeAll (v : SpecVersion) : ∀ l : List Component,
    jsonItems (Component.treeAll (Component.atAll v l)) = Component.toJsonAll v l
  | [] => rfl
  | x :: l => by
    simp only [Component.atAll, Component.treeAll, jsonItems, Component.toJsonAll, Component.json_tree v x, Component.json_treeAll v l]
termination_by structural l => l

theorem Component.json_tree (v : SpecVersion) : ∀ x : Component, json (x.at v).tree = x.toJson v
  | ⟨componentType, mimeType, bomRef, supplier, author, publisher, group, name, version, description, scope, hashes, licenses, copyright, cpe, purl, swid, modified, pedigree, externalReferences, properties, components, evidence, signature, modelCard, data⟩ => by
    obtain ⟨h1, h2, h3, h4, h5, h6, h7, h8, h9, h10, h11, h12, h13, h14, h15, h16, h17, h18, h19, h20, h21, h22, h23, h24, h25, h26⟩ := Component.members
    have o0 := Pedigree.json_treeOpt v pedigree
    have o1 := Component.json_treeOpt v components
    cases v <;>
      tree_simp [Component.tree, Component.at, Component.toJson, h1, h2, h3, h4, h5, h6, h7, h8, h9, h10, h11, h12, h13, h14, h15, h16, h17, h18, h19, h20, h21, h22, h23, h24, h25, h26,
        OrganizationalEntity.json_tree, Hash.json_tree, Licenses.json_tree, Swid.json_tree, ExternalReference.json_tree, Property.json_tree, ComponentEvidence.json_tree, Signature.json_tree, ModelCard.json_tree, ComponentData.json_tree, o0, o1] <;>
      simp only [Json.mk, Json.mkFields, List.filterMap_cons, List.filterMap_nil, Option.map_none, List.filterMap_append] <;>
    try rfl
termination_by structural x => x

theorem Pedigree.json_treeOpt (v : SpecVersion) : ∀ x : Option Pedigree,
    (Pedigree.treeOpt (Pedigree.atOpt v x)).map json = Pedigree.toJsonOpt v x
  | none => rfl
  | some x => by
    simp only [Pedigree.atOpt, Pedigree.treeOpt, Option.map_some, Pedigree.toJsonOpt, Pedigree.json_tree v x]
termination_by structural x => x

theorem Pedigree.json_tree (v : SpecVersion) : ∀ x : Pedigree, json (x.at v).tree = x.toJson v
  | ⟨ancestors, descendants, variants, commits, patches, notes⟩ => by
    obtain ⟨h1, h2, h3, h4, h5, h6⟩ := Pedigree.members
    have o0 := Component.json_treeOpt v ancestors
    have o1 := Component.json_treeOpt v descendants
    have o2 := Component.json_treeOpt v variants
    cases v <;>
      tree_simp [Pedigree.tree, Pedigree.at, Pedigree.toJson, h1, h2, h3, h4, h5, h6,
        Commit.json_tree, Patch.json_tree, o0, o1, o2] <;>
      simp only [Json.mk, Json.mkFields, List.filterMap_cons, List.filterMap_nil, Option.map_none, List.filterMap_append] <;>
    try rfl
termination_by structural x => x

end

theorem Service.members : memberName "Service" "bomRef" = "bom-ref" ∧
    memberName "Service" "provider" = "provider" ∧
    memberName "Service" "group" = "group" ∧
    memberName "Service" "name" = "name" ∧
    memberName "Service" "version" = "version" ∧
    memberName "Service" "description" = "description" ∧
    memberName "Service" "endpoints" = "endpoints" ∧
    memberName "Service" "authenticated" = "authenticated" ∧
    memberName "Service" "xTrustBoundary" = "x-trust-boundary" ∧
    memberName "Service" "data" = "data" ∧
    memberName "Service" "licenses" = "licenses" ∧
    memberName "Service" "externalReferences" = "externalReferences" ∧
    memberName "Service" "properties" = "properties" ∧
    memberName "Service" "services" = "services" ∧
    memberName "Service" "signature" = "signature" ∧
    memberName "Service" "trustZone" = "trustZone" := by decide +kernel

mutual

theorem Service.json_treeOpt (v : SpecVersion) : ∀ x : Option (List Service),
    (Service.treeOpt (Service.atOpt v x)).map json = Service.toJsonOpt v x
  | none => rfl
  | some l => by
    simp only [Service.atOpt, Service.treeOpt, Option.map_some, json, Service.toJsonOpt, Service.json_treeAll v l]
termination_by structural x => x

theorem Service.json_treeAll (v : SpecVersion) : ∀ l : List Service,
    jsonItems (Service.treeAll (Service.atAll v l)) = Service.toJsonAll v l
  | [] => rfl
  | x :: l => by
    simp only [Service.atAll, Service.treeAll, jsonItems, Service.toJsonAll, Service.json_tree v x, Service.json_treeAll v l]
termination_by structural l => l

theorem Service.json_tree (v : SpecVersion) : ∀ x : Service, json (x.at v).tree = x.toJson v
  | ⟨bomRef, provider, group, name, version, description, endpoints, authenticated, xTrustBoundary, data, licenses, externalReferences, properties, services, signature, trustZone⟩ => by
    obtain ⟨h1, h2, h3, h4, h5, h6, h7, h8, h9, h10, h11, h12, h13, h14, h15, h16⟩ := Service.members
    have o0 := Service.json_treeOpt v services
    cases v <;>
      tree_simp [Service.tree, Service.at, Service.toJson, h1, h2, h3, h4, h5, h6, h7, h8, h9, h10, h11, h12, h13, h14, h15, h16,
        OrganizationalEntity.json_tree, ServiceDataChoice.json_tree, Licenses.json_tree, ExternalReference.json_tree, Property.json_tree, Signature.json_tree, o0] <;>
      simp only [Json.mk, Json.mkFields, List.filterMap_cons, List.filterMap_nil, Option.map_none, List.filterMap_append] <;>
    try rfl
termination_by structural x => x

end

theorem Tool.members : memberName "Tool" "vendor" = "vendor" ∧
    memberName "Tool" "name" = "name" ∧
    memberName "Tool" "version" = "version" ∧
    memberName "Tool" "hashes" = "hashes" ∧
    memberName "Tool" "externalReferences" = "externalReferences" := by decide +kernel

theorem Tool.json_tree (v : SpecVersion) (x : Tool) : json (x.at v).tree = x.toJson v := by
  obtain ⟨h1, h2, h3, h4, h5⟩ := Tool.members
  cases v <;>
    tree_simp [Tool.tree, Tool.at, Tool.toJson, h1, h2, h3, h4, h5, Hash.json_tree, ExternalReference.json_tree] <;>
    simp only [Json.mk, Json.mkFields, List.filterMap_cons, List.filterMap_nil, Option.map_none, List.filterMap_append] <;>
    try rfl

theorem Tools.members : memberName "Tools" "services" = "services" ∧
    memberName "Tools" "components" = "components" := by decide +kernel

theorem Tools.json_tree (v : SpecVersion) (x : Tools) : json (x.at v).tree = x.toJson v := by
  obtain ⟨h1, h2⟩ := Tools.members
  cases x <;> cases v <;>
    tree_simp [Tools.at, Tools.tree, Tools.toJson, json, h1, h2, Tool.json_tree, Service.json_tree,
      Component.json_tree] <;> rfl

theorem Metadata.members : memberName "Metadata" "timestamp" = "timestamp" ∧
    memberName "Metadata" "tools" = "tools" ∧
    memberName "Metadata" "authors" = "authors" ∧
    memberName "Metadata" "component" = "component" ∧
    memberName "Metadata" "manufacture" = "manufacture" ∧
    memberName "Metadata" "supplier" = "supplier" ∧
    memberName "Metadata" "licenses" = "licenses" ∧
    memberName "Metadata" "properties" = "properties" ∧
    memberName "Metadata" "lifecycles" = "lifecycles" := by decide +kernel

theorem Metadata.json_tree (v : SpecVersion) (x : Metadata) : json (x.at v).tree = x.toJson v := by
  obtain ⟨h1, h2, h3, h4, h5, h6, h7, h8, h9⟩ := Metadata.members
  cases v <;>
    tree_simp [Metadata.tree, Metadata.at, Metadata.toJson, h1, h2, h3, h4, h5, h6, h7, h8, h9, Tools.json_tree, OrganizationalContact.json_tree, Component.json_tree, OrganizationalEntity.json_tree, Licenses.json_tree, Property.json_tree, Lifecycle.json_tree] <;>
    simp only [Json.mk, Json.mkFields, List.filterMap_cons, List.filterMap_nil, Option.map_none, List.filterMap_append] <;>
    try rfl

theorem Vulnerability.members : memberName "Vulnerability" "bomRef" = "bom-ref" ∧
    memberName "Vulnerability" "id" = "id" ∧
    memberName "Vulnerability" "vulnerabilitySource" = "source" ∧
    memberName "Vulnerability" "vulnerabilityReferences" = "references" ∧
    memberName "Vulnerability" "vulnerabilityRatings" = "ratings" ∧
    memberName "Vulnerability" "cwes" = "cwes" ∧
    memberName "Vulnerability" "description" = "description" ∧
    memberName "Vulnerability" "detail" = "detail" ∧
    memberName "Vulnerability" "recommendation" = "recommendation" ∧
    memberName "Vulnerability" "advisories" = "advisories" ∧
    memberName "Vulnerability" "created" = "created" ∧
    memberName "Vulnerability" "published" = "published" ∧
    memberName "Vulnerability" "updated" = "updated" ∧
    memberName "Vulnerability" "vulnerabilityCredits" = "credits" ∧
    memberName "Vulnerability" "tools" = "tools" ∧
    memberName "Vulnerability" "vulnerabilityAnalysis" = "analysis" ∧
    memberName "Vulnerability" "vulnerabilityTargets" = "affects" ∧
    memberName "Vulnerability" "properties" = "properties" ∧
    memberName "Vulnerability" "workaround" = "workaround" ∧
    memberName "Vulnerability" "proofOfConcept" = "proofOfConcept" ∧
    memberName "Vulnerability" "rejected" = "rejected" := by decide +kernel

theorem Vulnerability.json_tree (v : SpecVersion) (x : Vulnerability) : json (x.at v).tree = x.toJson v := by
  obtain ⟨h1, h2, h3, h4, h5, h6, h7, h8, h9, h10, h11, h12, h13, h14, h15, h16, h17, h18, h19, h20, h21⟩ := Vulnerability.members
  cases v <;>
    tree_simp [Vulnerability.tree, Vulnerability.at, Vulnerability.toJson, h1, h2, h3, h4, h5, h6, h7, h8, h9, h10, h11, h12, h13, h14, h15, h16, h17, h18, h19, h20, h21, VulnerabilitySource.json_tree, VulnerabilityReference.json_tree, VulnerabilityRating.json_tree, Advisory.json_tree, VulnerabilityCredits.json_tree, Tools.json_tree, VulnerabilityAnalysis.json_tree, VulnerabilityTarget.json_tree, Property.json_tree, VulnerabilityProofOfConcept.json_tree] <;>
    simp only [Json.mk, Json.mkFields, List.filterMap_cons, List.filterMap_nil, Option.map_none, List.filterMap_append] <;>
    try rfl

theorem Annotator.json_tree (v : SpecVersion) (x : Annotator) : json (x.at v).tree = x.toJson v := by
  cases x <;> simp only [Annotator.tree, Annotator.at, Annotator.toJson, json, OrganizationalEntity.json_tree,
    OrganizationalContact.json_tree, Component.json_tree, Service.json_tree] <;> rfl

theorem Annotation.members : memberName "Annotation" "bomRef" = "bom-ref" ∧
    memberName "Annotation" "subjects" = "subjects" ∧
    memberName "Annotation" "annotator" = "annotator" ∧
    memberName "Annotation" "timestamp" = "timestamp" ∧
    memberName "Annotation" "text" = "text" ∧
    memberName "Annotation" "signature" = "signature" := by decide +kernel

theorem Annotation.json_tree (v : SpecVersion) (x : Annotation) : json (x.at v).tree = x.toJson v := by
  obtain ⟨h1, h2, h3, h4, h5, h6⟩ := Annotation.members
  cases v <;>
    tree_simp [Annotation.tree, Annotation.at, Annotation.toJson, h1, h2, h3, h4, h5, h6, Annotator.json_tree, Signature.json_tree] <;>
    simp only [Json.mk, Json.mkFields, List.filterMap_cons, List.filterMap_nil, Option.map_none, List.filterMap_append] <;>
    try rfl

theorem ResourceReference.json_tree (x : ResourceReference) : json x.tree = x.toJson := by
  cases x <;> simp only [ResourceReference.tree, ResourceReference.toJson, json, ExternalReference.json_tree] <;> rfl

theorem EnvironmentVar.json_tree (x : EnvironmentVar) : json x.tree = x.toJson := by
  have h : memberName "EnvironmentVar" "name" = "name" ∧ memberName "EnvironmentVar" "value" = "value" := by
    decide +kernel
  cases x <;> simp only [EnvironmentVar.tree, EnvironmentVar.toJson, json, jsonMembers, h.1, h.2, String.reduceEq, false_and, if_false] <;> rfl

theorem Parameter.members : memberName "Parameter" "name" = "name" ∧
    memberName "Parameter" "value" = "value" ∧
    memberName "Parameter" "dataType" = "dataType" := by decide +kernel

theorem Parameter.json_tree (x : Parameter) : json x.tree = x.toJson := by
  obtain ⟨h1, h2, h3⟩ := Parameter.members
  tree_simp [Parameter.tree, Parameter.toJson, h1, h2, h3] <;> try rfl

theorem Input.members : memberName "Input" "resource" = "resource" ∧
    memberName "Input" "parameters" = "parameters" ∧
    memberName "Input" "environmentVars" = "environmentVars" ∧
    memberName "Input" "data" = "data" ∧
    memberName "Input" "source" = "source" ∧
    memberName "Input" "target" = "target" ∧
    memberName "Input" "properties" = "properties" := by decide +kernel

theorem Input.json_tree (x : Input) : json x.tree = x.toJson := by
  obtain ⟨h1, h2, h3, h4, h5, h6, h7⟩ := Input.members
  rcases x with ⟨_ | _ | _ | _, a, b, c⟩ <;>
    tree_simp [Input.tree, Input.toJson, RequiredInputField.field, RequiredInputField.toFields, h1, h2, h3, h4, h5, h6, h7,
      ResourceReference.json_tree, Parameter.json_tree, EnvironmentVar.json_tree, Attachment.json_tree, Property.json_tree] <;> try rfl

theorem Output.members : memberName "Output" "resource" = "resource" ∧
    memberName "Output" "environmentVars" = "environmentVars" ∧
    memberName "Output" "data" = "data" ∧
    memberName "Output" "type" = "type" ∧
    memberName "Output" "source" = "source" ∧
    memberName "Output" "target" = "target" ∧
    memberName "Output" "properties" = "properties" := by decide +kernel

theorem Output.json_tree (x : Output) : json x.tree = x.toJson := by
  obtain ⟨h1, h2, h3, h4, h5, h6, h7⟩ := Output.members
  rcases x with ⟨_ | _ | _, a, b, c, d⟩ <;>
    tree_simp [Output.tree, Output.toJson, RequiredOutputField.field, RequiredOutputField.toFields, h1, h2, h3, h4, h5, h6, h7,
      ResourceReference.json_tree, EnvironmentVar.json_tree, Attachment.json_tree, Property.json_tree] <;> try rfl

theorem Command.members : memberName "Command" "executed" = "executed" ∧
    memberName "Command" "properties" = "properties" := by decide +kernel

theorem Command.json_tree (x : Command) : json x.tree = x.toJson := by
  obtain ⟨h1, h2⟩ := Command.members
  tree_simp [Command.tree, Command.toJson, h1, h2, Property.json_tree] <;> try rfl

theorem Step.members : memberName "Step" "commands" = "commands" ∧
    memberName "Step" "description" = "description" ∧
    memberName "Step" "name" = "name" ∧
    memberName "Step" "properties" = "properties" := by decide +kernel

theorem Step.json_tree (x : Step) : json x.tree = x.toJson := by
  obtain ⟨h1, h2, h3, h4⟩ := Step.members
  tree_simp [Step.tree, Step.toJson, h1, h2, h3, h4, Command.json_tree, Property.json_tree] <;> try rfl

theorem TriggerEvent.members : memberName "TriggerEvent" "uid" = "uid" ∧
    memberName "TriggerEvent" "description" = "description" ∧
    memberName "TriggerEvent" "timeReceived" = "timeReceived" ∧
    memberName "TriggerEvent" "data" = "data" ∧
    memberName "TriggerEvent" "source" = "source" ∧
    memberName "TriggerEvent" "target" = "target" ∧
    memberName "TriggerEvent" "properties" = "properties" := by decide +kernel

theorem TriggerEvent.json_tree (x : TriggerEvent) : json x.tree = x.toJson := by
  obtain ⟨h1, h2, h3, h4, h5, h6, h7⟩ := TriggerEvent.members
  tree_simp [TriggerEvent.tree, TriggerEvent.toJson, h1, h2, h3, h4, h5, h6, h7, Attachment.json_tree, ResourceReference.json_tree, Property.json_tree] <;> try rfl

theorem Condition.members : memberName "Condition" "description" = "description" ∧
    memberName "Condition" "expression" = "expression" ∧
    memberName "Condition" "properties" = "properties" := by decide +kernel

theorem Condition.json_tree (x : Condition) : json x.tree = x.toJson := by
  obtain ⟨h1, h2, h3⟩ := Condition.members
  tree_simp [Condition.tree, Condition.toJson, h1, h2, h3, Property.json_tree] <;> try rfl

theorem Trigger.members : memberName "Trigger" "bomRef" = "bom-ref" ∧
    memberName "Trigger" "uid" = "uid" ∧
    memberName "Trigger" "name" = "name" ∧
    memberName "Trigger" "description" = "description" ∧
    memberName "Trigger" "resourceReferences" = "resourceReferences" ∧
    memberName "Trigger" "type" = "type" ∧
    memberName "Trigger" "event" = "event" ∧
    memberName "Trigger" "conditions" = "conditions" ∧
    memberName "Trigger" "timeActivated" = "timeActivated" ∧
    memberName "Trigger" "inputs" = "inputs" ∧
    memberName "Trigger" "outputs" = "outputs" ∧
    memberName "Trigger" "properties" = "properties" := by decide +kernel

theorem Trigger.json_tree (x : Trigger) : json x.tree = x.toJson := by
  obtain ⟨h1, h2, h3, h4, h5, h6, h7, h8, h9, h10, h11, h12⟩ := Trigger.members
  tree_simp [Trigger.tree, Trigger.toJson, h1, h2, h3, h4, h5, h6, h7, h8, h9, h10, h11, h12, ResourceReference.json_tree, TriggerEvent.json_tree, Condition.json_tree, Input.json_tree, Output.json_tree, Property.json_tree] <;> try rfl

theorem Volume.members : memberName "Volume" "uid" = "uid" ∧
    memberName "Volume" "name" = "name" ∧
    memberName "Volume" "mode" = "mode" ∧
    memberName "Volume" "path" = "path" ∧
    memberName "Volume" "sizeAllocated" = "size_allocated" ∧
    memberName "Volume" "persistent" = "persistent" ∧
    memberName "Volume" "remote" = "remote" ∧
    memberName "Volume" "properties" = "properties" := by decide +kernel

theorem Volume.json_tree (x : Volume) : json x.tree = x.toJson := by
  obtain ⟨h1, h2, h3, h4, h5, h6, h7, h8⟩ := Volume.members
  tree_simp [Volume.tree, Volume.toJson, h1, h2, h3, h4, h5, h6, h7, h8, Property.json_tree] <;> try rfl

theorem Workspace.members : memberName "Workspace" "bomRef" = "bom-ref" ∧
    memberName "Workspace" "uid" = "uid" ∧
    memberName "Workspace" "name" = "name" ∧
    memberName "Workspace" "aliases" = "aliases" ∧
    memberName "Workspace" "description" = "description" ∧
    memberName "Workspace" "resourceReferences" = "resourceReferences" ∧
    memberName "Workspace" "accessMode" = "accessMode" ∧
    memberName "Workspace" "mountPath" = "mountPath" ∧
    memberName "Workspace" "managedDataType" = "managedDataType" ∧
    memberName "Workspace" "volumeRequest" = "volumeRequest" ∧
    memberName "Workspace" "volume" = "volume" ∧
    memberName "Workspace" "properties" = "properties" := by decide +kernel

theorem Workspace.json_tree (x : Workspace) : json x.tree = x.toJson := by
  obtain ⟨h1, h2, h3, h4, h5, h6, h7, h8, h9, h10, h11, h12⟩ := Workspace.members
  tree_simp [Workspace.tree, Workspace.toJson, h1, h2, h3, h4, h5, h6, h7, h8, h9, h10, h11, h12, ResourceReference.json_tree, Volume.json_tree, Property.json_tree] <;> try rfl

theorem WorkflowTask.members : memberName "WorkflowTask" "bomRef" = "bom-ref" ∧
    memberName "WorkflowTask" "uid" = "uid" ∧
    memberName "WorkflowTask" "name" = "name" ∧
    memberName "WorkflowTask" "description" = "description" ∧
    memberName "WorkflowTask" "resourceReferences" = "resourceReferences" ∧
    memberName "WorkflowTask" "taskTypes" = "taskTypes" ∧
    memberName "WorkflowTask" "trigger" = "trigger" ∧
    memberName "WorkflowTask" "steps" = "steps" ∧
    memberName "WorkflowTask" "inputs" = "inputs" ∧
    memberName "WorkflowTask" "outputs" = "outputs" ∧
    memberName "WorkflowTask" "timeStart" = "timeStart" ∧
    memberName "WorkflowTask" "timeEnd" = "timeEnd" ∧
    memberName "WorkflowTask" "workspaces" = "workspaces" ∧
    memberName "WorkflowTask" "runtimeTopology" = "runtimeTopology" ∧
    memberName "WorkflowTask" "properties" = "properties" := by decide +kernel

theorem WorkflowTask.json_tree (x : WorkflowTask) : json x.tree = x.toJson := by
  obtain ⟨h1, h2, h3, h4, h5, h6, h7, h8, h9, h10, h11, h12, h13, h14, h15⟩ := WorkflowTask.members
  tree_simp [WorkflowTask.tree, WorkflowTask.toJson, h1, h2, h3, h4, h5, h6, h7, h8, h9, h10, h11, h12, h13, h14, h15, ResourceReference.json_tree, Trigger.json_tree, Step.json_tree, Input.json_tree, Output.json_tree, Workspace.json_tree, Dependency.json_tree, Property.json_tree] <;> try rfl

theorem Workflow.members : memberName "Workflow" "bomRef" = "bom-ref" ∧
    memberName "Workflow" "uid" = "uid" ∧
    memberName "Workflow" "name" = "name" ∧
    memberName "Workflow" "description" = "description" ∧
    memberName "Workflow" "resourceReferences" = "resourceReferences" ∧
    memberName "Workflow" "tasks" = "tasks" ∧
    memberName "Workflow" "taskDependencies" = "taskDependencies" ∧
    memberName "Workflow" "taskTypes" = "taskTypes" ∧
    memberName "Workflow" "trigger" = "trigger" ∧
    memberName "Workflow" "steps" = "steps" ∧
    memberName "Workflow" "inputs" = "inputs" ∧
    memberName "Workflow" "outputs" = "outputs" ∧
    memberName "Workflow" "timeStart" = "timeStart" ∧
    memberName "Workflow" "timeEnd" = "timeEnd" ∧
    memberName "Workflow" "workspaces" = "workspaces" ∧
    memberName "Workflow" "runtimeTopology" = "runtimeTopology" ∧
    memberName "Workflow" "properties" = "properties" := by decide +kernel

theorem Workflow.json_tree (x : Workflow) : json x.tree = x.toJson := by
  obtain ⟨h1, h2, h3, h4, h5, h6, h7, h8, h9, h10, h11, h12, h13, h14, h15, h16, h17⟩ := Workflow.members
  tree_simp [Workflow.tree, Workflow.toJson, h1, h2, h3, h4, h5, h6, h7, h8, h9, h10, h11, h12, h13, h14, h15, h16, h17, ResourceReference.json_tree, WorkflowTask.json_tree, Dependency.json_tree, Trigger.json_tree, Step.json_tree, Input.json_tree, Output.json_tree, Workspace.json_tree, Property.json_tree] <;> try rfl

theorem Formula.members : memberName "Formula" "bomRef" = "bom-ref" ∧
    memberName "Formula" "components" = "components" ∧
    memberName "Formula" "services" = "services" ∧
    memberName "Formula" "workflows" = "workflows" ∧
    memberName "Formula" "properties" = "properties" := by decide +kernel

theorem Formula.json_tree (v : SpecVersion) (x : Formula) : json (x.at v).tree = x.toJson v := by
  obtain ⟨h1, h2, h3, h4, h5⟩ := Formula.members
  cases v <;>
    tree_simp [Formula.tree, Formula.at, Formula.toJson, h1, h2, h3, h4, h5, Component.json_tree, Service.json_tree, Workflow.json_tree, Property.json_tree] <;>
    simp only [Json.mk, Json.mkFields, List.filterMap_cons, List.filterMap_nil, Option.map_none, List.filterMap_append] <;>
    try rfl

theorem Bom.members : memberName "Bom" "version" = "version" ∧
    memberName "Bom" "serialNumber" = "serialNumber" ∧
    memberName "Bom" "metadata" = "metadata" ∧
    memberName "Bom" "components" = "components" ∧
    memberName "Bom" "services" = "services" ∧
    memberName "Bom" "externalReferences" = "externalReferences" ∧
    memberName "Bom" "dependencies" = "dependencies" ∧
    memberName "Bom" "compositions" = "compositions" ∧
    memberName "Bom" "vulnerabilities" = "vulnerabilities" ∧
    memberName "Bom" "signature" = "signature" ∧
    memberName "Bom" "annotations" = "annotations" ∧
    memberName "Bom" "properties" = "properties" ∧
    memberName "Bom" "formulation" = "formulation" := by decide +kernel

theorem Bom.json_tree (v : SpecVersion) (x : Bom) : jsonDocument v (x.at v).tree = x.toJson v := by
  obtain ⟨h1, h2, h3, h4, h5, h6, h7, h8, h9, h10, h11, h12, h13⟩ := Bom.members
  unfold jsonDocument
  cases v <;>
    tree_simp [Bom.tree, Bom.at, Bom.toJson, h1, h2, h3, h4, h5, h6, h7, h8, h9, h10, h11, h12, h13,
      Metadata.json_tree, Component.json_tree, Service.json_tree, ExternalReference.json_tree, Dependency.json_tree, Composition.json_tree, Vulnerability.json_tree, Signature.json_tree, Annotation.json_tree, Property.json_tree, Formula.json_tree] <;>
    simp only [Json.mk, Json.mkFields, List.filterMap_cons, List.filterMap_nil, Option.map_none, Option.map_some,
      List.filterMap_append] <;>
    try rfl

end Cdx
