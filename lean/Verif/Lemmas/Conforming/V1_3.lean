import Verif.Lemmas.Conforming.Tags

/-!
# Lemmas: what is written in version 1.3 follows the schema, or departs from it in a known way

Generated, one instance for each writer.
-/

set_option linter.unusedSectionVars false
set_option linter.unusedSimpArgs false
set_option linter.unusedVariables false
set_option synthInstance.maxSize 100000
set_option synthInstance.maxHeartbeats 400000

namespace Cdx.Conforming.V1_3

open Spec Cdx

section
variable [F32Format]

instance : Rules .v1_3 .string [] := ⟨rfl⟩
instance : Rules .v1_3 .boolean [] := ⟨rfl⟩
instance : Rules .v1_3 .bom [has "serialNumber" .string, has "version" .integer] := ⟨rfl⟩
instance : Kids .v1_3 .bom [mayHave "metadata" .metadata, mayHave "components" .components, mayHave "services" .services, mayHave "externalReferences" .externalReferences, mayHave "dependencies" .dependencies, mayHave "compositions" .compositions] := ⟨_, rfl, List.mem_singleton.mpr rfl⟩
instance : Items .v1_3 .bom [("metadata", .metadata), ("components", .components), ("services", .services), ("externalReferences", .externalReferences), ("dependencies", .dependencies), ("compositions", .compositions)] := ⟨rfl⟩
instance : Rules .v1_3 .metadata [] := ⟨rfl⟩
instance : Kids .v1_3 .metadata [mayHave "timestamp" .string, mayHave "tools" .tools, mayHave "authors" .authors, mayHave "component" .component, mayHave "manufacture" .organizationalEntity, mayHave "supplier" .organizationalEntity, mayHave "licenses" .licenses, mayHave "properties" .properties] := ⟨_, rfl, List.mem_singleton.mpr rfl⟩
instance : Items .v1_3 .metadata [("timestamp", .string), ("tools", .tools), ("authors", .authors), ("component", .component), ("manufacture", .organizationalEntity), ("supplier", .organizationalEntity), ("licenses", .licenses), ("properties", .properties)] := ⟨rfl⟩
instance : Rules .v1_3 .tools [] := ⟨rfl⟩
instance : Items .v1_3 .tools [("tool", .tool)] := ⟨rfl⟩
instance : Rules .v1_3 .tool [] := ⟨rfl⟩
instance : Kids .v1_3 .tool [mayHave "vendor" .string, mayHave "name" .string, mayHave "version" .string, mayHave "hashes" .hashes] := ⟨_, rfl, List.mem_singleton.mpr rfl⟩
instance : Items .v1_3 .tool [("vendor", .string), ("name", .string), ("version", .string), ("hashes", .hashes)] := ⟨rfl⟩
instance : Rules .v1_3 .authors [] := ⟨rfl⟩
instance : Kids .v1_3 .authors [anyNumber "author" .organizationalContact] := ⟨_, rfl, List.mem_singleton.mpr rfl⟩
instance : Items .v1_3 .authors [("author", .organizationalContact)] := ⟨rfl⟩
instance : Rules .v1_3 .organizationalContact [] := ⟨rfl⟩
instance : Kids .v1_3 .organizationalContact [mayHave "name" .string, mayHave "email" .string, mayHave "phone" .string] := ⟨_, rfl, List.mem_singleton.mpr rfl⟩
instance : Items .v1_3 .organizationalContact [("name", .string), ("email", .string), ("phone", .string)] := ⟨rfl⟩
instance : Rules .v1_3 .organizationalEntity [] := ⟨rfl⟩
instance : Kids .v1_3 .organizationalEntity [mayHave "name" .string, anyNumber "url" .string, anyNumber "contact" .organizationalContact] := ⟨_, rfl, List.mem_singleton.mpr rfl⟩
instance : Items .v1_3 .organizationalEntity [("name", .string), ("url", .string), ("contact", .organizationalContact)] := ⟨rfl⟩
instance : Rules .v1_3 .components [] := ⟨rfl⟩
instance : Kids .v1_3 .components [anyNumber "component" .component] := ⟨_, rfl, List.mem_singleton.mpr rfl⟩
instance : Items .v1_3 .components [("component", .component)] := ⟨rfl⟩
instance : Rules .v1_3 .component [needs "type" .string, has "mime-type" .string, has "bom-ref" .string] := ⟨rfl⟩
instance : Kids .v1_3 .component [mayHave "supplier" .organizationalEntity, mayHave "author" .string, mayHave "publisher" .string, mayHave "group" .string, mustHave "name" .string, (mustHave "version" .string).upTo .v1_3, mayHave "description" .string, mayHave "scope" .string, mayHave "hashes" .hashes, mayHave "licenses" .licenses, mayHave "copyright" .string, mayHave "cpe" .string, mayHave "purl" .string, mayHave "swid" .swid, mayHave "modified" .boolean, mayHave "pedigree" .pedigree, mayHave "externalReferences" .externalReferences, mayHave "properties" .properties, mayHave "components" .components, mayHave "evidence" .evidence] := ⟨_, rfl, List.mem_singleton.mpr rfl⟩
instance : Items .v1_3 .component [("supplier", .organizationalEntity), ("author", .string), ("publisher", .string), ("group", .string), ("name", .string), ("version", .string), ("description", .string), ("scope", .string), ("hashes", .hashes), ("licenses", .licenses), ("copyright", .string), ("cpe", .string), ("purl", .string), ("swid", .swid), ("modified", .boolean), ("pedigree", .pedigree), ("externalReferences", .externalReferences), ("properties", .properties), ("components", .components), ("evidence", .evidence)] := ⟨rfl⟩
instance : Rules .v1_3 .hashes [] := ⟨rfl⟩
instance : Kids .v1_3 .hashes [anyNumber "hash" .hash] := ⟨_, rfl, List.mem_singleton.mpr rfl⟩
instance : Items .v1_3 .hashes [("hash", .hash)] := ⟨rfl⟩
instance : Rules .v1_3 .hash [needs "alg" .string] := ⟨rfl⟩
instance : Rules .v1_3 .licenses [] := ⟨rfl⟩
instance : Items .v1_3 .licenses [("license", .license), ("expression", .expression)] := ⟨rfl⟩
instance : Rules .v1_3 .expression [] := ⟨rfl⟩
instance : Rules .v1_3 .licenseId [] := ⟨rfl⟩
instance : Rules .v1_3 .licenseName [] := ⟨rfl⟩
instance : Rules .v1_3 .license [] := ⟨rfl⟩
instance : Kids .v1_3 .license [oneOf [("id", .licenseId), ("name", .licenseName)], mayHave "text" .attachedText, mayHave "url" .string] := ⟨_, rfl, List.mem_singleton.mpr rfl⟩
instance : Items .v1_3 .license [("id", .licenseId), ("name", .licenseName), ("text", .attachedText), ("url", .string)] := ⟨rfl⟩
instance : Rules .v1_3 .attachedText [has "content-type" .string, has "encoding" .string] := ⟨rfl⟩
instance : Rules .v1_3 .swid [needs "tagId" .string, needs "name" .string, has "version" .string, has "tagVersion" .integer, has "patch" .boolean] := ⟨rfl⟩
instance : Kids .v1_3 .swid [mayHave "text" .attachedText, mayHave "url" .string] := ⟨_, rfl, List.mem_singleton.mpr rfl⟩
instance : Items .v1_3 .swid [("text", .attachedText), ("url", .string)] := ⟨rfl⟩
instance : Rules .v1_3 .pedigree [] := ⟨rfl⟩
instance : Kids .v1_3 .pedigree [mayHave "ancestors" .components, mayHave "descendants" .components, mayHave "variants" .components, mayHave "commits" .commits, mayHave "patches" .patches, mayHave "notes" .string] := ⟨_, rfl, List.mem_singleton.mpr rfl⟩
instance : Items .v1_3 .pedigree [("ancestors", .components), ("descendants", .components), ("variants", .components), ("commits", .commits), ("patches", .patches), ("notes", .string)] := ⟨rfl⟩
instance : Rules .v1_3 .commits [] := ⟨rfl⟩
instance : Kids .v1_3 .commits [anyNumber "commit" .commit] := ⟨_, rfl, List.mem_singleton.mpr rfl⟩
instance : Items .v1_3 .commits [("commit", .commit)] := ⟨rfl⟩
instance : Rules .v1_3 .commit [] := ⟨rfl⟩
instance : Kids .v1_3 .commit [mayHave "uid" .string, mayHave "url" .string, mayHave "author" .identifiableAction, mayHave "committer" .identifiableAction, mayHave "message" .string] := ⟨_, rfl, List.mem_singleton.mpr rfl⟩
instance : Items .v1_3 .commit [("uid", .string), ("url", .string), ("author", .identifiableAction), ("committer", .identifiableAction), ("message", .string)] := ⟨rfl⟩
instance : Rules .v1_3 .identifiableAction [] := ⟨rfl⟩
instance : Kids .v1_3 .identifiableAction [mayHave "timestamp" .string, mayHave "name" .string, mayHave "email" .string] := ⟨_, rfl, List.mem_singleton.mpr rfl⟩
instance : Items .v1_3 .identifiableAction [("timestamp", .string), ("name", .string), ("email", .string)] := ⟨rfl⟩
instance : Rules .v1_3 .patches [] := ⟨rfl⟩
instance : Kids .v1_3 .patches [anyNumber "patch" .patch] := ⟨_, rfl, List.mem_singleton.mpr rfl⟩
instance : Items .v1_3 .patches [("patch", .patch)] := ⟨rfl⟩
instance : Rules .v1_3 .patch [needs "type" .string] := ⟨rfl⟩
instance : Kids .v1_3 .patch [mayHave "diff" .diff, mayHave "resolves" .resolves] := ⟨_, rfl, List.mem_singleton.mpr rfl⟩
instance : Items .v1_3 .patch [("diff", .diff), ("resolves", .resolves)] := ⟨rfl⟩
instance : Rules .v1_3 .diff [] := ⟨rfl⟩
instance : Kids .v1_3 .diff [mayHave "text" .attachedText, mayHave "url" .string] := ⟨_, rfl, List.mem_singleton.mpr rfl⟩
instance : Items .v1_3 .diff [("text", .attachedText), ("url", .string)] := ⟨rfl⟩
instance : Rules .v1_3 .resolves [] := ⟨rfl⟩
instance : Kids .v1_3 .resolves [anyNumber "issue" .issue] := ⟨_, rfl, List.mem_singleton.mpr rfl⟩
instance : Items .v1_3 .resolves [("issue", .issue)] := ⟨rfl⟩
instance : Rules .v1_3 .issue [needs "type" .string] := ⟨rfl⟩
instance : Kids .v1_3 .issue [mayHave "id" .string, mayHave "name" .string, mayHave "description" .string, mayHave "source" .namedUrl, mayHave "references" .urls] := ⟨_, rfl, List.mem_singleton.mpr rfl⟩
instance : Items .v1_3 .issue [("id", .string), ("name", .string), ("description", .string), ("source", .namedUrl), ("references", .urls)] := ⟨rfl⟩
instance : Rules .v1_3 .namedUrl [] := ⟨rfl⟩
instance : Kids .v1_3 .namedUrl [mayHave "name" .string, mayHave "url" .string] := ⟨_, rfl, List.mem_singleton.mpr rfl⟩
instance : Items .v1_3 .namedUrl [("name", .string), ("url", .string)] := ⟨rfl⟩
instance : Rules .v1_3 .urls [] := ⟨rfl⟩
instance : Kids .v1_3 .urls [anyNumber "url" .string] := ⟨_, rfl, List.mem_singleton.mpr rfl⟩
instance : Items .v1_3 .urls [("url", .string)] := ⟨rfl⟩
instance : Rules .v1_3 .externalReferences [] := ⟨rfl⟩
instance : Kids .v1_3 .externalReferences [anyNumber "reference" .externalReference] := ⟨_, rfl, List.mem_singleton.mpr rfl⟩
instance : Items .v1_3 .externalReferences [("reference", .externalReference)] := ⟨rfl⟩
instance : Rules .v1_3 .externalReference [needs "type" .string] := ⟨rfl⟩
instance : Kids .v1_3 .externalReference [mustHave "url" .string, mayHave "comment" .string, mayHave "hashes" .hashes] := ⟨_, rfl, List.mem_singleton.mpr rfl⟩
instance : Items .v1_3 .externalReference [("url", .string), ("comment", .string), ("hashes", .hashes)] := ⟨rfl⟩
instance : Rules .v1_3 .properties [] := ⟨rfl⟩
instance : Kids .v1_3 .properties [anyNumber "property" .property] := ⟨_, rfl, List.mem_singleton.mpr rfl⟩
instance : Items .v1_3 .properties [("property", .property)] := ⟨rfl⟩
instance : Rules .v1_3 .property [needs "name" .string] := ⟨rfl⟩
instance : Rules .v1_3 .evidence [] := ⟨rfl⟩
instance : Kids .v1_3 .evidence [mayHave "licenses" .licenses, mayHave "copyright" .copyrights] := ⟨_, rfl, List.mem_singleton.mpr rfl⟩
instance : Items .v1_3 .evidence [("licenses", .licenses), ("copyright", .copyrights)] := ⟨rfl⟩
instance : Rules .v1_3 .copyrights [] := ⟨rfl⟩
instance : Kids .v1_3 .copyrights [anyNumber "text" .string] := ⟨_, rfl, List.mem_singleton.mpr rfl⟩
instance : Items .v1_3 .copyrights [("text", .string)] := ⟨rfl⟩
instance : Rules .v1_3 .reference [needs "ref" .string] := ⟨rfl⟩
instance : Kids .v1_3 .reference [] := ⟨_, rfl, List.mem_singleton.mpr rfl⟩
instance : Items .v1_3 .reference [] := ⟨rfl⟩
instance : Rules .v1_3 .services [] := ⟨rfl⟩
instance : Kids .v1_3 .services [anyNumber "service" .service] := ⟨_, rfl, List.mem_singleton.mpr rfl⟩
instance : Items .v1_3 .services [("service", .service)] := ⟨rfl⟩
instance : Rules .v1_3 .service [has "bom-ref" .string] := ⟨rfl⟩
instance : Kids .v1_3 .service [mayHave "provider" .organizationalEntity, mayHave "group" .string, mustHave "name" .string, mayHave "version" .string, mayHave "description" .string, mayHave "endpoints" .endpoints, mayHave "authenticated" .boolean, mayHave "x-trust-boundary" .boolean, mayHave "data" .serviceData, mayHave "licenses" .licenses, mayHave "externalReferences" .externalReferences, mayHave "properties" .properties, mayHave "services" .services] := ⟨_, rfl, List.mem_singleton.mpr rfl⟩
instance : Items .v1_3 .service [("provider", .organizationalEntity), ("group", .string), ("name", .string), ("version", .string), ("description", .string), ("endpoints", .endpoints), ("authenticated", .boolean), ("x-trust-boundary", .boolean), ("data", .serviceData), ("licenses", .licenses), ("externalReferences", .externalReferences), ("properties", .properties), ("services", .services)] := ⟨rfl⟩
instance : Rules .v1_3 .endpoints [] := ⟨rfl⟩
instance : Kids .v1_3 .endpoints [anyNumber "endpoint" .string] := ⟨_, rfl, List.mem_singleton.mpr rfl⟩
instance : Items .v1_3 .endpoints [("endpoint", .string)] := ⟨rfl⟩
instance : Rules .v1_3 .serviceData [] := ⟨rfl⟩
instance : Items .v1_3 .serviceData [("classification", .classification)] := ⟨rfl⟩
instance : Rules .v1_3 .classification [needs "flow" .string] := ⟨rfl⟩
instance : Rules .v1_3 .dependencies [] := ⟨rfl⟩
instance : Kids .v1_3 .dependencies [anyNumber "dependency" .dependency] := ⟨_, rfl, List.mem_singleton.mpr rfl⟩
instance : Items .v1_3 .dependencies [("dependency", .dependency)] := ⟨rfl⟩
instance : Rules .v1_3 .dependency [needs "ref" .string] := ⟨rfl⟩
instance : Kids .v1_3 .dependency [anyNumber "dependency" .subDependency] := ⟨_, rfl, List.mem_singleton.mpr rfl⟩
instance : Items .v1_3 .dependency [("dependency", .subDependency)] := ⟨rfl⟩
instance : Rules .v1_3 .subDependency [needs "ref" .string] := ⟨rfl⟩
instance : Kids .v1_3 .subDependency [anyNumber "dependency" .subDependency] := ⟨_, rfl, List.mem_singleton.mpr rfl⟩
instance : Items .v1_3 .subDependency [("dependency", .subDependency)] := ⟨rfl⟩
instance : Rules .v1_3 .compositions [] := ⟨rfl⟩
instance : Kids .v1_3 .compositions [anyNumber "composition" .composition] := ⟨_, rfl, List.mem_singleton.mpr rfl⟩
instance : Items .v1_3 .compositions [("composition", .composition)] := ⟨rfl⟩
instance : Rules .v1_3 .composition [] := ⟨rfl⟩
instance : Kids .v1_3 .composition [mustHave "aggregate" .string, mayHave "assemblies" .assemblies, mayHave "dependencies" .referencedDependencies] := ⟨_, rfl, List.mem_singleton.mpr rfl⟩
instance : Items .v1_3 .composition [("aggregate", .string), ("assemblies", .assemblies), ("dependencies", .referencedDependencies)] := ⟨rfl⟩
instance : Rules .v1_3 .assemblies [] := ⟨rfl⟩
instance : Kids .v1_3 .assemblies [anyNumber "assembly" .reference] := ⟨_, rfl, List.mem_singleton.mpr rfl⟩
instance : Items .v1_3 .assemblies [("assembly", .reference)] := ⟨rfl⟩
instance : Rules .v1_3 .referencedDependencies [] := ⟨rfl⟩
instance : Kids .v1_3 .referencedDependencies [anyNumber "dependency" .reference] := ⟨_, rfl, List.mem_singleton.mpr rfl⟩
instance : Items .v1_3 .referencedDependencies [("dependency", .reference)] := ⟨rfl⟩

instance (tag s : String) : Elem True .v1_3 tag .string (writeCdata tag s) := by
  unfold writeCdata; infer_instance

instance (tag : String) (x : AttachedText) : Elem True .v1_3 tag .attachedText (AttachedText.writeXml tag x) := by
  unfold AttachedText.writeXml; infer_instance

instance (x : Property) : Elem True .v1_3 "property" .property (Property.writeXml x) := by
  unfold Property.writeXml; infer_instance

instance (x : Hash) : Elem True .v1_3 "hash" .hash (Hash.writeXml x) := by
  unfold Hash.writeXml; infer_instance

instance (tag : String) (x : OrganizationalContact) : Elem True .v1_3 tag .organizationalContact (OrganizationalContact.writeXml tag x) := by
  obtain ⟨bomRef, name, email, phone⟩ := x
  unfold OrganizationalContact.writeXml
  dsimp only
  cases bomRef with
  | none => infer_instance
  | some r =>
    exact elem_own (l := [mayHave "name" .string, mayHave "email" .string, mayHave "phone" .string])
      inferInstance (by decide) trivial (fun xs _ => .bomRef (by simp) (by decide) rfl)

instance (tag : String) (x : OrganizationalEntity) : Elem True .v1_3 tag .organizationalEntity (OrganizationalEntity.writeXml tag x) := by
  obtain ⟨bomRef, name, url, contact⟩ := x
  unfold OrganizationalEntity.writeXml
  dsimp only
  cases bomRef with
  | none => infer_instance
  | some r =>
    exact elem_own (l := [mayHave "name" .string, anyNumber "url" .string, anyNumber "contact" .organizationalContact])
      inferInstance (by decide) trivial (fun xs _ => .bomRef (by simp) (by decide) rfl)

instance (x : ExternalReference) : Elem True .v1_3 "reference" .externalReference (ExternalReference.writeXml x) := by
  unfold ExternalReference.writeXml; infer_instance

instance (x : Dependency) : Elem True .v1_3 "dependency" .dependency (Dependency.writeXml x) := by
  unfold Dependency.writeXml; infer_instance

instance (x : Composition) : Elem True .v1_3 "composition" .composition (Composition.writeXml .v1_3 x) := by
  unfold Composition.writeXml; infer_instance

instance (tag : String) (x : IdentifiableAction) : Elem True .v1_3 tag .identifiableAction (IdentifiableAction.writeXml tag x) := by
  unfold IdentifiableAction.writeXml; infer_instance

instance (x : Commit) : Elem True .v1_3 "commit" .commit (Commit.writeXml x) := by
  unfold Commit.writeXml; infer_instance

instance (x : Diff) : Elem True .v1_3 "diff" .diff (Diff.writeXml x) := by
  unfold Diff.writeXml; infer_instance

instance (x : Source) : Elem True .v1_3 "source" .namedUrl (Source.writeXml x) := by
  unfold Source.writeXml; infer_instance

instance (x : Issue) : Elem True .v1_3 "issue" .issue (Issue.writeXml x) := by
  unfold Issue.writeXml; infer_instance

instance (x : Patch) : Elem True .v1_3 "patch" .patch (Patch.writeXml x) := by
  unfold Patch.writeXml; infer_instance

instance (x : LicenseIdentifier) : One True .v1_3 [("id", .licenseId), ("name", .licenseName)] (LicenseIdentifier.writeXml x) := by
  cases x <;> simp only [LicenseIdentifier.writeXml] <;> infer_instance

instance (x : License) : Elem True .v1_3 "license" .license (License.writeXml .v1_3 x) := by
  unfold License.writeXml; infer_instance

instance (x : SpdxExpression) : Elem True .v1_3 "expression" .expression (SpdxExpression.writeXml x) := by
  obtain ⟨bomRef, expression⟩ := x
  unfold SpdxExpression.writeXml
  cases bomRef with
  | none => infer_instance
  | some r =>
    refine elem_of (xs := [.chars expression]) (by simp [writtenAll, written]) (.inl ⟨trivial, (.bomRef (by simp) (by decide) rfl)⟩) ?_
    intro x hx n hn
    rw [List.mem_singleton] at hx
    subst hx
    cases hn

theorem licenses_tree (l : List LicenseChoice) : ∃ xs, writtenAll xs = l.flatMap (LicenseChoice.writeXml .v1_3) ∧
    IsLoose True .v1_3 .licenses xs ∧ xs.length = l.length ∧ ((∃ e, .expression e ∈ l) → HasChild "expression" xs) := by
  induction l with
  | nil => exact ⟨[], rfl, (fun x h => by cases h), rfl, by rintro ⟨e, h⟩; cases h⟩
  | cons a l ih =>
    obtain ⟨xs, hw, hl, hn, hc⟩ := ih
    cases a with
    | license y =>
      have h : Carries True .v1_3 .licenses "license" (License.writeXml .v1_3 y) := inferInstance
      obtain ⟨x, hx, hwx, ht⟩ := (inferInstance : Elem True .v1_3 "license" .license (License.writeXml .v1_3 y)).ex
      refine ⟨x :: xs, by simp [writtenAll, hw, hwx, LicenseChoice.writeXml], ?_, by simp [hn], ?_⟩
      · intro z hz
        rcases List.mem_cons.mp hz with rfl | hz
        · exact IsItem.loose ⟨"license", .license, by decide, hx.name, ht⟩
        · exact hl z hz
      · rintro ⟨e, he⟩
        rcases List.mem_cons.mp he with he | he
        · cases he
        · obtain ⟨z, hz, hzn⟩ := hc ⟨e, he⟩
          exact ⟨z, List.mem_cons_of_mem _ hz, hzn⟩
    | expression y =>
      obtain ⟨x, hx, hwx, ht⟩ := (inferInstance : Elem True .v1_3 "expression" .expression (SpdxExpression.writeXml y)).ex
      refine ⟨x :: xs, by simp [writtenAll, hw, hwx, LicenseChoice.writeXml], ?_, by simp [hn], ?_⟩
      · intro z hz
        rcases List.mem_cons.mp hz with rfl | hz
        · exact IsItem.loose ⟨"expression", .expression, by decide, hx.name, ht⟩
        · exact hl z hz
      · rintro -
        exact ⟨x, List.mem_cons_self, hx.name⟩

instance (x : Licenses) : Elem True .v1_3 "licenses" .licenses (Licenses.writeXml .v1_3 x) := by
  unfold Licenses.writeXml writeList
  by_cases h : ∃ e, LicenseChoice.expression e ∈ x
  · match x, h with
    | [], h => obtain ⟨e, h⟩ := h; cases h
    | [.expression e], _ =>
      haveI : Kids .v1_3 .licenses [mayHave "expression" .expression] := ⟨_, rfl, List.mem_cons_of_mem _ (List.mem_singleton.mpr rfl)⟩
      simp only [List.flatMap_cons, List.flatMap_nil, LicenseChoice.writeXml, List.append_nil]
      infer_instance
    | [.license y], h => obtain ⟨e, h⟩ := h; simp at h
    | a :: b :: l, h =>
      obtain ⟨xs, hw, hl, hn, hc⟩ := licenses_tree (a :: b :: l)
      refine elem_of hw (.inl ⟨trivial, (.licenses (hc h) (by rw [hn]; simp))⟩) ?_
      intro z hz n hzn t' ht'
      obtain ⟨m, hm, hall⟩ := hl z hz
      simp only [Option.mem_def] at hzn
      rw [hm] at hzn
      cases hzn
      exact hall t' ht'
  · haveI : Kids .v1_3 .licenses [anyNumber "license" .license] := ⟨_, rfl, List.mem_cons_self⟩
    haveI : Any True .v1_3 [("license", .license)] (x.flatMap (LicenseChoice.writeXml .v1_3)) := any_mem fun a ha => by
      cases a with
      | license y => simp only [LicenseChoice.writeXml]; infer_instance
      | expression y => exact absurd ⟨y, ha⟩ h
    infer_instance

instance (x : ComponentEvidence) : Elem True .v1_3 "evidence" .evidence (ComponentEvidence.writeXml .v1_3 x) := by
  unfold ComponentEvidence.writeXml; infer_instance

instance (x : DataClassification) : Elem True .v1_3 "classification" .classification (DataClassification.writeXml x) := by
  unfold DataClassification.writeXml; infer_instance

instance (x : ServiceDataChoice) : Elem True .v1_3 "data" .serviceData (ServiceDataChoice.writeXml .v1_3 x) := by
  unfold ServiceDataChoice.writeXml
  cases x with
  | classification l =>
    haveI : Kids .v1_3 .serviceData [anyNumber "classification" .classification] := ⟨_, rfl, List.mem_cons_self⟩
    simp only [ServiceDataChoice.writeInner]
    infer_instance
  | serviceData l =>
    haveI : Kids .v1_3 .serviceData [anyNumber "classification" .classification] := ⟨_, rfl, List.mem_cons_self⟩
    simp only [ServiceDataChoice.writeInner, since15]
    infer_instance

instance (x : Swid) : Elem True .v1_3 "swid" .swid (Swid.writeXml x) := by
  unfold Swid.writeXml; infer_instance

mutual
theorem component_all : ∀ (x : List Component), Component.converts13All x = true →
    Any True .v1_3 [("component", .component)] (Component.writeXmlAll .v1_3 x)
  | [], _ => by simp only [Component.writeXmlAll]; infer_instance
  | a :: x, h => by
    simp only [Component.converts13All, Bool.and_eq_true] at h
    have h1 := component_elem a h.1
    have h2 := component_all x h.2
    simp only [Component.writeXmlAll]
    infer_instance
termination_by structural x => x
theorem component_opt : ∀ (x : Option (List Component)) (tag : String), Component.converts13Opt x = true →
    Maybe True .v1_3 [(tag, .components)] (Component.writeXmlOpt .v1_3 tag x)
  | none, _, _ => by simp only [Component.writeXmlOpt]; infer_instance
  | some x, tag, h => by
    simp only [Component.converts13Opt] at h
    have h1 := component_all x h
    simp only [Component.writeXmlOpt]
    infer_instance
termination_by structural x => x
theorem pedigree_opt : ∀ (x : Option Pedigree), Pedigree.converts13Opt x = true →
    Maybe True .v1_3 [("pedigree", .pedigree)] (Pedigree.writeXmlOpt .v1_3 x)
  | none, _ => by simp only [Pedigree.writeXmlOpt]; infer_instance
  | some ⟨ancestors, descendants, variants, commits, patches, notes⟩, h => by
    simp only [Pedigree.converts13Opt, Bool.and_eq_true] at h
    have h1 := component_opt ancestors "ancestors" h.1.1
    have h2 := component_opt descendants "descendants" h.1.2
    have h3 := component_opt variants "variants" h.2
    simp only [Pedigree.writeXmlOpt, Pedigree.writeXml]
    infer_instance
termination_by structural x => x
theorem component_elem : ∀ (x : Component), x.converts13 = true →
    Elem True .v1_3 "component" .component (Component.writeXml .v1_3 x)
  | ⟨componentType, mimeType, bomRef, supplier, author, publisher, group, name, version, description, scope, hashes, licenses, copyright, cpe, purl, swid, modified, pedigree, externalReferences, properties, components, evidence, signature, modelCard, data⟩, h => by
    simp only [Component.converts13, Bool.and_eq_true] at h
    have h1 := pedigree_opt pedigree h.1.2
    have h2 := component_opt components "components" h.2
    obtain ⟨w, rfl⟩ := Option.isSome_iff_exists.mp h.1.1
    simp only [Component.writeXml, writeOpt_some]
    infer_instance
termination_by structural x => x
end



mutual
theorem service_all : ∀ (x : List Service), Any True .v1_3 [("service", .service)] (Service.writeXmlAll .v1_3 x)
  | [] => by simp only [Service.writeXmlAll]; infer_instance
  | a :: x => by
    have h1 := service_elem a
    have h2 := service_all x
    simp only [Service.writeXmlAll]
    infer_instance
termination_by structural x => x
theorem service_opt : ∀ (x : Option (List Service)) (items : List (String × ElementType))
    [HasItem items "services" .services], Maybe True .v1_3 items (Service.writeXmlOpt .v1_3 "services" x)
  | none, _, _ => by simp only [Service.writeXmlOpt]; infer_instance
  | some x, items, _ => by
    have h1 := service_all x
    simp only [Service.writeXmlOpt]
    infer_instance
termination_by structural x => x
theorem service_elem : ∀ (x : Service), Elem True .v1_3 "service" .service (Service.writeXml .v1_3 x)
  | ⟨bomRef, provider, group, name, version, description, endpoints, authenticated, xTrustBoundary, data, licenses, externalReferences, properties, services, signature, trustZone⟩ => by
    have h1 := fun items [HasItem items "services" .services] => service_opt services items
    simp only [Service.writeXml]
    infer_instance
termination_by structural x => x
end

instance (x : Service) : Elem True .v1_3 "service" .service (Service.writeXml .v1_3 x) := service_elem x

instance (x : Tool) : Elem True .v1_3 "tool" .tool (Tool.writeXml .v1_3 x) := by
  unfold Tool.writeXml; infer_instance

instance (x : Tools) : Elem True .v1_3 "tools" .tools (Tools.writeXml .v1_3 x) := by
  cases x with
  | list l =>
    haveI : Kids .v1_3 .tools [anyNumber "tool" .tool] := ⟨_, rfl, List.mem_cons_self⟩
    simp only [Tools.writeXml]
    infer_instance
  | object s c =>
    haveI : Kids .v1_3 .tools [anyNumber "tool" .tool] := ⟨_, rfl, List.mem_cons_self⟩
    simp only [Tools.writeXml, since15]
    infer_instance

theorem metadata_elem (x : Metadata) (h : ∀ c, x.component = some c → c.converts13 = true) :
    Elem True .v1_3 "metadata" .metadata (Metadata.writeXml .v1_3 x) := by
  haveI : Maybe True .v1_3 [("component", .component)] (writeOpt (Component.writeXml .v1_3) x.component) :=
    maybe_some fun a e => by
      have := component_elem a (h a e)
      infer_instance
  unfold Metadata.writeXml; infer_instance

theorem bom_root (x : Bom) (h : x.converts .v1_3 = true) : ∃ root, IsRoot .v1_3 root ∧ written root = Bom.writeXml .v1_3 x ∧
    Throughout (Meets True .v1_3) .v1_3 .bom root := by
  obtain ⟨version, serialNumber, metadata, components, services, externalReferences, dependencies, compositions, properties, vulnerabilities, signature, annotations, formulation, specVersion⟩ := x
  simp only [Bom.converts, Bool.and_eq_true] at h
  haveI : Maybe True .v1_3 [("metadata", .metadata)] (writeOpt (Metadata.writeXml .v1_3) metadata) :=
    maybe_some fun m e => by
      have := metadata_elem m (fun c hc => by
        have := h.1
        rw [e] at this
        simp only [hc] at this
        exact this)
      infer_instance
  haveI : Maybe True .v1_3 [("components", .components)] (writeOpt (writeList "components" (Component.writeXml .v1_3)) components) :=
    maybe_some fun l e => by
      have h2 := h.2
      rw [e] at h2
      simp only [Component.converts13Opt] at h2
      have h3 := component_all l h2
      rw [component_writeAll] at h3
      infer_instance
  have : Elem True .v1_3 "bom" .bom (Bom.writeXml .v1_3 ⟨version, serialNumber, metadata, components, services, externalReferences, dependencies, compositions, properties, vulnerabilities, signature, annotations, formulation, specVersion⟩) := by
    unfold Bom.writeXml; infer_instance
  exact this.root

end

end Cdx.Conforming.V1_3
