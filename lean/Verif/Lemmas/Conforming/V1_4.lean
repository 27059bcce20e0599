import Verif.Lemmas.Conforming.Tags

/-!
# Lemmas: what is written in version 1.4 follows the schema, or departs from it in a known way

Generated, one instance for each writer.
-/

set_option linter.unusedSectionVars false
set_option linter.unusedSimpArgs false
set_option linter.unusedVariables false
set_option synthInstance.maxSize 100000
set_option synthInstance.maxHeartbeats 400000

namespace Cdx.Conforming.V1_4

open Spec Cdx

section
variable [F32Format] [Decimals]

instance : Rules .v1_4 .string [] := ⟨rfl⟩
instance : Rules .v1_4 .boolean [] := ⟨rfl⟩
instance : Rules .v1_4 .integer [] := ⟨rfl⟩
instance : Rules .v1_4 .decimal [] := ⟨rfl⟩
instance : Rules .v1_4 .bom [has "serialNumber" .string, has "version" .integer] := ⟨rfl⟩
instance : Kids .v1_4 .bom [mayHave "metadata" .metadata, mayHave "components" .components, mayHave "services" .services, mayHave "externalReferences" .externalReferences, mayHave "dependencies" .dependencies, mayHave "compositions" .compositions, (mayHave "vulnerabilities" .vulnerabilities).from .v1_4] := ⟨_, rfl, List.mem_singleton.mpr rfl⟩
instance : Items .v1_4 .bom [("metadata", .metadata), ("components", .components), ("services", .services), ("externalReferences", .externalReferences), ("dependencies", .dependencies), ("compositions", .compositions), ("vulnerabilities", .vulnerabilities)] := ⟨rfl⟩
instance : Rules .v1_4 .metadata [] := ⟨rfl⟩
instance : Kids .v1_4 .metadata [mayHave "timestamp" .string, mayHave "tools" .tools, mayHave "authors" .authors, mayHave "component" .component, mayHave "manufacture" .organizationalEntity, mayHave "supplier" .organizationalEntity, mayHave "licenses" .licenses, mayHave "properties" .properties] := ⟨_, rfl, List.mem_singleton.mpr rfl⟩
instance : Items .v1_4 .metadata [("timestamp", .string), ("tools", .tools), ("authors", .authors), ("component", .component), ("manufacture", .organizationalEntity), ("supplier", .organizationalEntity), ("licenses", .licenses), ("properties", .properties)] := ⟨rfl⟩
instance : Rules .v1_4 .tools [] := ⟨rfl⟩
instance : Items .v1_4 .tools [("tool", .tool)] := ⟨rfl⟩
instance : Rules .v1_4 .tool [] := ⟨rfl⟩
instance : Kids .v1_4 .tool [mayHave "vendor" .string, mayHave "name" .string, mayHave "version" .string, mayHave "hashes" .hashes, (mayHave "externalReferences" .externalReferences).from .v1_4] := ⟨_, rfl, List.mem_singleton.mpr rfl⟩
instance : Items .v1_4 .tool [("vendor", .string), ("name", .string), ("version", .string), ("hashes", .hashes), ("externalReferences", .externalReferences)] := ⟨rfl⟩
instance : Rules .v1_4 .authors [] := ⟨rfl⟩
instance : Kids .v1_4 .authors [anyNumber "author" .organizationalContact] := ⟨_, rfl, List.mem_singleton.mpr rfl⟩
instance : Items .v1_4 .authors [("author", .organizationalContact)] := ⟨rfl⟩
instance : Rules .v1_4 .organizationalContact [] := ⟨rfl⟩
instance : Kids .v1_4 .organizationalContact [mayHave "name" .string, mayHave "email" .string, mayHave "phone" .string] := ⟨_, rfl, List.mem_singleton.mpr rfl⟩
instance : Items .v1_4 .organizationalContact [("name", .string), ("email", .string), ("phone", .string)] := ⟨rfl⟩
instance : Rules .v1_4 .organizationalEntity [] := ⟨rfl⟩
instance : Kids .v1_4 .organizationalEntity [mayHave "name" .string, anyNumber "url" .string, anyNumber "contact" .organizationalContact] := ⟨_, rfl, List.mem_singleton.mpr rfl⟩
instance : Items .v1_4 .organizationalEntity [("name", .string), ("url", .string), ("contact", .organizationalContact)] := ⟨rfl⟩
instance : Rules .v1_4 .components [] := ⟨rfl⟩
instance : Kids .v1_4 .components [anyNumber "component" .component] := ⟨_, rfl, List.mem_singleton.mpr rfl⟩
instance : Items .v1_4 .components [("component", .component)] := ⟨rfl⟩
instance : Rules .v1_4 .component [needs "type" .string, has "mime-type" .string, has "bom-ref" .string] := ⟨rfl⟩
instance : Kids .v1_4 .component [mayHave "supplier" .organizationalEntity, mayHave "author" .string, mayHave "publisher" .string, mayHave "group" .string, mustHave "name" .string, (mayHave "version" .string).from .v1_4, mayHave "description" .string, mayHave "scope" .string, mayHave "hashes" .hashes, mayHave "licenses" .licenses, mayHave "copyright" .string, mayHave "cpe" .string, mayHave "purl" .string, mayHave "swid" .swid, mayHave "modified" .boolean, mayHave "pedigree" .pedigree, mayHave "externalReferences" .externalReferences, mayHave "properties" .properties, mayHave "components" .components, mayHave "evidence" .evidence, (mayHave "releaseNotes" .releaseNotes).from .v1_4] := ⟨_, rfl, List.mem_singleton.mpr rfl⟩
instance : Items .v1_4 .component [("supplier", .organizationalEntity), ("author", .string), ("publisher", .string), ("group", .string), ("name", .string), ("version", .string), ("description", .string), ("scope", .string), ("hashes", .hashes), ("licenses", .licenses), ("copyright", .string), ("cpe", .string), ("purl", .string), ("swid", .swid), ("modified", .boolean), ("pedigree", .pedigree), ("externalReferences", .externalReferences), ("properties", .properties), ("components", .components), ("evidence", .evidence), ("releaseNotes", .releaseNotes)] := ⟨rfl⟩
instance : Rules .v1_4 .hashes [] := ⟨rfl⟩
instance : Kids .v1_4 .hashes [anyNumber "hash" .hash] := ⟨_, rfl, List.mem_singleton.mpr rfl⟩
instance : Items .v1_4 .hashes [("hash", .hash)] := ⟨rfl⟩
instance : Rules .v1_4 .hash [needs "alg" .string] := ⟨rfl⟩
instance : Rules .v1_4 .licenses [] := ⟨rfl⟩
instance : Items .v1_4 .licenses [("license", .license), ("expression", .expression)] := ⟨rfl⟩
instance : Rules .v1_4 .expression [] := ⟨rfl⟩
instance : Rules .v1_4 .licenseId [] := ⟨rfl⟩
instance : Rules .v1_4 .licenseName [] := ⟨rfl⟩
instance : Rules .v1_4 .license [] := ⟨rfl⟩
instance : Kids .v1_4 .license [oneOf [("id", .licenseId), ("name", .licenseName)], mayHave "text" .attachedText, mayHave "url" .string] := ⟨_, rfl, List.mem_singleton.mpr rfl⟩
instance : Items .v1_4 .license [("id", .licenseId), ("name", .licenseName), ("text", .attachedText), ("url", .string)] := ⟨rfl⟩
instance : Rules .v1_4 .attachedText [has "content-type" .string, has "encoding" .string] := ⟨rfl⟩
instance : Rules .v1_4 .swid [needs "tagId" .string, needs "name" .string, has "version" .string, has "tagVersion" .integer, has "patch" .boolean] := ⟨rfl⟩
instance : Kids .v1_4 .swid [mayHave "text" .attachedText, mayHave "url" .string] := ⟨_, rfl, List.mem_singleton.mpr rfl⟩
instance : Items .v1_4 .swid [("text", .attachedText), ("url", .string)] := ⟨rfl⟩
instance : Rules .v1_4 .pedigree [] := ⟨rfl⟩
instance : Kids .v1_4 .pedigree [mayHave "ancestors" .components, mayHave "descendants" .components, mayHave "variants" .components, mayHave "commits" .commits, mayHave "patches" .patches, mayHave "notes" .string] := ⟨_, rfl, List.mem_singleton.mpr rfl⟩
instance : Items .v1_4 .pedigree [("ancestors", .components), ("descendants", .components), ("variants", .components), ("commits", .commits), ("patches", .patches), ("notes", .string)] := ⟨rfl⟩
instance : Rules .v1_4 .commits [] := ⟨rfl⟩
instance : Kids .v1_4 .commits [anyNumber "commit" .commit] := ⟨_, rfl, List.mem_singleton.mpr rfl⟩
instance : Items .v1_4 .commits [("commit", .commit)] := ⟨rfl⟩
instance : Rules .v1_4 .commit [] := ⟨rfl⟩
instance : Kids .v1_4 .commit [mayHave "uid" .string, mayHave "url" .string, mayHave "author" .identifiableAction, mayHave "committer" .identifiableAction, mayHave "message" .string] := ⟨_, rfl, List.mem_singleton.mpr rfl⟩
instance : Items .v1_4 .commit [("uid", .string), ("url", .string), ("author", .identifiableAction), ("committer", .identifiableAction), ("message", .string)] := ⟨rfl⟩
instance : Rules .v1_4 .identifiableAction [] := ⟨rfl⟩
instance : Kids .v1_4 .identifiableAction [mayHave "timestamp" .string, mayHave "name" .string, mayHave "email" .string] := ⟨_, rfl, List.mem_singleton.mpr rfl⟩
instance : Items .v1_4 .identifiableAction [("timestamp", .string), ("name", .string), ("email", .string)] := ⟨rfl⟩
instance : Rules .v1_4 .patches [] := ⟨rfl⟩
instance : Kids .v1_4 .patches [anyNumber "patch" .patch] := ⟨_, rfl, List.mem_singleton.mpr rfl⟩
instance : Items .v1_4 .patches [("patch", .patch)] := ⟨rfl⟩
instance : Rules .v1_4 .patch [needs "type" .string] := ⟨rfl⟩
instance : Kids .v1_4 .patch [mayHave "diff" .diff, mayHave "resolves" .resolves] := ⟨_, rfl, List.mem_singleton.mpr rfl⟩
instance : Items .v1_4 .patch [("diff", .diff), ("resolves", .resolves)] := ⟨rfl⟩
instance : Rules .v1_4 .diff [] := ⟨rfl⟩
instance : Kids .v1_4 .diff [mayHave "text" .attachedText, mayHave "url" .string] := ⟨_, rfl, List.mem_singleton.mpr rfl⟩
instance : Items .v1_4 .diff [("text", .attachedText), ("url", .string)] := ⟨rfl⟩
instance : Rules .v1_4 .resolves [] := ⟨rfl⟩
instance : Kids .v1_4 .resolves [anyNumber "issue" .issue] := ⟨_, rfl, List.mem_singleton.mpr rfl⟩
instance : Items .v1_4 .resolves [("issue", .issue)] := ⟨rfl⟩
instance : Rules .v1_4 .issue [needs "type" .string] := ⟨rfl⟩
instance : Kids .v1_4 .issue [mayHave "id" .string, mayHave "name" .string, mayHave "description" .string, mayHave "source" .namedUrl, mayHave "references" .urls] := ⟨_, rfl, List.mem_singleton.mpr rfl⟩
instance : Items .v1_4 .issue [("id", .string), ("name", .string), ("description", .string), ("source", .namedUrl), ("references", .urls)] := ⟨rfl⟩
instance : Rules .v1_4 .namedUrl [] := ⟨rfl⟩
instance : Kids .v1_4 .namedUrl [mayHave "name" .string, mayHave "url" .string] := ⟨_, rfl, List.mem_singleton.mpr rfl⟩
instance : Items .v1_4 .namedUrl [("name", .string), ("url", .string)] := ⟨rfl⟩
instance : Rules .v1_4 .urls [] := ⟨rfl⟩
instance : Kids .v1_4 .urls [anyNumber "url" .string] := ⟨_, rfl, List.mem_singleton.mpr rfl⟩
instance : Items .v1_4 .urls [("url", .string)] := ⟨rfl⟩
instance : Rules .v1_4 .externalReferences [] := ⟨rfl⟩
instance : Kids .v1_4 .externalReferences [anyNumber "reference" .externalReference] := ⟨_, rfl, List.mem_singleton.mpr rfl⟩
instance : Items .v1_4 .externalReferences [("reference", .externalReference)] := ⟨rfl⟩
instance : Rules .v1_4 .externalReference [needs "type" .string] := ⟨rfl⟩
instance : Kids .v1_4 .externalReference [mustHave "url" .string, mayHave "comment" .string, mayHave "hashes" .hashes] := ⟨_, rfl, List.mem_singleton.mpr rfl⟩
instance : Items .v1_4 .externalReference [("url", .string), ("comment", .string), ("hashes", .hashes)] := ⟨rfl⟩
instance : Rules .v1_4 .properties [] := ⟨rfl⟩
instance : Kids .v1_4 .properties [anyNumber "property" .property] := ⟨_, rfl, List.mem_singleton.mpr rfl⟩
instance : Items .v1_4 .properties [("property", .property)] := ⟨rfl⟩
instance : Rules .v1_4 .property [needs "name" .string] := ⟨rfl⟩
instance : Rules .v1_4 .evidence [] := ⟨rfl⟩
instance : Kids .v1_4 .evidence [mayHave "licenses" .licenses, mayHave "copyright" .copyrights] := ⟨_, rfl, List.mem_singleton.mpr rfl⟩
instance : Items .v1_4 .evidence [("licenses", .licenses), ("copyright", .copyrights)] := ⟨rfl⟩
instance : Rules .v1_4 .copyrights [] := ⟨rfl⟩
instance : Kids .v1_4 .copyrights [anyNumber "text" .string] := ⟨_, rfl, List.mem_singleton.mpr rfl⟩
instance : Items .v1_4 .copyrights [("text", .string)] := ⟨rfl⟩
instance : Rules .v1_4 .reference [needs "ref" .string] := ⟨rfl⟩
instance : Kids .v1_4 .reference [] := ⟨_, rfl, List.mem_singleton.mpr rfl⟩
instance : Items .v1_4 .reference [] := ⟨rfl⟩
instance : Rules .v1_4 .services [] := ⟨rfl⟩
instance : Kids .v1_4 .services [anyNumber "service" .service] := ⟨_, rfl, List.mem_singleton.mpr rfl⟩
instance : Items .v1_4 .services [("service", .service)] := ⟨rfl⟩
instance : Rules .v1_4 .service [has "bom-ref" .string] := ⟨rfl⟩
instance : Kids .v1_4 .service [mayHave "provider" .organizationalEntity, mayHave "group" .string, mustHave "name" .string, mayHave "version" .string, mayHave "description" .string, mayHave "endpoints" .endpoints, mayHave "authenticated" .boolean, mayHave "x-trust-boundary" .boolean, mayHave "data" .serviceData, mayHave "licenses" .licenses, mayHave "externalReferences" .externalReferences, mayHave "properties" .properties, mayHave "services" .services, (mayHave "releaseNotes" .releaseNotes).from .v1_4] := ⟨_, rfl, List.mem_singleton.mpr rfl⟩
instance : Items .v1_4 .service [("provider", .organizationalEntity), ("group", .string), ("name", .string), ("version", .string), ("description", .string), ("endpoints", .endpoints), ("authenticated", .boolean), ("x-trust-boundary", .boolean), ("data", .serviceData), ("licenses", .licenses), ("externalReferences", .externalReferences), ("properties", .properties), ("services", .services), ("releaseNotes", .releaseNotes)] := ⟨rfl⟩
instance : Rules .v1_4 .endpoints [] := ⟨rfl⟩
instance : Kids .v1_4 .endpoints [anyNumber "endpoint" .string] := ⟨_, rfl, List.mem_singleton.mpr rfl⟩
instance : Items .v1_4 .endpoints [("endpoint", .string)] := ⟨rfl⟩
instance : Rules .v1_4 .serviceData [] := ⟨rfl⟩
instance : Items .v1_4 .serviceData [("classification", .classification)] := ⟨rfl⟩
instance : Rules .v1_4 .classification [needs "flow" .string] := ⟨rfl⟩
instance : Rules .v1_4 .dependencies [] := ⟨rfl⟩
instance : Kids .v1_4 .dependencies [anyNumber "dependency" .dependency] := ⟨_, rfl, List.mem_singleton.mpr rfl⟩
instance : Items .v1_4 .dependencies [("dependency", .dependency)] := ⟨rfl⟩
instance : Rules .v1_4 .dependency [needs "ref" .string] := ⟨rfl⟩
instance : Kids .v1_4 .dependency [anyNumber "dependency" .subDependency] := ⟨_, rfl, List.mem_singleton.mpr rfl⟩
instance : Items .v1_4 .dependency [("dependency", .subDependency)] := ⟨rfl⟩
instance : Rules .v1_4 .subDependency [needs "ref" .string] := ⟨rfl⟩
instance : Kids .v1_4 .subDependency [anyNumber "dependency" .subDependency] := ⟨_, rfl, List.mem_singleton.mpr rfl⟩
instance : Items .v1_4 .subDependency [("dependency", .subDependency)] := ⟨rfl⟩
instance : Rules .v1_4 .compositions [] := ⟨rfl⟩
instance : Kids .v1_4 .compositions [anyNumber "composition" .composition] := ⟨_, rfl, List.mem_singleton.mpr rfl⟩
instance : Items .v1_4 .compositions [("composition", .composition)] := ⟨rfl⟩
instance : Rules .v1_4 .composition [] := ⟨rfl⟩
instance : Kids .v1_4 .composition [mustHave "aggregate" .string, mayHave "assemblies" .assemblies, mayHave "dependencies" .referencedDependencies] := ⟨_, rfl, List.mem_singleton.mpr rfl⟩
instance : Items .v1_4 .composition [("aggregate", .string), ("assemblies", .assemblies), ("dependencies", .referencedDependencies)] := ⟨rfl⟩
instance : Rules .v1_4 .assemblies [] := ⟨rfl⟩
instance : Kids .v1_4 .assemblies [anyNumber "assembly" .reference] := ⟨_, rfl, List.mem_singleton.mpr rfl⟩
instance : Items .v1_4 .assemblies [("assembly", .reference)] := ⟨rfl⟩
instance : Rules .v1_4 .referencedDependencies [] := ⟨rfl⟩
instance : Kids .v1_4 .referencedDependencies [anyNumber "dependency" .reference] := ⟨_, rfl, List.mem_singleton.mpr rfl⟩
instance : Items .v1_4 .referencedDependencies [("dependency", .reference)] := ⟨rfl⟩
instance : Rules .v1_4 .vulnerabilities [] := ⟨rfl⟩
instance : Kids .v1_4 .vulnerabilities [anyNumber "vulnerability" .vulnerability] := ⟨_, rfl, List.mem_singleton.mpr rfl⟩
instance : Items .v1_4 .vulnerabilities [("vulnerability", .vulnerability)] := ⟨rfl⟩
instance : Rules .v1_4 .vulnerability [has "bom-ref" .string] := ⟨rfl⟩
instance : Kids .v1_4 .vulnerability [mayHave "id" .string, mayHave "source" .namedUrl, mayHave "references" .vulnerabilityReferences, mayHave "ratings" .ratings, mayHave "cwes" .cwes, mayHave "description" .string, mayHave "detail" .string, mayHave "recommendation" .string, mayHave "advisories" .advisories, mayHave "created" .string, mayHave "published" .string, mayHave "updated" .string, mayHave "credits" .credits, mayHave "tools" .tools, mayHave "analysis" .analysis, mayHave "affects" .affects, mayHave "properties" .properties] := ⟨_, rfl, List.mem_singleton.mpr rfl⟩
instance : Items .v1_4 .vulnerability [("id", .string), ("source", .namedUrl), ("references", .vulnerabilityReferences), ("ratings", .ratings), ("cwes", .cwes), ("description", .string), ("detail", .string), ("recommendation", .string), ("advisories", .advisories), ("created", .string), ("published", .string), ("updated", .string), ("credits", .credits), ("tools", .tools), ("analysis", .analysis), ("affects", .affects), ("properties", .properties)] := ⟨rfl⟩
instance : Rules .v1_4 .vulnerabilityReferences [] := ⟨rfl⟩
instance : Kids .v1_4 .vulnerabilityReferences [anyNumber "reference" .vulnerabilityReference] := ⟨_, rfl, List.mem_singleton.mpr rfl⟩
instance : Items .v1_4 .vulnerabilityReferences [("reference", .vulnerabilityReference)] := ⟨rfl⟩
instance : Rules .v1_4 .vulnerabilityReference [] := ⟨rfl⟩
instance : Kids .v1_4 .vulnerabilityReference [mustHave "id" .string, mustHave "source" .namedUrl] := ⟨_, rfl, List.mem_singleton.mpr rfl⟩
instance : Items .v1_4 .vulnerabilityReference [("id", .string), ("source", .namedUrl)] := ⟨rfl⟩
instance : Rules .v1_4 .ratings [] := ⟨rfl⟩
instance : Kids .v1_4 .ratings [anyNumber "rating" .rating] := ⟨_, rfl, List.mem_singleton.mpr rfl⟩
instance : Items .v1_4 .ratings [("rating", .rating)] := ⟨rfl⟩
instance : Rules .v1_4 .rating [] := ⟨rfl⟩
instance : Kids .v1_4 .rating [mayHave "source" .namedUrl, mayHave "score" .decimal, mayHave "severity" .string, mayHave "method" .string, mayHave "vector" .string, mayHave "justification" .string] := ⟨_, rfl, List.mem_singleton.mpr rfl⟩
instance : Items .v1_4 .rating [("source", .namedUrl), ("score", .decimal), ("severity", .string), ("method", .string), ("vector", .string), ("justification", .string)] := ⟨rfl⟩
instance : Rules .v1_4 .cwes [] := ⟨rfl⟩
instance : Kids .v1_4 .cwes [anyNumber "cwe" .integer] := ⟨_, rfl, List.mem_singleton.mpr rfl⟩
instance : Items .v1_4 .cwes [("cwe", .integer)] := ⟨rfl⟩
instance : Rules .v1_4 .advisories [] := ⟨rfl⟩
instance : Kids .v1_4 .advisories [anyNumber "advisory" .advisory] := ⟨_, rfl, List.mem_singleton.mpr rfl⟩
instance : Items .v1_4 .advisories [("advisory", .advisory)] := ⟨rfl⟩
instance : Rules .v1_4 .advisory [] := ⟨rfl⟩
instance : Kids .v1_4 .advisory [mayHave "title" .string, mustHave "url" .string] := ⟨_, rfl, List.mem_singleton.mpr rfl⟩
instance : Items .v1_4 .advisory [("title", .string), ("url", .string)] := ⟨rfl⟩
instance : Rules .v1_4 .credits [] := ⟨rfl⟩
instance : Kids .v1_4 .credits [mayHave "organizations" .organizations, mayHave "individuals" .individuals] := ⟨_, rfl, List.mem_singleton.mpr rfl⟩
instance : Items .v1_4 .credits [("organizations", .organizations), ("individuals", .individuals)] := ⟨rfl⟩
instance : Rules .v1_4 .organizations [] := ⟨rfl⟩
instance : Kids .v1_4 .organizations [anyNumber "organization" .organizationalEntity] := ⟨_, rfl, List.mem_singleton.mpr rfl⟩
instance : Items .v1_4 .organizations [("organization", .organizationalEntity)] := ⟨rfl⟩
instance : Rules .v1_4 .individuals [] := ⟨rfl⟩
instance : Kids .v1_4 .individuals [anyNumber "individual" .organizationalContact] := ⟨_, rfl, List.mem_singleton.mpr rfl⟩
instance : Items .v1_4 .individuals [("individual", .organizationalContact)] := ⟨rfl⟩
instance : Rules .v1_4 .analysis [] := ⟨rfl⟩
instance : Kids .v1_4 .analysis [mayHave "state" .string, mayHave "justification" .string, mayHave "responses" .responses, mayHave "detail" .string] := ⟨_, rfl, List.mem_singleton.mpr rfl⟩
instance : Items .v1_4 .analysis [("state", .string), ("justification", .string), ("responses", .responses), ("detail", .string)] := ⟨rfl⟩
instance : Rules .v1_4 .responses [] := ⟨rfl⟩
instance : Kids .v1_4 .responses [anyNumber "response" .string] := ⟨_, rfl, List.mem_singleton.mpr rfl⟩
instance : Items .v1_4 .responses [("response", .string)] := ⟨rfl⟩
instance : Rules .v1_4 .affects [] := ⟨rfl⟩
instance : Kids .v1_4 .affects [anyNumber "target" .target] := ⟨_, rfl, List.mem_singleton.mpr rfl⟩
instance : Items .v1_4 .affects [("target", .target)] := ⟨rfl⟩
instance : Rules .v1_4 .target [] := ⟨rfl⟩
instance : Kids .v1_4 .target [mustHave "ref" .string, mayHave "versions" .versions] := ⟨_, rfl, List.mem_singleton.mpr rfl⟩
instance : Items .v1_4 .target [("ref", .string), ("versions", .versions)] := ⟨rfl⟩
instance : Rules .v1_4 .versions [] := ⟨rfl⟩
instance : Kids .v1_4 .versions [anyNumber "version" .affectedVersion] := ⟨_, rfl, List.mem_singleton.mpr rfl⟩
instance : Items .v1_4 .versions [("version", .affectedVersion)] := ⟨rfl⟩
instance : Rules .v1_4 .affectedVersion [] := ⟨rfl⟩
instance : Kids .v1_4 .affectedVersion [oneOf [("version", .string), ("range", .string)], mayHave "status" .string] := ⟨_, rfl, List.mem_singleton.mpr rfl⟩
instance : Items .v1_4 .affectedVersion [("version", .string), ("range", .string), ("status", .string)] := ⟨rfl⟩
instance : Rules .v1_4 .aliases [] := ⟨rfl⟩
instance : Kids .v1_4 .aliases [anyNumber "alias" .string] := ⟨_, rfl, List.mem_singleton.mpr rfl⟩
instance : Items .v1_4 .aliases [("alias", .string)] := ⟨rfl⟩
instance : Rules .v1_4 .releaseNotes [] := ⟨rfl⟩
instance : Kids .v1_4 .releaseNotes [mustHave "type" .string, mayHave "title" .string, mayHave "featuredImage" .string, mayHave "socialImage" .string, mayHave "description" .string, mayHave "timestamp" .string, mayHave "aliases" .aliases, mayHave "tags" .tags, mayHave "resolves" .resolves, mayHave "notes" .notes, mayHave "properties" .properties] := ⟨_, rfl, List.mem_singleton.mpr rfl⟩
instance : Items .v1_4 .releaseNotes [("type", .string), ("title", .string), ("featuredImage", .string), ("socialImage", .string), ("description", .string), ("timestamp", .string), ("aliases", .aliases), ("tags", .tags), ("resolves", .resolves), ("notes", .notes), ("properties", .properties)] := ⟨rfl⟩
instance : Rules .v1_4 .tags [] := ⟨rfl⟩
instance : Kids .v1_4 .tags [anyNumber "tag" .string] := ⟨_, rfl, List.mem_singleton.mpr rfl⟩
instance : Items .v1_4 .tags [("tag", .string)] := ⟨rfl⟩
instance : Rules .v1_4 .notes [] := ⟨rfl⟩
instance : Kids .v1_4 .notes [anyNumber "note" .note] := ⟨_, rfl, List.mem_singleton.mpr rfl⟩
instance : Items .v1_4 .notes [("note", .note)] := ⟨rfl⟩
instance : Rules .v1_4 .note [] := ⟨rfl⟩
instance : Kids .v1_4 .note [mayHave "locale" .string, mustHave "text" .noteText] := ⟨_, rfl, List.mem_singleton.mpr rfl⟩
instance : Items .v1_4 .note [("locale", .string), ("text", .noteText)] := ⟨rfl⟩
instance : Rules .v1_4 .noteText [has "content-type" .string, has "encoding" .string] := ⟨rfl⟩

instance (tag s : String) : Elem True .v1_4 tag .string (writeCdata tag s) := by
  unfold writeCdata; infer_instance

instance (tag : String) (x : AttachedText) : Elem True .v1_4 tag .attachedText (AttachedText.writeXml tag x) := by
  unfold AttachedText.writeXml; infer_instance

instance (x : Property) : Elem True .v1_4 "property" .property (Property.writeXml x) := by
  unfold Property.writeXml; infer_instance

instance (x : Hash) : Elem True .v1_4 "hash" .hash (Hash.writeXml x) := by
  unfold Hash.writeXml; infer_instance

instance (tag : String) (x : OrganizationalContact) : Elem True .v1_4 tag .organizationalContact (OrganizationalContact.writeXml tag x) := by
  obtain ⟨bomRef, name, email, phone⟩ := x
  unfold OrganizationalContact.writeXml
  dsimp only
  cases bomRef with
  | none => infer_instance
  | some r =>
    exact elem_own (l := [mayHave "name" .string, mayHave "email" .string, mayHave "phone" .string])
      inferInstance (by decide) trivial (fun xs _ => .bomRef (by simp) (by decide) rfl)

instance (tag : String) (x : OrganizationalEntity) : Elem True .v1_4 tag .organizationalEntity (OrganizationalEntity.writeXml tag x) := by
  obtain ⟨bomRef, name, url, contact⟩ := x
  unfold OrganizationalEntity.writeXml
  dsimp only
  cases bomRef with
  | none => infer_instance
  | some r =>
    exact elem_own (l := [mayHave "name" .string, anyNumber "url" .string, anyNumber "contact" .organizationalContact])
      inferInstance (by decide) trivial (fun xs _ => .bomRef (by simp) (by decide) rfl)

instance (x : ExternalReference) : Elem True .v1_4 "reference" .externalReference (ExternalReference.writeXml x) := by
  unfold ExternalReference.writeXml; infer_instance

instance (x : VulnerabilitySource) : Elem True .v1_4 "source" .namedUrl (VulnerabilitySource.writeXml x) := by
  unfold VulnerabilitySource.writeXml; infer_instance

instance (x : VulnerabilityReference) : Elem True .v1_4 "reference" .vulnerabilityReference (VulnerabilityReference.writeXml x) := by
  unfold VulnerabilityReference.writeXml; infer_instance

instance (x : Advisory) : Elem True .v1_4 "advisory" .advisory (Advisory.writeXml x) := by
  unfold Advisory.writeXml; infer_instance

instance (x : VulnerabilityCredits) : Elem True .v1_4 "credits" .credits (VulnerabilityCredits.writeXml x) := by
  unfold VulnerabilityCredits.writeXml; infer_instance

instance (x : Dependency) : Elem True .v1_4 "dependency" .dependency (Dependency.writeXml x) := by
  unfold Dependency.writeXml; infer_instance

instance (x : Composition) : Elem True .v1_4 "composition" .composition (Composition.writeXml .v1_4 x) := by
  obtain ⟨bomRef, aggregate, assemblies, dependencies, vulnerabilities, signature⟩ := x
  unfold Composition.writeXml
  cases signature with
  | none => simp only [since14, since15, writeOpt_none, List.append_nil, List.nil_append]; infer_instance
  | some s =>
    haveI : Carries True .v1_4 .composition "signature" (Signature.writeXml s) := carries_foreign (loose := false) Signature.xml_one (by decide)
    exact elem_departs (n := "signature") inferInstance trivial (fun xs h => .signature (by simp) (by decide) h)

instance (tag : String) (x : IdentifiableAction) : Elem True .v1_4 tag .identifiableAction (IdentifiableAction.writeXml tag x) := by
  unfold IdentifiableAction.writeXml; infer_instance

instance (x : Commit) : Elem True .v1_4 "commit" .commit (Commit.writeXml x) := by
  unfold Commit.writeXml; infer_instance

instance (x : Diff) : Elem True .v1_4 "diff" .diff (Diff.writeXml x) := by
  unfold Diff.writeXml; infer_instance

instance (x : Source) : Elem True .v1_4 "source" .namedUrl (Source.writeXml x) := by
  unfold Source.writeXml; infer_instance

instance (x : Issue) : Elem True .v1_4 "issue" .issue (Issue.writeXml x) := by
  unfold Issue.writeXml; infer_instance

instance (x : Patch) : Elem True .v1_4 "patch" .patch (Patch.writeXml x) := by
  unfold Patch.writeXml; infer_instance

instance (x : VulnerabilityAnalysis) : Elem True .v1_4 "analysis" .analysis (VulnerabilityAnalysis.writeXml .v1_4 x) := by
  unfold VulnerabilityAnalysis.writeXml; infer_instance

instance (x : TargetVersion) : Elem True .v1_4 "version" .affectedVersion (TargetVersion.writeXml x) := by
  obtain ⟨range, status⟩ := x
  unfold TargetVersion.writeXml
  cases range with
  | version y => simp only [VersionRange.writeXml]; infer_instance
  | range y => simp only [VersionRange.writeXml]; infer_instance
  | undefinedVersionRange y =>
    simp only [VersionRange.writeXml, List.nil_append]
    refine elem_own (l := [mayHave "status" .string]) inferInstance (by decide) trivial (fun xs h => .version (by decide) ?_ ?_)
    · rintro ⟨x, hx, hn⟩
      obtain ⟨n, hm, e⟩ := h x hx
      rw [hn] at e
      cases e
      exact absurd hm (by decide)
    · rintro ⟨x, hx, hn⟩
      obtain ⟨n, hm, e⟩ := h x hx
      rw [hn] at e
      cases e
      exact absurd hm (by decide)

instance (x : VulnerabilityTarget) : Elem True .v1_4 "target" .target (VulnerabilityTarget.writeXml x) := by
  unfold VulnerabilityTarget.writeXml; infer_instance

instance (x : LicenseIdentifier) : One True .v1_4 [("id", .licenseId), ("name", .licenseName)] (LicenseIdentifier.writeXml x) := by
  cases x <;> simp only [LicenseIdentifier.writeXml] <;> infer_instance

instance (x : License) : Elem True .v1_4 "license" .license (License.writeXml .v1_4 x) := by
  unfold License.writeXml; infer_instance

instance (x : SpdxExpression) : Elem True .v1_4 "expression" .expression (SpdxExpression.writeXml x) := by
  obtain ⟨bomRef, expression⟩ := x
  unfold SpdxExpression.writeXml
  cases bomRef with
  | none => infer_instance
  | some r =>
    refine elem_of (xs := [.chars expression]) (by simp [writtenAll, written]) (.inl ⟨trivial, (.bomRef (by simp) (by decide) rfl)⟩) ?_
    intro x hx n hn
    rw [List.mem_singleton] at hx
    subst hx
    cases hn

theorem licenses_tree (l : List LicenseChoice) : ∃ xs, writtenAll xs = l.flatMap (LicenseChoice.writeXml .v1_4) ∧
    IsLoose True .v1_4 .licenses xs ∧ xs.length = l.length ∧ ((∃ e, .expression e ∈ l) → HasChild "expression" xs) := by
  induction l with
  | nil => exact ⟨[], rfl, (fun x h => by cases h), rfl, by rintro ⟨e, h⟩; cases h⟩
  | cons a l ih =>
    obtain ⟨xs, hw, hl, hn, hc⟩ := ih
    cases a with
    | license y =>
      have h : Carries True .v1_4 .licenses "license" (License.writeXml .v1_4 y) := inferInstance
      obtain ⟨x, hx, hwx, ht⟩ := (inferInstance : Elem True .v1_4 "license" .license (License.writeXml .v1_4 y)).ex
      refine ⟨x :: xs, by simp [writtenAll, hw, hwx, LicenseChoice.writeXml], ?_, by simp [hn], ?_⟩
      · intro z hz
        rcases List.mem_cons.mp hz with rfl | hz
        · exact IsItem.loose ⟨"license", .license, by decide, hx.name, ht⟩
        · exact hl z hz
      · rintro ⟨e, he⟩
        rcases List.mem_cons.mp he with he | he
        · cases he
        · obtain ⟨z, hz, hzn⟩ := hc ⟨e, he⟩
          exact ⟨z, List.mem_cons_of_mem _ hz, hzn⟩
    | expression y =>
      obtain ⟨x, hx, hwx, ht⟩ := (inferInstance : Elem True .v1_4 "expression" .expression (SpdxExpression.writeXml y)).ex
      refine ⟨x :: xs, by simp [writtenAll, hw, hwx, LicenseChoice.writeXml], ?_, by simp [hn], ?_⟩
      · intro z hz
        rcases List.mem_cons.mp hz with rfl | hz
        · exact IsItem.loose ⟨"expression", .expression, by decide, hx.name, ht⟩
        · exact hl z hz
      · rintro -
        exact ⟨x, List.mem_cons_self, hx.name⟩

instance (x : Licenses) : Elem True .v1_4 "licenses" .licenses (Licenses.writeXml .v1_4 x) := by
  unfold Licenses.writeXml writeList
  by_cases h : ∃ e, LicenseChoice.expression e ∈ x
  · match x, h with
    | [], h => obtain ⟨e, h⟩ := h; cases h
    | [.expression e], _ =>
      haveI : Kids .v1_4 .licenses [mayHave "expression" .expression] := ⟨_, rfl, List.mem_cons_of_mem _ (List.mem_singleton.mpr rfl)⟩
      simp only [List.flatMap_cons, List.flatMap_nil, LicenseChoice.writeXml, List.append_nil]
      infer_instance
    | [.license y], h => obtain ⟨e, h⟩ := h; simp at h
    | a :: b :: l, h =>
      obtain ⟨xs, hw, hl, hn, hc⟩ := licenses_tree (a :: b :: l)
      refine elem_of hw (.inl ⟨trivial, (.licenses (hc h) (by rw [hn]; simp))⟩) ?_
      intro z hz n hzn t' ht'
      obtain ⟨m, hm, hall⟩ := hl z hz
      simp only [Option.mem_def] at hzn
      rw [hm] at hzn
      cases hzn
      exact hall t' ht'
  · haveI : Kids .v1_4 .licenses [anyNumber "license" .license] := ⟨_, rfl, List.mem_cons_self⟩
    haveI : Any True .v1_4 [("license", .license)] (x.flatMap (LicenseChoice.writeXml .v1_4)) := any_mem fun a ha => by
      cases a with
      | license y => simp only [LicenseChoice.writeXml]; infer_instance
      | expression y => exact absurd ⟨y, ha⟩ h
    infer_instance

instance (tag : String) (x : F32) : Elem True .v1_4 tag .decimal (writeSimple tag (F32Format.display x)) := by
  cases h : x.isFinite with
  | true =>
    haveI : TextOk .decimal (F32Format.display x) := ⟨Decimals.decimal x h⟩
    infer_instance
  | false =>
    show Elem True .v1_4 tag .decimal (writeElem tag [] [.chars (F32Format.display x)])
    refine elem_of (attrs := []) (xs := [.chars (F32Format.display x)]) (by simp [writtenAll, written]) (.inl ⟨trivial, (.number (by decide) h)⟩) ?_
    intro x hx n hn
    rw [List.mem_singleton] at hx
    subst hx
    cases hn

instance (x : VulnerabilityRating) : Elem True .v1_4 "rating" .rating (VulnerabilityRating.writeXml x) := by
  unfold VulnerabilityRating.writeXml; infer_instance

instance (x : ComponentEvidence) : Elem True .v1_4 "evidence" .evidence (ComponentEvidence.writeXml .v1_4 x) := by
  unfold ComponentEvidence.writeXml; infer_instance

instance (x : DataClassification) : Elem True .v1_4 "classification" .classification (DataClassification.writeXml x) := by
  unfold DataClassification.writeXml; infer_instance

instance (x : ServiceDataChoice) : Elem True .v1_4 "data" .serviceData (ServiceDataChoice.writeXml .v1_4 x) := by
  unfold ServiceDataChoice.writeXml
  cases x with
  | classification l =>
    haveI : Kids .v1_4 .serviceData [anyNumber "classification" .classification] := ⟨_, rfl, List.mem_cons_self⟩
    simp only [ServiceDataChoice.writeInner]
    infer_instance
  | serviceData l =>
    haveI : Kids .v1_4 .serviceData [anyNumber "classification" .classification] := ⟨_, rfl, List.mem_cons_self⟩
    simp only [ServiceDataChoice.writeInner, since15]
    infer_instance

instance (x : Swid) : Elem True .v1_4 "swid" .swid (Swid.writeXml x) := by
  unfold Swid.writeXml; infer_instance

mutual
theorem component_all : ∀ (x : List Component), Any True .v1_4 [("component", .component)] (Component.writeXmlAll .v1_4 x)
  | [] => by simp only [Component.writeXmlAll]; infer_instance
  | a :: x => by
    have h1 := component_elem a
    have h2 := component_all x
    simp only [Component.writeXmlAll]
    infer_instance
termination_by structural x => x
theorem component_opt : ∀ (x : Option (List Component)) (tag : String) (items : List (String × ElementType))
    [HasItem items tag .components], Maybe True .v1_4 items (Component.writeXmlOpt .v1_4 tag x)
  | none, _, _, _ => by simp only [Component.writeXmlOpt]; infer_instance
  | some x, tag, items, _ => by
    have h1 := component_all x
    simp only [Component.writeXmlOpt]
    infer_instance
termination_by structural x => x
theorem pedigree_opt : ∀ (x : Option Pedigree) (items : List (String × ElementType)) [HasItem items "pedigree" .pedigree],
    Maybe True .v1_4 items (Pedigree.writeXmlOpt .v1_4 x)
  | none, _, _ => by simp only [Pedigree.writeXmlOpt]; infer_instance
  | some ⟨ancestors, descendants, variants, commits, patches, notes⟩, items, _ => by
    have h1 := component_opt ancestors "ancestors" [("ancestors", .components)]
    have h2 := component_opt descendants "descendants" [("descendants", .components)]
    have h3 := component_opt variants "variants" [("variants", .components)]
    simp only [Pedigree.writeXmlOpt, Pedigree.writeXml]
    infer_instance
termination_by structural x => x
theorem component_elem : ∀ (x : Component), Elem True .v1_4 "component" .component (Component.writeXml .v1_4 x)
  | ⟨componentType, mimeType, bomRef, supplier, author, publisher, group, name, version, description, scope, hashes, licenses, copyright, cpe, purl, swid, modified, pedigree, externalReferences, properties, components, evidence, signature, modelCard, data⟩ => by
    have h1 := fun items [HasItem items "pedigree" .pedigree] => pedigree_opt pedigree items
    have h2 := fun items [HasItem items "components" .components] => component_opt components "components" items
    cases signature with
    | none =>
      simp only [Component.writeXml, since14, since15, writeOpt_none, List.append_nil, List.nil_append]
      infer_instance
    | some s =>
      haveI : Carries True .v1_4 .component "signature" (Signature.writeXml s) := carries_foreign (loose := false) Signature.xml_one (by decide)
      simp only [Component.writeXml]
      exact elem_departs (n := "signature") inferInstance trivial (fun xs h => .signature (by simp) (by decide) h)
termination_by structural x => x
end

instance (x : Component) : Elem True .v1_4 "component" .component (Component.writeXml .v1_4 x) := component_elem x



mutual
theorem service_all : ∀ (x : List Service), Any True .v1_4 [("service", .service)] (Service.writeXmlAll .v1_4 x)
  | [] => by simp only [Service.writeXmlAll]; infer_instance
  | a :: x => by
    have h1 := service_elem a
    have h2 := service_all x
    simp only [Service.writeXmlAll]
    infer_instance
termination_by structural x => x
theorem service_opt : ∀ (x : Option (List Service)) (items : List (String × ElementType))
    [HasItem items "services" .services], Maybe True .v1_4 items (Service.writeXmlOpt .v1_4 "services" x)
  | none, _, _ => by simp only [Service.writeXmlOpt]; infer_instance
  | some x, items, _ => by
    have h1 := service_all x
    simp only [Service.writeXmlOpt]
    infer_instance
termination_by structural x => x
theorem service_elem : ∀ (x : Service), Elem True .v1_4 "service" .service (Service.writeXml .v1_4 x)
  | ⟨bomRef, provider, group, name, version, description, endpoints, authenticated, xTrustBoundary, data, licenses, externalReferences, properties, services, signature, trustZone⟩ => by
    have h1 := fun items [HasItem items "services" .services] => service_opt services items
    cases signature with
    | none =>
      simp only [Service.writeXml, since14, since15, writeOpt_none, List.append_nil, List.nil_append]
      infer_instance
    | some s =>
      haveI : Carries True .v1_4 .service "signature" (Signature.writeXml s) := carries_foreign (loose := false) Signature.xml_one (by decide)
      simp only [Service.writeXml]
      exact elem_departs (n := "signature") inferInstance trivial (fun xs h => .signature (by simp) (by decide) h)
termination_by structural x => x
end

instance (x : Service) : Elem True .v1_4 "service" .service (Service.writeXml .v1_4 x) := service_elem x

instance (x : Tool) : Elem True .v1_4 "tool" .tool (Tool.writeXml .v1_4 x) := by
  unfold Tool.writeXml; infer_instance

instance (x : Tools) : Elem True .v1_4 "tools" .tools (Tools.writeXml .v1_4 x) := by
  cases x with
  | list l =>
    haveI : Kids .v1_4 .tools [anyNumber "tool" .tool] := ⟨_, rfl, List.mem_cons_self⟩
    simp only [Tools.writeXml]
    infer_instance
  | object s c =>
    haveI : Kids .v1_4 .tools [anyNumber "tool" .tool] := ⟨_, rfl, List.mem_cons_self⟩
    simp only [Tools.writeXml, since15]
    infer_instance

instance (x : Metadata) : Elem True .v1_4 "metadata" .metadata (Metadata.writeXml .v1_4 x) := by
  unfold Metadata.writeXml; infer_instance

instance (x : Vulnerability) : Elem True .v1_4 "vulnerability" .vulnerability (Vulnerability.writeXml .v1_4 x) := by
  unfold Vulnerability.writeXml; infer_instance

theorem bom_root (x : Bom) : ∃ root, IsRoot .v1_4 root ∧ written root = Bom.writeXml .v1_4 x ∧
    Throughout (Meets True .v1_4) .v1_4 .bom root := by
  have : Elem True .v1_4 "bom" .bom (Bom.writeXml .v1_4 x) := by
    unfold Bom.writeXml; infer_instance
  exact this.root

end

end Cdx.Conforming.V1_4
