import Verif.Lemmas.Conforming.Tags

/-!
# Lemmas: what is written in version 1.5 follows the schema, or departs from it in a known way

Generated, one instance for each writer.
-/

set_option linter.unusedSectionVars false
set_option linter.unusedSimpArgs false
set_option linter.unusedVariables false
set_option synthInstance.maxSize 100000
set_option synthInstance.maxHeartbeats 400000

namespace Cdx.Conforming.V1_5

open Spec Cdx

section
variable [F32Format] [Decimals]

instance : Rules .v1_5 .string [] := ⟨rfl⟩
instance : Rules .v1_5 .boolean [] := ⟨rfl⟩
instance : Rules .v1_5 .integer [] := ⟨rfl⟩
instance : Rules .v1_5 .decimal [] := ⟨rfl⟩
instance : Rules .v1_5 .bom [has "serialNumber" .string, has "version" .integer] := ⟨rfl⟩
instance : Kids .v1_5 .bom [mayHave "metadata" .metadata, mayHave "components" .components, mayHave "services" .services, mayHave "externalReferences" .externalReferences, mayHave "dependencies" .dependencies, mayHave "compositions" .compositions, (mayHave "properties" .properties).from .v1_5, (mayHave "vulnerabilities" .vulnerabilities).from .v1_4, (mayHave "annotations" .annotations).from .v1_5, (mayHave "formulation" .formulation).from .v1_5] := ⟨_, rfl, List.mem_singleton.mpr rfl⟩
instance : Items .v1_5 .bom [("metadata", .metadata), ("components", .components), ("services", .services), ("externalReferences", .externalReferences), ("dependencies", .dependencies), ("compositions", .compositions), ("properties", .properties), ("vulnerabilities", .vulnerabilities), ("annotations", .annotations), ("formulation", .formulation)] := ⟨rfl⟩
instance : Rules .v1_5 .metadata [] := ⟨rfl⟩
instance : Kids .v1_5 .metadata [mayHave "timestamp" .string, (mayHave "lifecycles" .lifecycles).from .v1_5, mayHave "tools" .tools, mayHave "authors" .authors, mayHave "component" .component, mayHave "manufacture" .organizationalEntity, mayHave "supplier" .organizationalEntity, mayHave "licenses" .licenses, mayHave "properties" .properties] := ⟨_, rfl, List.mem_singleton.mpr rfl⟩
instance : Items .v1_5 .metadata [("timestamp", .string), ("lifecycles", .lifecycles), ("tools", .tools), ("authors", .authors), ("component", .component), ("manufacture", .organizationalEntity), ("supplier", .organizationalEntity), ("licenses", .licenses), ("properties", .properties)] := ⟨rfl⟩
instance : Rules .v1_5 .lifecycles [] := ⟨rfl⟩
instance : Kids .v1_5 .lifecycles [anyNumber "lifecycle" .lifecycle] := ⟨_, rfl, List.mem_singleton.mpr rfl⟩
instance : Items .v1_5 .lifecycles [("lifecycle", .lifecycle)] := ⟨rfl⟩
instance : Rules .v1_5 .lifecycle [] := ⟨rfl⟩
instance : Items .v1_5 .lifecycle [("phase", .string), ("name", .string), ("description", .string)] := ⟨rfl⟩
instance : Rules .v1_5 .tools [] := ⟨rfl⟩
instance : Items .v1_5 .tools [("tool", .tool), ("components", .components), ("services", .services)] := ⟨rfl⟩
instance : Rules .v1_5 .tool [] := ⟨rfl⟩
instance : Kids .v1_5 .tool [mayHave "vendor" .string, mayHave "name" .string, mayHave "version" .string, mayHave "hashes" .hashes, (mayHave "externalReferences" .externalReferences).from .v1_4] := ⟨_, rfl, List.mem_singleton.mpr rfl⟩
instance : Items .v1_5 .tool [("vendor", .string), ("name", .string), ("version", .string), ("hashes", .hashes), ("externalReferences", .externalReferences)] := ⟨rfl⟩
instance : Rules .v1_5 .authors [] := ⟨rfl⟩
instance : Kids .v1_5 .authors [anyNumber "author" .organizationalContact] := ⟨_, rfl, List.mem_singleton.mpr rfl⟩
instance : Items .v1_5 .authors [("author", .organizationalContact)] := ⟨rfl⟩
instance : Rules .v1_5 .organizationalContact [(has "bom-ref" .string).from .v1_5] := ⟨rfl⟩
instance : Kids .v1_5 .organizationalContact [mayHave "name" .string, mayHave "email" .string, mayHave "phone" .string] := ⟨_, rfl, List.mem_singleton.mpr rfl⟩
instance : Items .v1_5 .organizationalContact [("name", .string), ("email", .string), ("phone", .string)] := ⟨rfl⟩
instance : Rules .v1_5 .organizationalEntity [(has "bom-ref" .string).from .v1_5] := ⟨rfl⟩
instance : Kids .v1_5 .organizationalEntity [mayHave "name" .string, anyNumber "url" .string, anyNumber "contact" .organizationalContact] := ⟨_, rfl, List.mem_singleton.mpr rfl⟩
instance : Items .v1_5 .organizationalEntity [("name", .string), ("url", .string), ("contact", .organizationalContact)] := ⟨rfl⟩
instance : Rules .v1_5 .components [] := ⟨rfl⟩
instance : Kids .v1_5 .components [anyNumber "component" .component] := ⟨_, rfl, List.mem_singleton.mpr rfl⟩
instance : Items .v1_5 .components [("component", .component)] := ⟨rfl⟩
instance : Rules .v1_5 .component [needs "type" .string, has "mime-type" .string, has "bom-ref" .string] := ⟨rfl⟩
instance : Kids .v1_5 .component [mayHave "supplier" .organizationalEntity, mayHave "author" .string, mayHave "publisher" .string, mayHave "group" .string, mustHave "name" .string, (mayHave "version" .string).from .v1_4, mayHave "description" .string, mayHave "scope" .string, mayHave "hashes" .hashes, mayHave "licenses" .licenses, mayHave "copyright" .string, mayHave "cpe" .string, mayHave "purl" .string, mayHave "swid" .swid, mayHave "modified" .boolean, mayHave "pedigree" .pedigree, mayHave "externalReferences" .externalReferences, mayHave "properties" .properties, mayHave "components" .components, mayHave "evidence" .evidence, (mayHave "releaseNotes" .releaseNotes).from .v1_4, (mayHave "modelCard" .modelCard).from .v1_5, (anyNumber "data" .componentData).from .v1_5] := ⟨_, rfl, List.mem_singleton.mpr rfl⟩
instance : Items .v1_5 .component [("supplier", .organizationalEntity), ("author", .string), ("publisher", .string), ("group", .string), ("name", .string), ("version", .string), ("description", .string), ("scope", .string), ("hashes", .hashes), ("licenses", .licenses), ("copyright", .string), ("cpe", .string), ("purl", .string), ("swid", .swid), ("modified", .boolean), ("pedigree", .pedigree), ("externalReferences", .externalReferences), ("properties", .properties), ("components", .components), ("evidence", .evidence), ("releaseNotes", .releaseNotes), ("modelCard", .modelCard), ("data", .componentData)] := ⟨rfl⟩
instance : Rules .v1_5 .hashes [] := ⟨rfl⟩
instance : Kids .v1_5 .hashes [anyNumber "hash" .hash] := ⟨_, rfl, List.mem_singleton.mpr rfl⟩
instance : Items .v1_5 .hashes [("hash", .hash)] := ⟨rfl⟩
instance : Rules .v1_5 .hash [needs "alg" .string] := ⟨rfl⟩
instance : Rules .v1_5 .licenses [] := ⟨rfl⟩
instance : Items .v1_5 .licenses [("license", .license), ("expression", .expression)] := ⟨rfl⟩
instance : Rules .v1_5 .expression [(has "bom-ref" .string).from .v1_5] := ⟨rfl⟩
instance : Rules .v1_5 .licenseId [] := ⟨rfl⟩
instance : Rules .v1_5 .licenseName [] := ⟨rfl⟩
instance : Rules .v1_5 .license [(has "bom-ref" .string).from .v1_5] := ⟨rfl⟩
instance : Kids .v1_5 .license [oneOf [("id", .licenseId), ("name", .licenseName)], mayHave "text" .attachedText, mayHave "url" .string, (mayHave "licensing" .licensing).from .v1_5, (mayHave "properties" .properties).from .v1_5] := ⟨_, rfl, List.mem_singleton.mpr rfl⟩
instance : Items .v1_5 .license [("id", .licenseId), ("name", .licenseName), ("text", .attachedText), ("url", .string), ("licensing", .licensing), ("properties", .properties)] := ⟨rfl⟩
instance : Rules .v1_5 .licensing [] := ⟨rfl⟩
instance : Kids .v1_5 .licensing [mayHave "altIds" .altIds, mayHave "licensor" .licenseContact, mayHave "licensee" .licenseContact, mayHave "purchaser" .licenseContact, mayHave "purchaseOrder" .string, mayHave "licenseTypes" .licenseTypes, mayHave "lastRenewal" .string, mayHave "expiration" .string] := ⟨_, rfl, List.mem_singleton.mpr rfl⟩
instance : Items .v1_5 .licensing [("altIds", .altIds), ("licensor", .licenseContact), ("licensee", .licenseContact), ("purchaser", .licenseContact), ("purchaseOrder", .string), ("licenseTypes", .licenseTypes), ("lastRenewal", .string), ("expiration", .string)] := ⟨rfl⟩
instance : Rules .v1_5 .altIds [] := ⟨rfl⟩
instance : Kids .v1_5 .altIds [anyNumber "altId" .string] := ⟨_, rfl, List.mem_singleton.mpr rfl⟩
instance : Items .v1_5 .altIds [("altId", .string)] := ⟨rfl⟩
instance : Rules .v1_5 .licenseTypes [] := ⟨rfl⟩
instance : Kids .v1_5 .licenseTypes [anyNumber "licenseType" .string] := ⟨_, rfl, List.mem_singleton.mpr rfl⟩
instance : Items .v1_5 .licenseTypes [("licenseType", .string)] := ⟨rfl⟩
instance : Rules .v1_5 .licenseContact [] := ⟨rfl⟩
instance : Kids .v1_5 .licenseContact [oneOf [("organization", .organizationalEntity), ("individual", .organizationalContact)]] := ⟨_, rfl, List.mem_singleton.mpr rfl⟩
instance : Items .v1_5 .licenseContact [("organization", .organizationalEntity), ("individual", .organizationalContact)] := ⟨rfl⟩
instance : Rules .v1_5 .attachedText [has "content-type" .string, has "encoding" .string] := ⟨rfl⟩
instance : Rules .v1_5 .attachment [has "content-type" .string, has "encoding" .string] := ⟨rfl⟩
instance : Rules .v1_5 .swid [needs "tagId" .string, needs "name" .string, has "version" .string, has "tagVersion" .integer, has "patch" .boolean] := ⟨rfl⟩
instance : Kids .v1_5 .swid [mayHave "text" .attachedText, mayHave "url" .string] := ⟨_, rfl, List.mem_singleton.mpr rfl⟩
instance : Items .v1_5 .swid [("text", .attachedText), ("url", .string)] := ⟨rfl⟩
instance : Rules .v1_5 .pedigree [] := ⟨rfl⟩
instance : Kids .v1_5 .pedigree [mayHave "ancestors" .components, mayHave "descendants" .components, mayHave "variants" .components, mayHave "commits" .commits, mayHave "patches" .patches, mayHave "notes" .string] := ⟨_, rfl, List.mem_singleton.mpr rfl⟩
instance : Items .v1_5 .pedigree [("ancestors", .components), ("descendants", .components), ("variants", .components), ("commits", .commits), ("patches", .patches), ("notes", .string)] := ⟨rfl⟩
instance : Rules .v1_5 .commits [] := ⟨rfl⟩
instance : Kids .v1_5 .commits [anyNumber "commit" .commit] := ⟨_, rfl, List.mem_singleton.mpr rfl⟩
instance : Items .v1_5 .commits [("commit", .commit)] := ⟨rfl⟩
instance : Rules .v1_5 .commit [] := ⟨rfl⟩
instance : Kids .v1_5 .commit [mayHave "uid" .string, mayHave "url" .string, mayHave "author" .identifiableAction, mayHave "committer" .identifiableAction, mayHave "message" .string] := ⟨_, rfl, List.mem_singleton.mpr rfl⟩
instance : Items .v1_5 .commit [("uid", .string), ("url", .string), ("author", .identifiableAction), ("committer", .identifiableAction), ("message", .string)] := ⟨rfl⟩
instance : Rules .v1_5 .identifiableAction [] := ⟨rfl⟩
instance : Kids .v1_5 .identifiableAction [mayHave "timestamp" .string, mayHave "name" .string, mayHave "email" .string] := ⟨_, rfl, List.mem_singleton.mpr rfl⟩
instance : Items .v1_5 .identifiableAction [("timestamp", .string), ("name", .string), ("email", .string)] := ⟨rfl⟩
instance : Rules .v1_5 .patches [] := ⟨rfl⟩
instance : Kids .v1_5 .patches [anyNumber "patch" .patch] := ⟨_, rfl, List.mem_singleton.mpr rfl⟩
instance : Items .v1_5 .patches [("patch", .patch)] := ⟨rfl⟩
instance : Rules .v1_5 .patch [needs "type" .string] := ⟨rfl⟩
instance : Kids .v1_5 .patch [mayHave "diff" .diff, mayHave "resolves" .resolves] := ⟨_, rfl, List.mem_singleton.mpr rfl⟩
instance : Items .v1_5 .patch [("diff", .diff), ("resolves", .resolves)] := ⟨rfl⟩
instance : Rules .v1_5 .diff [] := ⟨rfl⟩
instance : Kids .v1_5 .diff [mayHave "text" .attachedText, mayHave "url" .string] := ⟨_, rfl, List.mem_singleton.mpr rfl⟩
instance : Items .v1_5 .diff [("text", .attachedText), ("url", .string)] := ⟨rfl⟩
instance : Rules .v1_5 .resolves [] := ⟨rfl⟩
instance : Kids .v1_5 .resolves [anyNumber "issue" .issue] := ⟨_, rfl, List.mem_singleton.mpr rfl⟩
instance : Items .v1_5 .resolves [("issue", .issue)] := ⟨rfl⟩
instance : Rules .v1_5 .issue [needs "type" .string] := ⟨rfl⟩
instance : Kids .v1_5 .issue [mayHave "id" .string, mayHave "name" .string, mayHave "description" .string, mayHave "source" .namedUrl, mayHave "references" .urls] := ⟨_, rfl, List.mem_singleton.mpr rfl⟩
instance : Items .v1_5 .issue [("id", .string), ("name", .string), ("description", .string), ("source", .namedUrl), ("references", .urls)] := ⟨rfl⟩
instance : Rules .v1_5 .namedUrl [] := ⟨rfl⟩
instance : Kids .v1_5 .namedUrl [mayHave "name" .string, mayHave "url" .string] := ⟨_, rfl, List.mem_singleton.mpr rfl⟩
instance : Items .v1_5 .namedUrl [("name", .string), ("url", .string)] := ⟨rfl⟩
instance : Rules .v1_5 .urls [] := ⟨rfl⟩
instance : Kids .v1_5 .urls [anyNumber "url" .string] := ⟨_, rfl, List.mem_singleton.mpr rfl⟩
instance : Items .v1_5 .urls [("url", .string)] := ⟨rfl⟩
instance : Rules .v1_5 .externalReferences [] := ⟨rfl⟩
instance : Kids .v1_5 .externalReferences [anyNumber "reference" .externalReference] := ⟨_, rfl, List.mem_singleton.mpr rfl⟩
instance : Items .v1_5 .externalReferences [("reference", .externalReference)] := ⟨rfl⟩
instance : Rules .v1_5 .externalReference [needs "type" .string] := ⟨rfl⟩
instance : Kids .v1_5 .externalReference [mustHave "url" .string, mayHave "comment" .string, mayHave "hashes" .hashes] := ⟨_, rfl, List.mem_singleton.mpr rfl⟩
instance : Items .v1_5 .externalReference [("url", .string), ("comment", .string), ("hashes", .hashes)] := ⟨rfl⟩
instance : Rules .v1_5 .properties [] := ⟨rfl⟩
instance : Kids .v1_5 .properties [anyNumber "property" .property] := ⟨_, rfl, List.mem_singleton.mpr rfl⟩
instance : Items .v1_5 .properties [("property", .property)] := ⟨rfl⟩
instance : Rules .v1_5 .property [needs "name" .string] := ⟨rfl⟩
instance : Rules .v1_5 .evidence [] := ⟨rfl⟩
instance : Kids .v1_5 .evidence [(mayHave "identity" .identity).from .v1_5, (mayHave "occurrences" .occurrences).from .v1_5, (mayHave "callstack" .callstack).from .v1_5, mayHave "licenses" .licenses, mayHave "copyright" .copyrights] := ⟨_, rfl, List.mem_singleton.mpr rfl⟩
instance : Items .v1_5 .evidence [("identity", .identity), ("occurrences", .occurrences), ("callstack", .callstack), ("licenses", .licenses), ("copyright", .copyrights)] := ⟨rfl⟩
instance : Rules .v1_5 .copyrights [] := ⟨rfl⟩
instance : Kids .v1_5 .copyrights [anyNumber "text" .string] := ⟨_, rfl, List.mem_singleton.mpr rfl⟩
instance : Items .v1_5 .copyrights [("text", .string)] := ⟨rfl⟩
instance : Rules .v1_5 .identity [] := ⟨rfl⟩
instance : Kids .v1_5 .identity [mustHave "field" .string, mayHave "confidence" .decimal, mayHave "methods" .methods, mayHave "tools" .toolRefs] := ⟨_, rfl, List.mem_singleton.mpr rfl⟩
instance : Items .v1_5 .identity [("field", .string), ("confidence", .decimal), ("methods", .methods), ("tools", .toolRefs)] := ⟨rfl⟩
instance : Rules .v1_5 .methods [] := ⟨rfl⟩
instance : Kids .v1_5 .methods [anyNumber "method" .method] := ⟨_, rfl, List.mem_singleton.mpr rfl⟩
instance : Items .v1_5 .methods [("method", .method)] := ⟨rfl⟩
instance : Rules .v1_5 .method [] := ⟨rfl⟩
instance : Kids .v1_5 .method [mustHave "technique" .string, mustHave "confidence" .decimal, mayHave "value" .string] := ⟨_, rfl, List.mem_singleton.mpr rfl⟩
instance : Items .v1_5 .method [("technique", .string), ("confidence", .decimal), ("value", .string)] := ⟨rfl⟩
instance : Rules .v1_5 .toolRefs [] := ⟨rfl⟩
instance : Kids .v1_5 .toolRefs [anyNumber "tool" .reference] := ⟨_, rfl, List.mem_singleton.mpr rfl⟩
instance : Items .v1_5 .toolRefs [("tool", .reference)] := ⟨rfl⟩
instance : Rules .v1_5 .reference [needs "ref" .string] := ⟨rfl⟩
instance : Kids .v1_5 .reference [] := ⟨_, rfl, List.mem_singleton.mpr rfl⟩
instance : Items .v1_5 .reference [] := ⟨rfl⟩
instance : Rules .v1_5 .occurrences [] := ⟨rfl⟩
instance : Kids .v1_5 .occurrences [anyNumber "occurrence" .occurrence] := ⟨_, rfl, List.mem_singleton.mpr rfl⟩
instance : Items .v1_5 .occurrences [("occurrence", .occurrence)] := ⟨rfl⟩
instance : Rules .v1_5 .occurrence [has "bom-ref" .string] := ⟨rfl⟩
instance : Kids .v1_5 .occurrence [mustHave "location" .string] := ⟨_, rfl, List.mem_singleton.mpr rfl⟩
instance : Items .v1_5 .occurrence [("location", .string)] := ⟨rfl⟩
instance : Rules .v1_5 .callstack [] := ⟨rfl⟩
instance : Kids .v1_5 .callstack [mayHave "frames" .frames] := ⟨_, rfl, List.mem_singleton.mpr rfl⟩
instance : Items .v1_5 .callstack [("frames", .frames)] := ⟨rfl⟩
instance : Rules .v1_5 .frames [] := ⟨rfl⟩
instance : Kids .v1_5 .frames [anyNumber "frame" .frame] := ⟨_, rfl, List.mem_singleton.mpr rfl⟩
instance : Items .v1_5 .frames [("frame", .frame)] := ⟨rfl⟩
instance : Rules .v1_5 .frame [] := ⟨rfl⟩
instance : Kids .v1_5 .frame [mayHave "package" .string, mustHave "module" .string, mayHave "function" .string, mayHave "parameters" .frameParameters, mayHave "line" .integer, mayHave "column" .integer, mayHave "fullFilename" .string] := ⟨_, rfl, List.mem_singleton.mpr rfl⟩
instance : Items .v1_5 .frame [("package", .string), ("module", .string), ("function", .string), ("parameters", .frameParameters), ("line", .integer), ("column", .integer), ("fullFilename", .string)] := ⟨rfl⟩
instance : Rules .v1_5 .frameParameters [] := ⟨rfl⟩
instance : Kids .v1_5 .frameParameters [anyNumber "parameter" .string] := ⟨_, rfl, List.mem_singleton.mpr rfl⟩
instance : Items .v1_5 .frameParameters [("parameter", .string)] := ⟨rfl⟩
instance : Rules .v1_5 .modelCard [has "bom-ref" .string] := ⟨rfl⟩
instance : Kids .v1_5 .modelCard [mayHave "modelParameters" .modelParameters, mayHave "quantitativeAnalysis" .quantitativeAnalysis, mayHave "considerations" .considerations, mayHave "properties" .properties] := ⟨_, rfl, List.mem_singleton.mpr rfl⟩
instance : Items .v1_5 .modelCard [("modelParameters", .modelParameters), ("quantitativeAnalysis", .quantitativeAnalysis), ("considerations", .considerations), ("properties", .properties)] := ⟨rfl⟩
instance : Rules .v1_5 .modelParameters [] := ⟨rfl⟩
instance : Kids .v1_5 .modelParameters [mayHave "approach" .approach, mayHave "task" .string, mayHave "architectureFamily" .string, mayHave "modelArchitecture" .string, mayHave "datasets" .datasets, mayHave "inputs" .mlInputs, mayHave "outputs" .mlOutputs] := ⟨_, rfl, List.mem_singleton.mpr rfl⟩
instance : Items .v1_5 .modelParameters [("approach", .approach), ("task", .string), ("architectureFamily", .string), ("modelArchitecture", .string), ("datasets", .datasets), ("inputs", .mlInputs), ("outputs", .mlOutputs)] := ⟨rfl⟩
instance : Rules .v1_5 .approach [] := ⟨rfl⟩
instance : Kids .v1_5 .approach [mayHave "type" .string] := ⟨_, rfl, List.mem_singleton.mpr rfl⟩
instance : Items .v1_5 .approach [("type", .string)] := ⟨rfl⟩
instance : Rules .v1_5 .datasets [] := ⟨rfl⟩
instance : Kids .v1_5 .datasets [anyOf [("dataset", .componentData), ("ref", .string)]] := ⟨_, rfl, List.mem_singleton.mpr rfl⟩
instance : Items .v1_5 .datasets [("dataset", .componentData), ("ref", .string)] := ⟨rfl⟩
instance : Rules .v1_5 .mlInputs [] := ⟨rfl⟩
instance : Kids .v1_5 .mlInputs [anyNumber "input" .mlParameter] := ⟨_, rfl, List.mem_singleton.mpr rfl⟩
instance : Items .v1_5 .mlInputs [("input", .mlParameter)] := ⟨rfl⟩
instance : Rules .v1_5 .mlOutputs [] := ⟨rfl⟩
instance : Kids .v1_5 .mlOutputs [anyNumber "output" .mlParameter] := ⟨_, rfl, List.mem_singleton.mpr rfl⟩
instance : Items .v1_5 .mlOutputs [("output", .mlParameter)] := ⟨rfl⟩
instance : Rules .v1_5 .mlParameter [] := ⟨rfl⟩
instance : Kids .v1_5 .mlParameter [mayHave "format" .string] := ⟨_, rfl, List.mem_singleton.mpr rfl⟩
instance : Items .v1_5 .mlParameter [("format", .string)] := ⟨rfl⟩
instance : Rules .v1_5 .componentData [has "bom-ref" .string] := ⟨rfl⟩
instance : Kids .v1_5 .componentData [mustHave "type" .string, mayHave "name" .string, mayHave "contents" .dataContents, mayHave "classification" .string, anyNumber "sensitiveData" .string, mayHave "graphics" .graphics, mayHave "description" .string, mayHave "governance" .governance] := ⟨_, rfl, List.mem_singleton.mpr rfl⟩
instance : Items .v1_5 .componentData [("type", .string), ("name", .string), ("contents", .dataContents), ("classification", .string), ("sensitiveData", .string), ("graphics", .graphics), ("description", .string), ("governance", .governance)] := ⟨rfl⟩
instance : Rules .v1_5 .dataContents [] := ⟨rfl⟩
instance : Kids .v1_5 .dataContents [mayHave "attachment" .attachment, mayHave "url" .string, mayHave "properties" .properties] := ⟨_, rfl, List.mem_singleton.mpr rfl⟩
instance : Items .v1_5 .dataContents [("attachment", .attachment), ("url", .string), ("properties", .properties)] := ⟨rfl⟩
instance : Rules .v1_5 .graphics [] := ⟨rfl⟩
instance : Kids .v1_5 .graphics [mayHave "description" .string, mayHave "collection" .graphicCollection] := ⟨_, rfl, List.mem_singleton.mpr rfl⟩
instance : Items .v1_5 .graphics [("description", .string), ("collection", .graphicCollection)] := ⟨rfl⟩
instance : Rules .v1_5 .graphicCollection [] := ⟨rfl⟩
instance : Kids .v1_5 .graphicCollection [anyNumber "graphic" .graphic] := ⟨_, rfl, List.mem_singleton.mpr rfl⟩
instance : Items .v1_5 .graphicCollection [("graphic", .graphic)] := ⟨rfl⟩
instance : Rules .v1_5 .graphic [] := ⟨rfl⟩
instance : Kids .v1_5 .graphic [mayHave "name" .string, mayHave "image" .attachment] := ⟨_, rfl, List.mem_singleton.mpr rfl⟩
instance : Items .v1_5 .graphic [("name", .string), ("image", .attachment)] := ⟨rfl⟩
instance : Rules .v1_5 .governance [] := ⟨rfl⟩
instance : Kids .v1_5 .governance [anyOf [("custodians", .custodians), ("stewards", .stewards), ("owners", .owners)]] := ⟨_, rfl, List.mem_singleton.mpr rfl⟩
instance : Items .v1_5 .governance [("custodians", .custodians), ("stewards", .stewards), ("owners", .owners)] := ⟨rfl⟩
instance : Rules .v1_5 .custodians [] := ⟨rfl⟩
instance : Kids .v1_5 .custodians [anyNumber "custodian" .responsibleParty] := ⟨_, rfl, List.mem_singleton.mpr rfl⟩
instance : Items .v1_5 .custodians [("custodian", .responsibleParty)] := ⟨rfl⟩
instance : Rules .v1_5 .stewards [] := ⟨rfl⟩
instance : Kids .v1_5 .stewards [anyNumber "steward" .responsibleParty] := ⟨_, rfl, List.mem_singleton.mpr rfl⟩
instance : Items .v1_5 .stewards [("steward", .responsibleParty)] := ⟨rfl⟩
instance : Rules .v1_5 .owners [] := ⟨rfl⟩
instance : Kids .v1_5 .owners [anyNumber "owner" .responsibleParty] := ⟨_, rfl, List.mem_singleton.mpr rfl⟩
instance : Items .v1_5 .owners [("owner", .responsibleParty)] := ⟨rfl⟩
instance : Rules .v1_5 .responsibleParty [] := ⟨rfl⟩
instance : Kids .v1_5 .responsibleParty [oneOf [("organization", .organizationalEntity), ("contact", .organizationalContact)]] := ⟨_, rfl, List.mem_singleton.mpr rfl⟩
instance : Items .v1_5 .responsibleParty [("organization", .organizationalEntity), ("contact", .organizationalContact)] := ⟨rfl⟩
instance : Rules .v1_5 .quantitativeAnalysis [] := ⟨rfl⟩
instance : Kids .v1_5 .quantitativeAnalysis [mayHave "performanceMetrics" .performanceMetrics, mayHave "graphics" .graphics] := ⟨_, rfl, List.mem_singleton.mpr rfl⟩
instance : Items .v1_5 .quantitativeAnalysis [("performanceMetrics", .performanceMetrics), ("graphics", .graphics)] := ⟨rfl⟩
instance : Rules .v1_5 .performanceMetrics [] := ⟨rfl⟩
instance : Kids .v1_5 .performanceMetrics [anyNumber "performanceMetric" .performanceMetric] := ⟨_, rfl, List.mem_singleton.mpr rfl⟩
instance : Items .v1_5 .performanceMetrics [("performanceMetric", .performanceMetric)] := ⟨rfl⟩
instance : Rules .v1_5 .performanceMetric [] := ⟨rfl⟩
instance : Kids .v1_5 .performanceMetric [mayHave "type" .string, mayHave "value" .string, mayHave "slice" .string, mayHave "confidenceInterval" .confidenceInterval] := ⟨_, rfl, List.mem_singleton.mpr rfl⟩
instance : Items .v1_5 .performanceMetric [("type", .string), ("value", .string), ("slice", .string), ("confidenceInterval", .confidenceInterval)] := ⟨rfl⟩
instance : Rules .v1_5 .confidenceInterval [] := ⟨rfl⟩
instance : Kids .v1_5 .confidenceInterval [mayHave "lowerBound" .string, mayHave "upperBound" .string] := ⟨_, rfl, List.mem_singleton.mpr rfl⟩
instance : Items .v1_5 .confidenceInterval [("lowerBound", .string), ("upperBound", .string)] := ⟨rfl⟩
instance : Rules .v1_5 .considerations [] := ⟨rfl⟩
instance : Kids .v1_5 .considerations [mayHave "users" .users, mayHave "useCases" .useCases, mayHave "technicalLimitations" .technicalLimitations, mayHave "performanceTradeoffs" .performanceTradeoffs, mayHave "ethicalConsiderations" .ethicalConsiderations, mayHave "fairnessAssessments" .fairnessAssessments] := ⟨_, rfl, List.mem_singleton.mpr rfl⟩
instance : Items .v1_5 .considerations [("users", .users), ("useCases", .useCases), ("technicalLimitations", .technicalLimitations), ("performanceTradeoffs", .performanceTradeoffs), ("ethicalConsiderations", .ethicalConsiderations), ("fairnessAssessments", .fairnessAssessments)] := ⟨rfl⟩
instance : Rules .v1_5 .users [] := ⟨rfl⟩
instance : Kids .v1_5 .users [anyNumber "user" .string] := ⟨_, rfl, List.mem_singleton.mpr rfl⟩
instance : Items .v1_5 .users [("user", .string)] := ⟨rfl⟩
instance : Rules .v1_5 .useCases [] := ⟨rfl⟩
instance : Kids .v1_5 .useCases [anyNumber "useCase" .string] := ⟨_, rfl, List.mem_singleton.mpr rfl⟩
instance : Items .v1_5 .useCases [("useCase", .string)] := ⟨rfl⟩
instance : Rules .v1_5 .technicalLimitations [] := ⟨rfl⟩
instance : Kids .v1_5 .technicalLimitations [anyNumber "technicalLimitation" .string] := ⟨_, rfl, List.mem_singleton.mpr rfl⟩
instance : Items .v1_5 .technicalLimitations [("technicalLimitation", .string)] := ⟨rfl⟩
instance : Rules .v1_5 .performanceTradeoffs [] := ⟨rfl⟩
instance : Kids .v1_5 .performanceTradeoffs [anyNumber "performanceTradeoff" .string] := ⟨_, rfl, List.mem_singleton.mpr rfl⟩
instance : Items .v1_5 .performanceTradeoffs [("performanceTradeoff", .string)] := ⟨rfl⟩
instance : Rules .v1_5 .ethicalConsiderations [] := ⟨rfl⟩
instance : Kids .v1_5 .ethicalConsiderations [anyNumber "ethicalConsideration" .ethicalConsideration] := ⟨_, rfl, List.mem_singleton.mpr rfl⟩
instance : Items .v1_5 .ethicalConsiderations [("ethicalConsideration", .ethicalConsideration)] := ⟨rfl⟩
instance : Rules .v1_5 .ethicalConsideration [] := ⟨rfl⟩
instance : Kids .v1_5 .ethicalConsideration [mayHave "name" .string, mayHave "mitigationStrategy" .string] := ⟨_, rfl, List.mem_singleton.mpr rfl⟩
instance : Items .v1_5 .ethicalConsideration [("name", .string), ("mitigationStrategy", .string)] := ⟨rfl⟩
instance : Rules .v1_5 .fairnessAssessments [] := ⟨rfl⟩
instance : Kids .v1_5 .fairnessAssessments [anyNumber "fairnessAssessment" .fairnessAssessment] := ⟨_, rfl, List.mem_singleton.mpr rfl⟩
instance : Items .v1_5 .fairnessAssessments [("fairnessAssessment", .fairnessAssessment)] := ⟨rfl⟩
instance : Rules .v1_5 .fairnessAssessment [] := ⟨rfl⟩
instance : Kids .v1_5 .fairnessAssessment [mayHave "groupAtRisk" .string, mayHave "benefits" .string, mayHave "harms" .string, mayHave "mitigationStrategy" .string] := ⟨_, rfl, List.mem_singleton.mpr rfl⟩
instance : Items .v1_5 .fairnessAssessment [("groupAtRisk", .string), ("benefits", .string), ("harms", .string), ("mitigationStrategy", .string)] := ⟨rfl⟩
instance : Rules .v1_5 .services [] := ⟨rfl⟩
instance : Kids .v1_5 .services [anyNumber "service" .service] := ⟨_, rfl, List.mem_singleton.mpr rfl⟩
instance : Items .v1_5 .services [("service", .service)] := ⟨rfl⟩
instance : Rules .v1_5 .service [has "bom-ref" .string] := ⟨rfl⟩
instance : Kids .v1_5 .service [mayHave "provider" .organizationalEntity, mayHave "group" .string, mustHave "name" .string, mayHave "version" .string, mayHave "description" .string, mayHave "endpoints" .endpoints, mayHave "authenticated" .boolean, mayHave "x-trust-boundary" .boolean, (mayHave "trustZone" .string).from .v1_5, mayHave "data" .serviceData, mayHave "licenses" .licenses, mayHave "externalReferences" .externalReferences, mayHave "properties" .properties, mayHave "services" .services, (mayHave "releaseNotes" .releaseNotes).from .v1_4] := ⟨_, rfl, List.mem_singleton.mpr rfl⟩
instance : Items .v1_5 .service [("provider", .organizationalEntity), ("group", .string), ("name", .string), ("version", .string), ("description", .string), ("endpoints", .endpoints), ("authenticated", .boolean), ("x-trust-boundary", .boolean), ("trustZone", .string), ("data", .serviceData), ("licenses", .licenses), ("externalReferences", .externalReferences), ("properties", .properties), ("services", .services), ("releaseNotes", .releaseNotes)] := ⟨rfl⟩
instance : Rules .v1_5 .endpoints [] := ⟨rfl⟩
instance : Kids .v1_5 .endpoints [anyNumber "endpoint" .string] := ⟨_, rfl, List.mem_singleton.mpr rfl⟩
instance : Items .v1_5 .endpoints [("endpoint", .string)] := ⟨rfl⟩
instance : Rules .v1_5 .serviceData [] := ⟨rfl⟩
instance : Items .v1_5 .serviceData [("classification", .classification), ("dataflow", .dataflow)] := ⟨rfl⟩
instance : Rules .v1_5 .classification [needs "flow" .string] := ⟨rfl⟩
instance : Rules .v1_5 .dataflow [has "name" .string, has "description" .string] := ⟨rfl⟩
instance : Kids .v1_5 .dataflow [mustHave "classification" .classification, mayHave "governance" .governance, mayHave "source" .urls, mayHave "destination" .urls] := ⟨_, rfl, List.mem_singleton.mpr rfl⟩
instance : Items .v1_5 .dataflow [("classification", .classification), ("governance", .governance), ("source", .urls), ("destination", .urls)] := ⟨rfl⟩
instance : Rules .v1_5 .dependencies [] := ⟨rfl⟩
instance : Kids .v1_5 .dependencies [anyNumber "dependency" .dependency] := ⟨_, rfl, List.mem_singleton.mpr rfl⟩
instance : Items .v1_5 .dependencies [("dependency", .dependency)] := ⟨rfl⟩
instance : Rules .v1_5 .dependency [needs "ref" .string] := ⟨rfl⟩
instance : Kids .v1_5 .dependency [anyNumber "dependency" .subDependency] := ⟨_, rfl, List.mem_singleton.mpr rfl⟩
instance : Items .v1_5 .dependency [("dependency", .subDependency)] := ⟨rfl⟩
instance : Rules .v1_5 .subDependency [needs "ref" .string] := ⟨rfl⟩
instance : Kids .v1_5 .subDependency [anyNumber "dependency" .subDependency] := ⟨_, rfl, List.mem_singleton.mpr rfl⟩
instance : Items .v1_5 .subDependency [("dependency", .subDependency)] := ⟨rfl⟩
instance : Rules .v1_5 .compositions [] := ⟨rfl⟩
instance : Kids .v1_5 .compositions [anyNumber "composition" .composition] := ⟨_, rfl, List.mem_singleton.mpr rfl⟩
instance : Items .v1_5 .compositions [("composition", .composition)] := ⟨rfl⟩
instance : Rules .v1_5 .composition [(has "bom-ref" .string).from .v1_5] := ⟨rfl⟩
instance : Kids .v1_5 .composition [mustHave "aggregate" .string, mayHave "assemblies" .assemblies, mayHave "dependencies" .referencedDependencies, (mayHave "vulnerabilities" .referencedVulnerabilities).from .v1_5] := ⟨_, rfl, List.mem_singleton.mpr rfl⟩
instance : Items .v1_5 .composition [("aggregate", .string), ("assemblies", .assemblies), ("dependencies", .referencedDependencies), ("vulnerabilities", .referencedVulnerabilities)] := ⟨rfl⟩
instance : Rules .v1_5 .assemblies [] := ⟨rfl⟩
instance : Kids .v1_5 .assemblies [anyNumber "assembly" .reference] := ⟨_, rfl, List.mem_singleton.mpr rfl⟩
instance : Items .v1_5 .assemblies [("assembly", .reference)] := ⟨rfl⟩
instance : Rules .v1_5 .referencedDependencies [] := ⟨rfl⟩
instance : Kids .v1_5 .referencedDependencies [anyNumber "dependency" .reference] := ⟨_, rfl, List.mem_singleton.mpr rfl⟩
instance : Items .v1_5 .referencedDependencies [("dependency", .reference)] := ⟨rfl⟩
instance : Rules .v1_5 .referencedVulnerabilities [] := ⟨rfl⟩
instance : Kids .v1_5 .referencedVulnerabilities [anyNumber "vulnerability" .reference] := ⟨_, rfl, List.mem_singleton.mpr rfl⟩
instance : Items .v1_5 .referencedVulnerabilities [("vulnerability", .reference)] := ⟨rfl⟩
instance : Rules .v1_5 .vulnerabilities [] := ⟨rfl⟩
instance : Kids .v1_5 .vulnerabilities [anyNumber "vulnerability" .vulnerability] := ⟨_, rfl, List.mem_singleton.mpr rfl⟩
instance : Items .v1_5 .vulnerabilities [("vulnerability", .vulnerability)] := ⟨rfl⟩
instance : Rules .v1_5 .vulnerability [has "bom-ref" .string] := ⟨rfl⟩
instance : Kids .v1_5 .vulnerability [mayHave "id" .string, mayHave "source" .namedUrl, mayHave "references" .vulnerabilityReferences, mayHave "ratings" .ratings, mayHave "cwes" .cwes, mayHave "description" .string, mayHave "detail" .string, mayHave "recommendation" .string, (mayHave "workaround" .string).from .v1_5, (mayHave "proofOfConcept" .proofOfConcept).from .v1_5, mayHave "advisories" .advisories, mayHave "created" .string, mayHave "published" .string, mayHave "updated" .string, (mayHave "rejected" .string).from .v1_5, mayHave "credits" .credits, mayHave "tools" .tools, mayHave "analysis" .analysis, mayHave "affects" .affects, mayHave "properties" .properties] := ⟨_, rfl, List.mem_singleton.mpr rfl⟩
instance : Items .v1_5 .vulnerability [("id", .string), ("source", .namedUrl), ("references", .vulnerabilityReferences), ("ratings", .ratings), ("cwes", .cwes), ("description", .string), ("detail", .string), ("recommendation", .string), ("workaround", .string), ("proofOfConcept", .proofOfConcept), ("advisories", .advisories), ("created", .string), ("published", .string), ("updated", .string), ("rejected", .string), ("credits", .credits), ("tools", .tools), ("analysis", .analysis), ("affects", .affects), ("properties", .properties)] := ⟨rfl⟩
instance : Rules .v1_5 .vulnerabilityReferences [] := ⟨rfl⟩
instance : Kids .v1_5 .vulnerabilityReferences [anyNumber "reference" .vulnerabilityReference] := ⟨_, rfl, List.mem_singleton.mpr rfl⟩
instance : Items .v1_5 .vulnerabilityReferences [("reference", .vulnerabilityReference)] := ⟨rfl⟩
instance : Rules .v1_5 .vulnerabilityReference [] := ⟨rfl⟩
instance : Kids .v1_5 .vulnerabilityReference [mustHave "id" .string, mustHave "source" .namedUrl] := ⟨_, rfl, List.mem_singleton.mpr rfl⟩
instance : Items .v1_5 .vulnerabilityReference [("id", .string), ("source", .namedUrl)] := ⟨rfl⟩
instance : Rules .v1_5 .ratings [] := ⟨rfl⟩
instance : Kids .v1_5 .ratings [anyNumber "rating" .rating] := ⟨_, rfl, List.mem_singleton.mpr rfl⟩
instance : Items .v1_5 .ratings [("rating", .rating)] := ⟨rfl⟩
instance : Rules .v1_5 .rating [] := ⟨rfl⟩
instance : Kids .v1_5 .rating [mayHave "source" .namedUrl, mayHave "score" .decimal, mayHave "severity" .string, mayHave "method" .string, mayHave "vector" .string, mayHave "justification" .string] := ⟨_, rfl, List.mem_singleton.mpr rfl⟩
instance : Items .v1_5 .rating [("source", .namedUrl), ("score", .decimal), ("severity", .string), ("method", .string), ("vector", .string), ("justification", .string)] := ⟨rfl⟩
instance : Rules .v1_5 .cwes [] := ⟨rfl⟩
instance : Kids .v1_5 .cwes [anyNumber "cwe" .integer] := ⟨_, rfl, List.mem_singleton.mpr rfl⟩
instance : Items .v1_5 .cwes [("cwe", .integer)] := ⟨rfl⟩
instance : Rules .v1_5 .advisories [] := ⟨rfl⟩
instance : Kids .v1_5 .advisories [anyNumber "advisory" .advisory] := ⟨_, rfl, List.mem_singleton.mpr rfl⟩
instance : Items .v1_5 .advisories [("advisory", .advisory)] := ⟨rfl⟩
instance : Rules .v1_5 .advisory [] := ⟨rfl⟩
instance : Kids .v1_5 .advisory [mayHave "title" .string, mustHave "url" .string] := ⟨_, rfl, List.mem_singleton.mpr rfl⟩
instance : Items .v1_5 .advisory [("title", .string), ("url", .string)] := ⟨rfl⟩
instance : Rules .v1_5 .credits [] := ⟨rfl⟩
instance : Kids .v1_5 .credits [mayHave "organizations" .organizations, mayHave "individuals" .individuals] := ⟨_, rfl, List.mem_singleton.mpr rfl⟩
instance : Items .v1_5 .credits [("organizations", .organizations), ("individuals", .individuals)] := ⟨rfl⟩
instance : Rules .v1_5 .organizations [] := ⟨rfl⟩
instance : Kids .v1_5 .organizations [anyNumber "organization" .organizationalEntity] := ⟨_, rfl, List.mem_singleton.mpr rfl⟩
instance : Items .v1_5 .organizations [("organization", .organizationalEntity)] := ⟨rfl⟩
instance : Rules .v1_5 .individuals [] := ⟨rfl⟩
instance : Kids .v1_5 .individuals [anyNumber "individual" .organizationalContact] := ⟨_, rfl, List.mem_singleton.mpr rfl⟩
instance : Items .v1_5 .individuals [("individual", .organizationalContact)] := ⟨rfl⟩
instance : Rules .v1_5 .analysis [] := ⟨rfl⟩
instance : Kids .v1_5 .analysis [mayHave "state" .string, mayHave "justification" .string, mayHave "responses" .responses, mayHave "detail" .string, (mayHave "firstIssued" .string).from .v1_5, (mayHave "lastUpdated" .string).from .v1_5] := ⟨_, rfl, List.mem_singleton.mpr rfl⟩
instance : Items .v1_5 .analysis [("state", .string), ("justification", .string), ("responses", .responses), ("detail", .string), ("firstIssued", .string), ("lastUpdated", .string)] := ⟨rfl⟩
instance : Rules .v1_5 .responses [] := ⟨rfl⟩
instance : Kids .v1_5 .responses [anyNumber "response" .string] := ⟨_, rfl, List.mem_singleton.mpr rfl⟩
instance : Items .v1_5 .responses [("response", .string)] := ⟨rfl⟩
instance : Rules .v1_5 .affects [] := ⟨rfl⟩
instance : Kids .v1_5 .affects [anyNumber "target" .target] := ⟨_, rfl, List.mem_singleton.mpr rfl⟩
instance : Items .v1_5 .affects [("target", .target)] := ⟨rfl⟩
instance : Rules .v1_5 .target [] := ⟨rfl⟩
instance : Kids .v1_5 .target [mustHave "ref" .string, mayHave "versions" .versions] := ⟨_, rfl, List.mem_singleton.mpr rfl⟩
instance : Items .v1_5 .target [("ref", .string), ("versions", .versions)] := ⟨rfl⟩
instance : Rules .v1_5 .versions [] := ⟨rfl⟩
instance : Kids .v1_5 .versions [anyNumber "version" .affectedVersion] := ⟨_, rfl, List.mem_singleton.mpr rfl⟩
instance : Items .v1_5 .versions [("version", .affectedVersion)] := ⟨rfl⟩
instance : Rules .v1_5 .affectedVersion [] := ⟨rfl⟩
instance : Kids .v1_5 .affectedVersion [oneOf [("version", .string), ("range", .string)], mayHave "status" .string] := ⟨_, rfl, List.mem_singleton.mpr rfl⟩
instance : Items .v1_5 .affectedVersion [("version", .string), ("range", .string), ("status", .string)] := ⟨rfl⟩
instance : Rules .v1_5 .proofOfConcept [] := ⟨rfl⟩
instance : Kids .v1_5 .proofOfConcept [mayHave "reproductionSteps" .string, mayHave "environment" .string, mayHave "supportingMaterial" .supportingMaterial] := ⟨_, rfl, List.mem_singleton.mpr rfl⟩
instance : Items .v1_5 .proofOfConcept [("reproductionSteps", .string), ("environment", .string), ("supportingMaterial", .supportingMaterial)] := ⟨rfl⟩
instance : Rules .v1_5 .supportingMaterial [] := ⟨rfl⟩
instance : Kids .v1_5 .supportingMaterial [anyNumber "attachment" .attachment] := ⟨_, rfl, List.mem_singleton.mpr rfl⟩
instance : Items .v1_5 .supportingMaterial [("attachment", .attachment)] := ⟨rfl⟩
instance : Rules .v1_5 .annotations [] := ⟨rfl⟩
instance : Kids .v1_5 .annotations [anyNumber "annotation" .annotation] := ⟨_, rfl, List.mem_singleton.mpr rfl⟩
instance : Items .v1_5 .annotations [("annotation", .annotation)] := ⟨rfl⟩
instance : Rules .v1_5 .annotation [has "bom-ref" .string] := ⟨rfl⟩
instance : Kids .v1_5 .annotation [mustHave "subjects" .subjects, mustHave "annotator" .annotator, mustHave "timestamp" .string, mustHave "text" .string] := ⟨_, rfl, List.mem_singleton.mpr rfl⟩
instance : Items .v1_5 .annotation [("subjects", .subjects), ("annotator", .annotator), ("timestamp", .string), ("text", .string)] := ⟨rfl⟩
instance : Rules .v1_5 .subjects [] := ⟨rfl⟩
instance : Kids .v1_5 .subjects [anyNumber "subject" .reference] := ⟨_, rfl, List.mem_singleton.mpr rfl⟩
instance : Items .v1_5 .subjects [("subject", .reference)] := ⟨rfl⟩
instance : Rules .v1_5 .annotator [] := ⟨rfl⟩
instance : Kids .v1_5 .annotator [oneOf [("organization", .organizationalEntity), ("individual", .organizationalContact), ("component", .component), ("service", .service)]] := ⟨_, rfl, List.mem_singleton.mpr rfl⟩
instance : Items .v1_5 .annotator [("organization", .organizationalEntity), ("individual", .organizationalContact), ("component", .component), ("service", .service)] := ⟨rfl⟩
instance : Rules .v1_5 .formulation [] := ⟨rfl⟩
instance : Kids .v1_5 .formulation [anyNumber "formula" .formula] := ⟨_, rfl, List.mem_singleton.mpr rfl⟩
instance : Items .v1_5 .formulation [("formula", .formula)] := ⟨rfl⟩
instance : Rules .v1_5 .formula [has "bom-ref" .string] := ⟨rfl⟩
instance : Kids .v1_5 .formula [mayHave "components" .components, mayHave "services" .services, mayHave "workflows" .workflows, mayHave "properties" .properties] := ⟨_, rfl, List.mem_singleton.mpr rfl⟩
instance : Items .v1_5 .formula [("components", .components), ("services", .services), ("workflows", .workflows), ("properties", .properties)] := ⟨rfl⟩
instance : Rules .v1_5 .workflows [] := ⟨rfl⟩
instance : Kids .v1_5 .workflows [anyNumber "workflow" .workflow] := ⟨_, rfl, List.mem_singleton.mpr rfl⟩
instance : Items .v1_5 .workflows [("workflow", .workflow)] := ⟨rfl⟩
instance : Rules .v1_5 .workflow [needs "bom-ref" .string] := ⟨rfl⟩
instance : Kids .v1_5 .workflow [mustHave "uid" .string, mayHave "name" .string, mayHave "description" .string, mayHave "resourceReferences" .resourceReferences, mayHave "tasks" .tasks, mayHave "taskDependencies" .dependencies, mustHave "taskTypes" .taskTypes, mayHave "trigger" .trigger, mayHave "steps" .steps, mayHave "inputs" .inputs, mayHave "outputs" .outputs, mayHave "timeStart" .string, mayHave "timeEnd" .string, mayHave "workspaces" .workspaces, mayHave "runtimeTopology" .dependencies, mayHave "properties" .properties] := ⟨_, rfl, List.mem_singleton.mpr rfl⟩
instance : Items .v1_5 .workflow [("uid", .string), ("name", .string), ("description", .string), ("resourceReferences", .resourceReferences), ("tasks", .tasks), ("taskDependencies", .dependencies), ("taskTypes", .taskTypes), ("trigger", .trigger), ("steps", .steps), ("inputs", .inputs), ("outputs", .outputs), ("timeStart", .string), ("timeEnd", .string), ("workspaces", .workspaces), ("runtimeTopology", .dependencies), ("properties", .properties)] := ⟨rfl⟩
instance : Rules .v1_5 .tasks [] := ⟨rfl⟩
instance : Kids .v1_5 .tasks [anyNumber "task" .task] := ⟨_, rfl, List.mem_singleton.mpr rfl⟩
instance : Items .v1_5 .tasks [("task", .task)] := ⟨rfl⟩
instance : Rules .v1_5 .task [needs "bom-ref" .string] := ⟨rfl⟩
instance : Kids .v1_5 .task [mustHave "uid" .string, mayHave "name" .string, mayHave "description" .string, mayHave "resourceReferences" .resourceReferences, mustHave "taskTypes" .taskTypes, mayHave "trigger" .trigger, mayHave "steps" .steps, mayHave "inputs" .inputs, mayHave "outputs" .outputs, mayHave "timeStart" .string, mayHave "timeEnd" .string, mayHave "workspaces" .workspaces, mayHave "runtimeTopology" .dependencies, mayHave "properties" .properties] := ⟨_, rfl, List.mem_singleton.mpr rfl⟩
instance : Items .v1_5 .task [("uid", .string), ("name", .string), ("description", .string), ("resourceReferences", .resourceReferences), ("taskTypes", .taskTypes), ("trigger", .trigger), ("steps", .steps), ("inputs", .inputs), ("outputs", .outputs), ("timeStart", .string), ("timeEnd", .string), ("workspaces", .workspaces), ("runtimeTopology", .dependencies), ("properties", .properties)] := ⟨rfl⟩
instance : Rules .v1_5 .taskTypes [] := ⟨rfl⟩
instance : Kids .v1_5 .taskTypes [atLeastOne "taskType" .string] := ⟨_, rfl, List.mem_singleton.mpr rfl⟩
instance : Items .v1_5 .taskTypes [("taskType", .string)] := ⟨rfl⟩
instance : Rules .v1_5 .resourceReferences [] := ⟨rfl⟩
instance : Kids .v1_5 .resourceReferences [anyNumber "resourceReference" .resourceReference] := ⟨_, rfl, List.mem_singleton.mpr rfl⟩
instance : Items .v1_5 .resourceReferences [("resourceReference", .resourceReference)] := ⟨rfl⟩
instance : Rules .v1_5 .resourceReference [] := ⟨rfl⟩
instance : Kids .v1_5 .resourceReference [oneOf [("ref", .string), ("externalReference", .externalReference)]] := ⟨_, rfl, List.mem_singleton.mpr rfl⟩
instance : Items .v1_5 .resourceReference [("ref", .string), ("externalReference", .externalReference)] := ⟨rfl⟩
instance : Rules .v1_5 .trigger [needs "bom-ref" .string] := ⟨rfl⟩
instance : Kids .v1_5 .trigger [mustHave "uid" .string, mayHave "name" .string, mayHave "description" .string, mayHave "resourceReferences" .resourceReferences, mustHave "type" .string, mayHave "event" .event, mayHave "conditions" .conditions, mayHave "timeActivated" .string, mayHave "inputs" .inputs, mayHave "outputs" .outputs, mayHave "properties" .properties] := ⟨_, rfl, List.mem_singleton.mpr rfl⟩
instance : Items .v1_5 .trigger [("uid", .string), ("name", .string), ("description", .string), ("resourceReferences", .resourceReferences), ("type", .string), ("event", .event), ("conditions", .conditions), ("timeActivated", .string), ("inputs", .inputs), ("outputs", .outputs), ("properties", .properties)] := ⟨rfl⟩
instance : Rules .v1_5 .event [] := ⟨rfl⟩
instance : Kids .v1_5 .event [mayHave "uid" .string, mayHave "description" .string, mayHave "timeReceived" .string, mayHave "data" .attachment, mayHave "source" .resourceReference, mayHave "target" .resourceReference, mayHave "properties" .properties] := ⟨_, rfl, List.mem_singleton.mpr rfl⟩
instance : Items .v1_5 .event [("uid", .string), ("description", .string), ("timeReceived", .string), ("data", .attachment), ("source", .resourceReference), ("target", .resourceReference), ("properties", .properties)] := ⟨rfl⟩
instance : Rules .v1_5 .conditions [] := ⟨rfl⟩
instance : Kids .v1_5 .conditions [anyNumber "condition" .condition] := ⟨_, rfl, List.mem_singleton.mpr rfl⟩
instance : Items .v1_5 .conditions [("condition", .condition)] := ⟨rfl⟩
instance : Rules .v1_5 .condition [] := ⟨rfl⟩
instance : Kids .v1_5 .condition [mayHave "description" .string, mayHave "expression" .string, mayHave "properties" .properties] := ⟨_, rfl, List.mem_singleton.mpr rfl⟩
instance : Items .v1_5 .condition [("description", .string), ("expression", .string), ("properties", .properties)] := ⟨rfl⟩
instance : Rules .v1_5 .inputs [] := ⟨rfl⟩
instance : Kids .v1_5 .inputs [anyNumber "input" .input] := ⟨_, rfl, List.mem_singleton.mpr rfl⟩
instance : Items .v1_5 .inputs [("input", .input)] := ⟨rfl⟩
instance : Rules .v1_5 .input [] := ⟨rfl⟩
instance : Kids .v1_5 .input [oneOf [("resource", .resourceReference), ("parameters", .parameters), ("environmentVars", .environmentVars), ("data", .attachment)], mayHave "source" .resourceReference, mayHave "target" .resourceReference, mayHave "properties" .properties] := ⟨_, rfl, List.mem_singleton.mpr rfl⟩
instance : Items .v1_5 .input [("resource", .resourceReference), ("parameters", .parameters), ("environmentVars", .environmentVars), ("data", .attachment), ("source", .resourceReference), ("target", .resourceReference), ("properties", .properties)] := ⟨rfl⟩
instance : Rules .v1_5 .outputs [] := ⟨rfl⟩
instance : Kids .v1_5 .outputs [anyNumber "output" .output] := ⟨_, rfl, List.mem_singleton.mpr rfl⟩
instance : Items .v1_5 .outputs [("output", .output)] := ⟨rfl⟩
instance : Rules .v1_5 .output [] := ⟨rfl⟩
instance : Kids .v1_5 .output [oneOf [("resource", .resourceReference), ("environmentVars", .environmentVars), ("data", .attachment)], mayHave "type" .string, mayHave "source" .resourceReference, mayHave "target" .resourceReference, mayHave "properties" .properties] := ⟨_, rfl, List.mem_singleton.mpr rfl⟩
instance : Items .v1_5 .output [("resource", .resourceReference), ("environmentVars", .environmentVars), ("data", .attachment), ("type", .string), ("source", .resourceReference), ("target", .resourceReference), ("properties", .properties)] := ⟨rfl⟩
instance : Rules .v1_5 .parameters [] := ⟨rfl⟩
instance : Kids .v1_5 .parameters [anyNumber "parameter" .parameter] := ⟨_, rfl, List.mem_singleton.mpr rfl⟩
instance : Items .v1_5 .parameters [("parameter", .parameter)] := ⟨rfl⟩
instance : Rules .v1_5 .parameter [] := ⟨rfl⟩
instance : Kids .v1_5 .parameter [mayHave "name" .string, mayHave "value" .string, mayHave "dataType" .string] := ⟨_, rfl, List.mem_singleton.mpr rfl⟩
instance : Items .v1_5 .parameter [("name", .string), ("value", .string), ("dataType", .string)] := ⟨rfl⟩
instance : Rules .v1_5 .environmentVars [] := ⟨rfl⟩
instance : Kids .v1_5 .environmentVars [anyOf [("environmentVar", .property), ("value", .string)]] := ⟨_, rfl, List.mem_singleton.mpr rfl⟩
instance : Items .v1_5 .environmentVars [("environmentVar", .property), ("value", .string)] := ⟨rfl⟩
instance : Rules .v1_5 .steps [] := ⟨rfl⟩
instance : Kids .v1_5 .steps [anyNumber "step" .step] := ⟨_, rfl, List.mem_singleton.mpr rfl⟩
instance : Items .v1_5 .steps [("step", .step)] := ⟨rfl⟩
instance : Rules .v1_5 .step [] := ⟨rfl⟩
instance : Kids .v1_5 .step [mayHave "name" .string, mayHave "description" .string, mayHave "commands" .commands, mayHave "properties" .properties] := ⟨_, rfl, List.mem_singleton.mpr rfl⟩
instance : Items .v1_5 .step [("name", .string), ("description", .string), ("commands", .commands), ("properties", .properties)] := ⟨rfl⟩
instance : Rules .v1_5 .commands [] := ⟨rfl⟩
instance : Kids .v1_5 .commands [anyNumber "command" .command] := ⟨_, rfl, List.mem_singleton.mpr rfl⟩
instance : Items .v1_5 .commands [("command", .command)] := ⟨rfl⟩
instance : Rules .v1_5 .command [] := ⟨rfl⟩
instance : Kids .v1_5 .command [mayHave "executed" .string, mayHave "properties" .properties] := ⟨_, rfl, List.mem_singleton.mpr rfl⟩
instance : Items .v1_5 .command [("executed", .string), ("properties", .properties)] := ⟨rfl⟩
instance : Rules .v1_5 .workspaces [] := ⟨rfl⟩
instance : Kids .v1_5 .workspaces [anyNumber "workspace" .workspace] := ⟨_, rfl, List.mem_singleton.mpr rfl⟩
instance : Items .v1_5 .workspaces [("workspace", .workspace)] := ⟨rfl⟩
instance : Rules .v1_5 .workspace [needs "bom-ref" .string] := ⟨rfl⟩
instance : Kids .v1_5 .workspace [mustHave "uid" .string, mayHave "name" .string, mayHave "aliases" .aliases, mayHave "description" .string, mayHave "resourceReferences" .resourceReferences, mayHave "accessMode" .string, mayHave "mountPath" .string, mayHave "managedDataType" .string, mayHave "volumeRequest" .string, mayHave "volume" .volume, mayHave "properties" .properties] := ⟨_, rfl, List.mem_singleton.mpr rfl⟩
instance : Items .v1_5 .workspace [("uid", .string), ("name", .string), ("aliases", .aliases), ("description", .string), ("resourceReferences", .resourceReferences), ("accessMode", .string), ("mountPath", .string), ("managedDataType", .string), ("volumeRequest", .string), ("volume", .volume), ("properties", .properties)] := ⟨rfl⟩
instance : Rules .v1_5 .aliases [] := ⟨rfl⟩
instance : Kids .v1_5 .aliases [anyNumber "alias" .string] := ⟨_, rfl, List.mem_singleton.mpr rfl⟩
instance : Items .v1_5 .aliases [("alias", .string)] := ⟨rfl⟩
instance : Rules .v1_5 .volume [] := ⟨rfl⟩
instance : Kids .v1_5 .volume [mayHave "uid" .string, mayHave "name" .string, mayHave "mode" .string, mayHave "path" .string, mayHave "sizeAllocated" .string, mayHave "persistent" .boolean, mayHave "remote" .boolean, mayHave "properties" .properties] := ⟨_, rfl, List.mem_singleton.mpr rfl⟩
instance : Items .v1_5 .volume [("uid", .string), ("name", .string), ("mode", .string), ("path", .string), ("sizeAllocated", .string), ("persistent", .boolean), ("remote", .boolean), ("properties", .properties)] := ⟨rfl⟩
instance : Rules .v1_5 .releaseNotes [] := ⟨rfl⟩
instance : Kids .v1_5 .releaseNotes [mustHave "type" .string, mayHave "title" .string, mayHave "featuredImage" .string, mayHave "socialImage" .string, mayHave "description" .string, mayHave "timestamp" .string, mayHave "aliases" .aliases, mayHave "tags" .tags, mayHave "resolves" .resolves, mayHave "notes" .notes, mayHave "properties" .properties] := ⟨_, rfl, List.mem_singleton.mpr rfl⟩
instance : Items .v1_5 .releaseNotes [("type", .string), ("title", .string), ("featuredImage", .string), ("socialImage", .string), ("description", .string), ("timestamp", .string), ("aliases", .aliases), ("tags", .tags), ("resolves", .resolves), ("notes", .notes), ("properties", .properties)] := ⟨rfl⟩
instance : Rules .v1_5 .tags [] := ⟨rfl⟩
instance : Kids .v1_5 .tags [anyNumber "tag" .string] := ⟨_, rfl, List.mem_singleton.mpr rfl⟩
instance : Items .v1_5 .tags [("tag", .string)] := ⟨rfl⟩
instance : Rules .v1_5 .notes [] := ⟨rfl⟩
instance : Kids .v1_5 .notes [anyNumber "note" .note] := ⟨_, rfl, List.mem_singleton.mpr rfl⟩
instance : Items .v1_5 .notes [("note", .note)] := ⟨rfl⟩
instance : Rules .v1_5 .note [] := ⟨rfl⟩
instance : Kids .v1_5 .note [mayHave "locale" .string, mustHave "text" .noteText] := ⟨_, rfl, List.mem_singleton.mpr rfl⟩
instance : Items .v1_5 .note [("locale", .string), ("text", .noteText)] := ⟨rfl⟩
instance : Rules .v1_5 .noteText [has "content-type" .string, has "encoding" .string] := ⟨rfl⟩

instance (tag s : String) : Elem True .v1_5 tag .string (writeCdata tag s) := by
  unfold writeCdata; infer_instance

instance (tag : String) (x : AttachedText) : Elem True .v1_5 tag .attachedText (AttachedText.writeXml tag x) := by
  unfold AttachedText.writeXml; infer_instance

instance (x : Property) : Elem True .v1_5 "property" .property (Property.writeXml x) := by
  unfold Property.writeXml; infer_instance

instance (x : Hash) : Elem True .v1_5 "hash" .hash (Hash.writeXml x) := by
  unfold Hash.writeXml; infer_instance

instance (tag : String) (x : OrganizationalContact) : Elem True .v1_5 tag .organizationalContact (OrganizationalContact.writeXml tag x) := by
  unfold OrganizationalContact.writeXml; infer_instance

instance (tag : String) (x : OrganizationalEntity) : Elem True .v1_5 tag .organizationalEntity (OrganizationalEntity.writeXml tag x) := by
  unfold OrganizationalEntity.writeXml; infer_instance

instance (x : ExternalReference) : Elem True .v1_5 "reference" .externalReference (ExternalReference.writeXml x) := by
  unfold ExternalReference.writeXml; infer_instance

instance (x : VulnerabilitySource) : Elem True .v1_5 "source" .namedUrl (VulnerabilitySource.writeXml x) := by
  unfold VulnerabilitySource.writeXml; infer_instance

instance (x : VulnerabilityReference) : Elem True .v1_5 "reference" .vulnerabilityReference (VulnerabilityReference.writeXml x) := by
  unfold VulnerabilityReference.writeXml; infer_instance

instance (x : Advisory) : Elem True .v1_5 "advisory" .advisory (Advisory.writeXml x) := by
  unfold Advisory.writeXml; infer_instance

instance (x : VulnerabilityCredits) : Elem True .v1_5 "credits" .credits (VulnerabilityCredits.writeXml x) := by
  unfold VulnerabilityCredits.writeXml; infer_instance

instance (x : Dependency) : Elem True .v1_5 "dependency" .dependency (Dependency.writeXml x) := by
  unfold Dependency.writeXml; infer_instance

instance (x : Composition) : Elem True .v1_5 "composition" .composition (Composition.writeXml .v1_5 x) := by
  obtain ⟨bomRef, aggregate, assemblies, dependencies, vulnerabilities, signature⟩ := x
  unfold Composition.writeXml
  cases signature with
  | none => simp only [since14, since15, writeOpt_none, List.append_nil, List.nil_append]; infer_instance
  | some s =>
    haveI : Carries True .v1_5 .composition "signature" (Signature.writeXml s) := carries_foreign (loose := false) Signature.xml_one (by decide)
    exact elem_departs (n := "signature") inferInstance trivial (fun xs h => .signature (by simp) (by decide) h)

instance (tag : String) (x : IdentifiableAction) : Elem True .v1_5 tag .identifiableAction (IdentifiableAction.writeXml tag x) := by
  unfold IdentifiableAction.writeXml; infer_instance

instance (x : Commit) : Elem True .v1_5 "commit" .commit (Commit.writeXml x) := by
  unfold Commit.writeXml; infer_instance

instance (x : Diff) : Elem True .v1_5 "diff" .diff (Diff.writeXml x) := by
  unfold Diff.writeXml; infer_instance

instance (x : Source) : Elem True .v1_5 "source" .namedUrl (Source.writeXml x) := by
  unfold Source.writeXml; infer_instance

instance (x : Issue) : Elem True .v1_5 "issue" .issue (Issue.writeXml x) := by
  unfold Issue.writeXml; infer_instance

instance (x : Patch) : Elem True .v1_5 "patch" .patch (Patch.writeXml x) := by
  unfold Patch.writeXml; infer_instance

instance (x : VulnerabilityAnalysis) : Elem True .v1_5 "analysis" .analysis (VulnerabilityAnalysis.writeXml .v1_5 x) := by
  unfold VulnerabilityAnalysis.writeXml; infer_instance

instance (x : TargetVersion) : Elem True .v1_5 "version" .affectedVersion (TargetVersion.writeXml x) := by
  obtain ⟨range, status⟩ := x
  unfold TargetVersion.writeXml
  cases range with
  | version y => simp only [VersionRange.writeXml]; infer_instance
  | range y => simp only [VersionRange.writeXml]; infer_instance
  | undefinedVersionRange y =>
    simp only [VersionRange.writeXml, List.nil_append]
    refine elem_own (l := [mayHave "status" .string]) inferInstance (by decide) trivial (fun xs h => .version (by decide) ?_ ?_)
    · rintro ⟨x, hx, hn⟩
      obtain ⟨n, hm, e⟩ := h x hx
      rw [hn] at e
      cases e
      exact absurd hm (by decide)
    · rintro ⟨x, hx, hn⟩
      obtain ⟨n, hm, e⟩ := h x hx
      rw [hn] at e
      cases e
      exact absurd hm (by decide)

instance (x : VulnerabilityTarget) : Elem True .v1_5 "target" .target (VulnerabilityTarget.writeXml x) := by
  unfold VulnerabilityTarget.writeXml; infer_instance

instance (x : LicenseIdentifier) : One True .v1_5 [("id", .licenseId), ("name", .licenseName)] (LicenseIdentifier.writeXml x) := by
  cases x <;> simp only [LicenseIdentifier.writeXml] <;> infer_instance

instance (x : License) : Elem True .v1_5 "license" .license (License.writeXml .v1_5 x) := by
  unfold License.writeXml; infer_instance

instance (x : SpdxExpression) : Elem True .v1_5 "expression" .expression (SpdxExpression.writeXml x) := by
  unfold SpdxExpression.writeXml; infer_instance

theorem licenses_tree (l : List LicenseChoice) : ∃ xs, writtenAll xs = l.flatMap (LicenseChoice.writeXml .v1_5) ∧
    IsLoose True .v1_5 .licenses xs ∧ xs.length = l.length ∧ ((∃ e, .expression e ∈ l) → HasChild "expression" xs) := by
  induction l with
  | nil => exact ⟨[], rfl, (fun x h => by cases h), rfl, by rintro ⟨e, h⟩; cases h⟩
  | cons a l ih =>
    obtain ⟨xs, hw, hl, hn, hc⟩ := ih
    cases a with
    | license y =>
      have h : Carries True .v1_5 .licenses "license" (License.writeXml .v1_5 y) := inferInstance
      obtain ⟨x, hx, hwx, ht⟩ := (inferInstance : Elem True .v1_5 "license" .license (License.writeXml .v1_5 y)).ex
      refine ⟨x :: xs, by simp [writtenAll, hw, hwx, LicenseChoice.writeXml], ?_, by simp [hn], ?_⟩
      · intro z hz
        rcases List.mem_cons.mp hz with rfl | hz
        · exact IsItem.loose ⟨"license", .license, by decide, hx.name, ht⟩
        · exact hl z hz
      · rintro ⟨e, he⟩
        rcases List.mem_cons.mp he with he | he
        · cases he
        · obtain ⟨z, hz, hzn⟩ := hc ⟨e, he⟩
          exact ⟨z, List.mem_cons_of_mem _ hz, hzn⟩
    | expression y =>
      obtain ⟨x, hx, hwx, ht⟩ := (inferInstance : Elem True .v1_5 "expression" .expression (SpdxExpression.writeXml y)).ex
      refine ⟨x :: xs, by simp [writtenAll, hw, hwx, LicenseChoice.writeXml], ?_, by simp [hn], ?_⟩
      · intro z hz
        rcases List.mem_cons.mp hz with rfl | hz
        · exact IsItem.loose ⟨"expression", .expression, by decide, hx.name, ht⟩
        · exact hl z hz
      · rintro -
        exact ⟨x, List.mem_cons_self, hx.name⟩

instance (x : Licenses) : Elem True .v1_5 "licenses" .licenses (Licenses.writeXml .v1_5 x) := by
  unfold Licenses.writeXml writeList
  by_cases h : ∃ e, LicenseChoice.expression e ∈ x
  · match x, h with
    | [], h => obtain ⟨e, h⟩ := h; cases h
    | [.expression e], _ =>
      haveI : Kids .v1_5 .licenses [mayHave "expression" .expression] := ⟨_, rfl, List.mem_cons_of_mem _ (List.mem_singleton.mpr rfl)⟩
      simp only [List.flatMap_cons, List.flatMap_nil, LicenseChoice.writeXml, List.append_nil]
      infer_instance
    | [.license y], h => obtain ⟨e, h⟩ := h; simp at h
    | a :: b :: l, h =>
      obtain ⟨xs, hw, hl, hn, hc⟩ := licenses_tree (a :: b :: l)
      refine elem_of hw (.inl ⟨trivial, (.licenses (hc h) (by rw [hn]; simp))⟩) ?_
      intro z hz n hzn t' ht'
      obtain ⟨m, hm, hall⟩ := hl z hz
      simp only [Option.mem_def] at hzn
      rw [hm] at hzn
      cases hzn
      exact hall t' ht'
  · haveI : Kids .v1_5 .licenses [anyNumber "license" .license] := ⟨_, rfl, List.mem_cons_self⟩
    haveI : Any True .v1_5 [("license", .license)] (x.flatMap (LicenseChoice.writeXml .v1_5)) := any_mem fun a ha => by
      cases a with
      | license y => simp only [LicenseChoice.writeXml]; infer_instance
      | expression y => exact absurd ⟨y, ha⟩ h
    infer_instance

instance (tag : String) (x : F32) : Elem True .v1_5 tag .decimal (writeSimple tag (F32Format.display x)) := by
  cases h : x.isFinite with
  | true =>
    haveI : TextOk .decimal (F32Format.display x) := ⟨Decimals.decimal x h⟩
    infer_instance
  | false =>
    show Elem True .v1_5 tag .decimal (writeElem tag [] [.chars (F32Format.display x)])
    refine elem_of (attrs := []) (xs := [.chars (F32Format.display x)]) (by simp [writtenAll, written]) (.inl ⟨trivial, (.number (by decide) h)⟩) ?_
    intro x hx n hn
    rw [List.mem_singleton] at hx
    subst hx
    cases hn

instance (x : VulnerabilityRating) : Elem True .v1_5 "rating" .rating (VulnerabilityRating.writeXml x) := by
  unfold VulnerabilityRating.writeXml; infer_instance

instance (x : ComponentEvidence) : Elem True .v1_5 "evidence" .evidence (ComponentEvidence.writeXml .v1_5 x) := by
  unfold ComponentEvidence.writeXml; infer_instance

instance (tag : String) (x : DataGovernanceResponsibleParty) : Elem True .v1_5 tag .responsibleParty (DataGovernanceResponsibleParty.writeXml tag x) := by
  unfold DataGovernanceResponsibleParty.writeXml
  cases x <;> simp only [DataGovernanceResponsibleParty.writeInner] <;> infer_instance

instance (tag : String) (x : DataGovernance) : Elem True .v1_5 tag .governance (DataGovernance.writeXml tag x) := by
  unfold DataGovernance.writeXml; infer_instance

instance (tag : String) (x : Attachment) : Elem True .v1_5 tag .attachment (Attachment.writeXml tag x) := by
  obtain ⟨content, contentType, encoding⟩ := x
  unfold Attachment.writeXml
  cases contentType <;> cases encoding
  · infer_instance
  · infer_instance
  · infer_instance
  · refine elem_of (xs := [.chars content]) (by simp [writtenAll, written]) (.inl ⟨trivial, (.attachment rfl rfl)⟩) ?_
    intro x hx n hn
    rw [List.mem_singleton] at hx
    subst hx
    cases hn

instance (x : Graphic) : Elem True .v1_5 "graphic" .graphic (Graphic.writeXml x) := by
  unfold Graphic.writeXml; infer_instance

instance (tag : String) (x : GraphicsCollection) : Elem True .v1_5 tag .graphics (GraphicsCollection.writeXml tag x) := by
  unfold GraphicsCollection.writeXml; infer_instance

instance (x : DataContents) : Elem True .v1_5 "contents" .dataContents (DataContents.writeXml x) := by
  unfold DataContents.writeXml; infer_instance

instance (tag : String) (x : ComponentData) : Elem True .v1_5 tag .componentData (ComponentData.writeXml tag x) := by
  unfold ComponentData.writeXml; infer_instance

instance (x : ModelParametersApproach) : Elem True .v1_5 "approach" .approach (ModelParametersApproach.writeXml x) := by
  unfold ModelParametersApproach.writeXml; infer_instance

instance (x : Dataset) : Elem True .v1_5 "dataset" .componentData (Dataset.writeXml x) := by
  cases x with
  | component y => simp only [Dataset.writeXml]; infer_instance
  | reference r =>
    simp only [Dataset.writeXml]
    haveI : Carries True .v1_5 .componentData "ref" (writeSimple "ref" r) := carries_foreign (loose := false) writeSimple_one (by decide)
    exact elem_departs (n := "ref") inferInstance trivial (fun xs h => .dataset rfl h)

instance (tag : String) (x : MLParameter) : Elem True .v1_5 tag .mlParameter (MLParameter.writeXml tag x) := by
  unfold MLParameter.writeXml; infer_instance

instance (x : ModelParameters) : Elem True .v1_5 "modelParameters" .modelParameters (ModelParameters.writeXml x) := by
  unfold ModelParameters.writeXml; infer_instance

instance (x : ConfidenceInterval) : Elem True .v1_5 "confidenceInterval" .confidenceInterval (ConfidenceInterval.writeXml x) := by
  unfold ConfidenceInterval.writeXml; infer_instance

instance (x : PerformanceMetric) : Elem True .v1_5 "performanceMetric" .performanceMetric (PerformanceMetric.writeXml x) := by
  unfold PerformanceMetric.writeXml; infer_instance

instance (x : QuantitativeAnalysis) : Elem True .v1_5 "quantitativeAnalysis" .quantitativeAnalysis (QuantitativeAnalysis.writeXml x) := by
  unfold QuantitativeAnalysis.writeXml; infer_instance

instance (x : Considerations) : Elem True .v1_5 "considerations" .considerations (Considerations.writeXml x) := by
  unfold Considerations.writeXml; infer_instance

instance (x : ModelCard) : Elem True .v1_5 "modelCard" .modelCard (ModelCard.writeXml x) := by
  unfold ModelCard.writeXml; infer_instance

instance (x : DataClassification) : Elem True .v1_5 "classification" .classification (DataClassification.writeXml x) := by
  unfold DataClassification.writeXml; infer_instance

instance (x : ServiceData) : Elem True .v1_5 "dataflow" .dataflow (ServiceData.writeXml x) := by
  obtain ⟨name, description, classification, governance, source, destination⟩ := x
  unfold ServiceData.writeXml
  cases name <;> cases description
  · infer_instance
  · infer_instance
  · infer_instance
  · exact elem_own (l := [mustHave "classification" .classification, mayHave "governance" .governance, mayHave "source" .urls,
      mayHave "destination" .urls]) inferInstance (by decide) trivial (fun xs _ => .dataflow rfl rfl)

instance (x : ServiceDataChoice) : Elem True .v1_5 "data" .serviceData (ServiceDataChoice.writeXml .v1_5 x) := by
  unfold ServiceDataChoice.writeXml
  cases x with
  | classification l =>
    haveI : Kids .v1_5 .serviceData [anyNumber "classification" .classification] := ⟨_, rfl, List.mem_cons_self⟩
    simp only [ServiceDataChoice.writeInner]
    infer_instance
  | serviceData l =>
    haveI : Kids .v1_5 .serviceData [(anyNumber "dataflow" .dataflow).from .v1_5] := ⟨_, rfl, List.mem_cons_of_mem _ (List.mem_singleton.mpr rfl)⟩
    simp only [ServiceDataChoice.writeInner, since15]
    infer_instance

instance (x : Swid) : Elem True .v1_5 "swid" .swid (Swid.writeXml x) := by
  unfold Swid.writeXml; infer_instance

instance (x : Lifecycle) : Elem True .v1_5 "lifecycle" .lifecycle (Lifecycle.writeXml x) := by
  cases x with
  | phase p =>
    haveI : Kids .v1_5 .lifecycle [mustHave "phase" .string] := ⟨_, rfl, List.mem_cons_self⟩
    simp only [Lifecycle.writeXml]
    infer_instance
  | description d =>
    haveI : Kids .v1_5 .lifecycle [mustHave "name" .string, mayHave "description" .string] := ⟨_, rfl, List.mem_cons_of_mem _ (List.mem_singleton.mpr rfl)⟩
    simp only [Lifecycle.writeXml]
    infer_instance

mutual
theorem component_all : ∀ (x : List Component), Any True .v1_5 [("component", .component)] (Component.writeXmlAll .v1_5 x)
  | [] => by simp only [Component.writeXmlAll]; infer_instance
  | a :: x => by
    have h1 := component_elem a
    have h2 := component_all x
    simp only [Component.writeXmlAll]
    infer_instance
termination_by structural x => x
theorem component_opt : ∀ (x : Option (List Component)) (tag : String) (items : List (String × ElementType))
    [HasItem items tag .components], Maybe True .v1_5 items (Component.writeXmlOpt .v1_5 tag x)
  | none, _, _, _ => by simp only [Component.writeXmlOpt]; infer_instance
  | some x, tag, items, _ => by
    have h1 := component_all x
    simp only [Component.writeXmlOpt]
    infer_instance
termination_by structural x => x
theorem pedigree_opt : ∀ (x : Option Pedigree) (items : List (String × ElementType)) [HasItem items "pedigree" .pedigree],
    Maybe True .v1_5 items (Pedigree.writeXmlOpt .v1_5 x)
  | none, _, _ => by simp only [Pedigree.writeXmlOpt]; infer_instance
  | some ⟨ancestors, descendants, variants, commits, patches, notes⟩, items, _ => by
    have h1 := component_opt ancestors "ancestors" [("ancestors", .components)]
    have h2 := component_opt descendants "descendants" [("descendants", .components)]
    have h3 := component_opt variants "variants" [("variants", .components)]
    simp only [Pedigree.writeXmlOpt, Pedigree.writeXml]
    infer_instance
termination_by structural x => x
theorem component_elem : ∀ (x : Component), Elem True .v1_5 "component" .component (Component.writeXml .v1_5 x)
  | ⟨componentType, mimeType, bomRef, supplier, author, publisher, group, name, version, description, scope, hashes, licenses, copyright, cpe, purl, swid, modified, pedigree, externalReferences, properties, components, evidence, signature, modelCard, data⟩ => by
    have h1 := fun items [HasItem items "pedigree" .pedigree] => pedigree_opt pedigree items
    have h2 := fun items [HasItem items "components" .components] => component_opt components "components" items
    cases signature with
    | none =>
      simp only [Component.writeXml, since14, since15, writeOpt_none, List.append_nil, List.nil_append]
      infer_instance
    | some s =>
      haveI : Carries True .v1_5 .component "signature" (Signature.writeXml s) := carries_foreign (loose := false) Signature.xml_one (by decide)
      simp only [Component.writeXml]
      exact elem_departs (n := "signature") inferInstance trivial (fun xs h => .signature (by simp) (by decide) h)
termination_by structural x => x
end

instance (x : Component) : Elem True .v1_5 "component" .component (Component.writeXml .v1_5 x) := component_elem x



mutual
theorem service_all : ∀ (x : List Service), Any True .v1_5 [("service", .service)] (Service.writeXmlAll .v1_5 x)
  | [] => by simp only [Service.writeXmlAll]; infer_instance
  | a :: x => by
    have h1 := service_elem a
    have h2 := service_all x
    simp only [Service.writeXmlAll]
    infer_instance
termination_by structural x => x
theorem service_opt : ∀ (x : Option (List Service)) (items : List (String × ElementType))
    [HasItem items "services" .services], Maybe True .v1_5 items (Service.writeXmlOpt .v1_5 "services" x)
  | none, _, _ => by simp only [Service.writeXmlOpt]; infer_instance
  | some x, items, _ => by
    have h1 := service_all x
    simp only [Service.writeXmlOpt]
    infer_instance
termination_by structural x => x
theorem service_elem : ∀ (x : Service), Elem True .v1_5 "service" .service (Service.writeXml .v1_5 x)
  | ⟨bomRef, provider, group, name, version, description, endpoints, authenticated, xTrustBoundary, data, licenses, externalReferences, properties, services, signature, trustZone⟩ => by
    have h1 := fun items [HasItem items "services" .services] => service_opt services items
    cases signature with
    | none =>
      cases trustZone with
      | none =>
        simp only [Service.writeXml, since14, since15, writeOpt_none, List.append_nil, List.nil_append]
        infer_instance
      | some z =>
        simp only [Service.writeXml, since14, since15, writeOpt_none, writeOpt_some, List.append_nil, List.nil_append]
        exact elem_departs (n := "trustZone") inferInstance trivial (fun xs h => .trustZone rfl h)
    | some s =>
      haveI : Carries True .v1_5 .service "signature" (Signature.writeXml s) := carries_foreign (loose := false) Signature.xml_one (by decide)
      simp only [Service.writeXml]
      exact elem_departs (n := "signature") inferInstance trivial (fun xs h => .signature (by simp) (by decide) h)
termination_by structural x => x
end

instance (x : Service) : Elem True .v1_5 "service" .service (Service.writeXml .v1_5 x) := service_elem x

instance (x : Tool) : Elem True .v1_5 "tool" .tool (Tool.writeXml .v1_5 x) := by
  unfold Tool.writeXml; infer_instance

instance (x : Tools) : Elem True .v1_5 "tools" .tools (Tools.writeXml .v1_5 x) := by
  cases x with
  | list l =>
    haveI : Kids .v1_5 .tools [anyNumber "tool" .tool] := ⟨_, rfl, List.mem_cons_self⟩
    simp only [Tools.writeXml]
    infer_instance
  | object s c =>
    haveI : Kids .v1_5 .tools [(mayHave "components" .components).from .v1_5, (mayHave "services" .services).from .v1_5] :=
      ⟨_, rfl, List.mem_cons_of_mem _ (List.mem_singleton.mpr rfl)⟩
    cases s with
    | none =>
      simp only [Tools.writeXml, since15, writeOpt_none, List.nil_append]
      infer_instance
    | some s =>
      cases c with
      | none =>
        simp only [Tools.writeXml, since15, writeOpt_none, List.append_nil]
        infer_instance
      | some c =>
        simp only [Tools.writeXml, since15]
        obtain ⟨xs, hw, hl, hc⟩ := (inferInstance : Carries True .v1_5 .tools "services" (writeOpt (writeList "services" (Service.writeXml .v1_5)) (some s))).ex
        obtain ⟨ys, hw', hl', hc'⟩ := (inferInstance : Carries True .v1_5 .tools "components" (writeOpt (writeList "components" (Component.writeXml .v1_5)) (some c))).ex
        refine elem_of (xs := xs ++ ys) (by rw [writtenAll_append, hw, hw']) (.inl ⟨trivial, (.tools rfl ?_ ?_)⟩) ?_
        · obtain ⟨x, hx, hn⟩ := hc
          exact ⟨x, List.mem_append_left _ hx, hn⟩
        · obtain ⟨x, hx, hn⟩ := hc'
          exact ⟨x, List.mem_append_right _ hx, hn⟩
        · exact (hl.append hl').each

instance (x : Metadata) : Elem True .v1_5 "metadata" .metadata (Metadata.writeXml .v1_5 x) := by
  unfold Metadata.writeXml
  cases h : x.lifecycles with
  | none =>
    simp only [since15, writeOpt_none, List.append_nil]
    infer_instance
  | some l => exact elem_departs (n := "lifecycles") inferInstance trivial (fun xs h => .lifecycles rfl h)

instance (x : Vulnerability) : Elem True .v1_5 "vulnerability" .vulnerability (Vulnerability.writeXml .v1_5 x) := by
  unfold Vulnerability.writeXml
  cases h : x.workaround with
  | none =>
    simp only [since15, writeOpt_none, List.append_nil]
    infer_instance
  | some l => exact elem_departs (n := "workaround") inferInstance trivial (fun xs h => .workaround rfl h)

instance (tag : String) (x : ResourceReference) : Elem True .v1_5 tag .resourceReference (ResourceReference.writeXml tag x) := by
  unfold ResourceReference.writeXml
  cases x with
  | ref y => simp only [ResourceReference.writeInner]; infer_instance
  | externalReference y =>
    simp only [ResourceReference.writeInner]
    haveI : Carries True .v1_5 .resourceReference "reference" (ExternalReference.writeXml y) := carries_foreign (loose := false) ExternalReference.xml_one (by decide)
    exact elem_departs (n := "reference") inferInstance trivial (fun xs h => .resource rfl h)

instance (x : Parameter) : Elem True .v1_5 "parameter" .parameter (Parameter.writeXml x) := by
  unfold Parameter.writeXml; infer_instance

instance (x : EnvironmentVar) : One True .v1_5 [("environmentVar", .property), ("value", .string)] (EnvironmentVar.writeXml x) := by
  cases x <;> simp only [EnvironmentVar.writeXml] <;> infer_instance

instance (x : RequiredInputField) : One True .v1_5 [("resource", .resourceReference), ("parameters", .parameters), ("environmentVars", .environmentVars), ("data", .attachment)] (RequiredInputField.writeXml x) := by
  cases x <;> simp only [RequiredInputField.writeXml] <;> infer_instance

instance (x : RequiredOutputField) : One True .v1_5 [("resource", .resourceReference), ("environmentVars", .environmentVars), ("data", .attachment)] (RequiredOutputField.writeXml x) := by
  cases x <;> simp only [RequiredOutputField.writeXml] <;> infer_instance

instance (x : Input) : Elem True .v1_5 "input" .input (Input.writeXml x) := by
  unfold Input.writeXml; infer_instance

instance (x : Output) : Elem True .v1_5 "output" .output (Output.writeXml x) := by
  unfold Output.writeXml; infer_instance

instance (x : Command) : Elem True .v1_5 "command" .command (Command.writeXml x) := by
  unfold Command.writeXml; infer_instance

instance (x : Step) : Elem True .v1_5 "step" .step (Step.writeXml x) := by
  unfold Step.writeXml
  cases hc : x.commands with
  | some l => exact elem_departs (n := "commands") inferInstance trivial (fun xs h => .step rfl (.inl h))
  | none =>
    simp only [writeOpt_none, List.nil_append]
    cases hd : x.description with
    | none =>
      simp only [writeOpt_none, List.nil_append]
      infer_instance
    | some d =>
      cases hn : x.name with
      | none =>
        simp only [writeOpt_none, List.nil_append]
        infer_instance
      | some n =>
        obtain ⟨xs, hw, hl, hc⟩ := (inferInstance : Carries True .v1_5 .step "description" (writeOpt (writeSimple "description") (some d))).ex
        obtain ⟨ys, hw', hl', hc'⟩ := (inferInstance : Carries True .v1_5 .step "name" (writeOpt (writeSimple "name") (some n) ++ writeOpt (writeList "properties" Property.writeXml) x.properties)).ex
        refine elem_of (xs := xs ++ ys) (by rw [writtenAll_append, hw, hw']) (.inl ⟨trivial, (.step rfl (.inr ⟨?_, ?_⟩))⟩) ?_
        · obtain ⟨x, hx, hn⟩ := hc
          exact ⟨x, List.mem_append_left _ hx, hn⟩
        · obtain ⟨x, hx, hn⟩ := hc'
          exact ⟨x, List.mem_append_right _ hx, hn⟩
        · exact (hl.append hl').each

instance (x : TriggerEvent) : Elem True .v1_5 "event" .event (TriggerEvent.writeXml x) := by
  unfold TriggerEvent.writeXml; infer_instance

instance (x : Condition) : Elem True .v1_5 "condition" .condition (Condition.writeXml x) := by
  unfold Condition.writeXml; infer_instance

instance (x : Trigger) : Elem True .v1_5 "trigger" .trigger (Trigger.writeXml x) := by
  unfold Trigger.writeXml; infer_instance

instance (x : Volume) : Elem True .v1_5 "volume" .volume (Volume.writeXml x) := by
  unfold Volume.writeXml; infer_instance

instance (x : Workspace) : Elem True .v1_5 "workspace" .workspace (Workspace.writeXml x) := by
  unfold Workspace.writeXml; infer_instance

instance (x : WorkflowTask) : Elem True .v1_5 "task" .task (WorkflowTask.writeXml x) := by
  unfold WorkflowTask.writeXml
  refine elem_own (l := [mustHave "uid" .string, mayHave "name" .string, mayHave "description" .string,
    mayHave "resourceReferences" .resourceReferences, mayHave "trigger" .trigger, mayHave "steps" .steps, mayHave "inputs"
    .inputs, mayHave "outputs" .outputs, mayHave "timeStart" .string, mayHave "timeEnd" .string,
    mayHave "workspaces" .workspaces, mayHave "runtimeTopology" .dependencies, mayHave "properties" .properties])
    inferInstance (by decide) trivial (fun xs h => .task rfl ?_)
  rintro ⟨x, hx, hn⟩
  obtain ⟨n, hm, e⟩ := h x hx
  rw [hn] at e
  cases e
  exact absurd hm (by decide)

instance (l : List TaskType) : Elem True .v1_5 "taskTypes" .taskTypes (writeList "taskTypes" (fun e => writeSimple "taskType" (TaskType.display e)) l) := by
  cases l with
  | nil =>
    exact elem_of (xs := []) rfl (.inl ⟨trivial, (.taskTypes rfl)⟩) (fun x hx => by cases hx)
  | cons a l =>
    have : Row True .v1_5 [atLeastOne "taskType" .string] ((a :: l).flatMap fun e => writeSimple "taskType" (TaskType.display e)) := by
      rw [List.flatMap_cons]
      exact row_least
    exact elem_list

instance (x : Workflow) : Elem True .v1_5 "workflow" .workflow (Workflow.writeXml x) := by
  unfold Workflow.writeXml; infer_instance

instance (x : Formula) : Elem True .v1_5 "formula" .formula (Formula.writeXml .v1_5 x) := by
  unfold Formula.writeXml; infer_instance

theorem bom_root (x : Bom) : ∃ root, IsRoot .v1_5 root ∧ written root = Bom.writeXml .v1_5 x ∧
    Throughout (Meets True .v1_5) .v1_5 .bom root := by
  have : Elem True .v1_5 "bom" .bom (Bom.writeXml .v1_5 x) := by
    unfold Bom.writeXml; infer_instance
  exact this.root

end

end Cdx.Conforming.V1_5
