import Verif.Lemmas.Arranged
import Verif.Model.Format.Bom

/-!
# Lemmas: everything written in version 1.5 is arranged

Generated, one instance for each writer.
-/

set_option linter.unusedSectionVars false
set_option linter.unusedSimpArgs false
set_option synthInstance.maxSize 100000
set_option synthInstance.maxHeartbeats 400000

namespace Cdx.V1_5

open Spec Cdx

section
variable [F32Format]

local notation "E" => writtenElement SpecVersion.v1_5


instance : Kids E "advisories" [["advisory"]] := ⟨by decide +kernel⟩
instance : Marks E "advisories" [] := ⟨by decide +kernel⟩
instance : Kids E "advisory" [["title"], ["url"]] := ⟨by decide +kernel⟩
instance : Marks E "advisory" [] := ⟨by decide +kernel⟩
instance : Kids E "affects" [["target"]] := ⟨by decide +kernel⟩
instance : Marks E "affects" [] := ⟨by decide +kernel⟩
instance : Kids E "aliases" [["alias"]] := ⟨by decide +kernel⟩
instance : Marks E "aliases" [] := ⟨by decide +kernel⟩
instance : Kids E "altIds" [["altId"]] := ⟨by decide +kernel⟩
instance : Marks E "altIds" [] := ⟨by decide +kernel⟩
instance : Kids E "analysis" [["state"], ["justification"], ["responses"], ["detail"], ["firstIssued"], ["lastUpdated"]] := ⟨by decide +kernel⟩
instance : Marks E "analysis" [] := ⟨by decide +kernel⟩
instance : Kids E "ancestors" [["component"]] := ⟨by decide +kernel⟩
instance : Marks E "ancestors" [] := ⟨by decide +kernel⟩
instance : Kids E "annotation" [["subjects"], ["annotator"], ["timestamp"], ["text"]] := ⟨by decide +kernel⟩
instance : Marks E "annotation" ["bom-ref"] := ⟨by decide +kernel⟩
instance : Kids E "annotations" [["annotation"]] := ⟨by decide +kernel⟩
instance : Marks E "annotations" [] := ⟨by decide +kernel⟩
instance : Kids E "annotator" [["organization", "individual", "component", "service"]] := ⟨by decide +kernel⟩
instance : Marks E "annotator" [] := ⟨by decide +kernel⟩
instance : Kids E "approach" [["type"]] := ⟨by decide +kernel⟩
instance : Marks E "approach" [] := ⟨by decide +kernel⟩
instance : Kids E "assemblies" [["assembly"]] := ⟨by decide +kernel⟩
instance : Marks E "assemblies" [] := ⟨by decide +kernel⟩
instance : Kids E "assembly" [] := ⟨by decide +kernel⟩
instance : Marks E "assembly" ["ref"] := ⟨by decide +kernel⟩
instance : Kids E "attachment" [] := ⟨by decide +kernel⟩
instance : Marks E "attachment" ["content-type", "encoding"] := ⟨by decide +kernel⟩
instance : Kids E "author" [["timestamp"], ["name"], ["email"], ["phone"]] := ⟨by decide +kernel⟩
instance : Marks E "author" ["bom-ref"] := ⟨by decide +kernel⟩
instance : Kids E "authors" [["author"]] := ⟨by decide +kernel⟩
instance : Marks E "authors" [] := ⟨by decide +kernel⟩
instance : Kids E "bom" [["metadata"], ["components"], ["services"], ["externalReferences"], ["dependencies"], ["compositions"], ["properties"], ["vulnerabilities"], ["annotations"], ["formulation"]] := ⟨by decide +kernel⟩
instance : Marks E "bom" ["serialNumber", "version"] := ⟨by decide +kernel⟩
instance : Kids E "callstack" [["frames"]] := ⟨by decide +kernel⟩
instance : Marks E "callstack" [] := ⟨by decide +kernel⟩
instance : Kids E "chain" [["chain", "algorithm"], ["value"]] := ⟨by decide +kernel⟩
instance : Marks E "chain" [] := ⟨by decide +kernel⟩
instance : Kids E "classification" [] := ⟨by decide +kernel⟩
instance : Marks E "classification" ["flow"] := ⟨by decide +kernel⟩
instance : Kids E "collection" [["graphic"]] := ⟨by decide +kernel⟩
instance : Marks E "collection" [] := ⟨by decide +kernel⟩
instance : Kids E "command" [["executed"], ["properties"]] := ⟨by decide +kernel⟩
instance : Marks E "command" [] := ⟨by decide +kernel⟩
instance : Kids E "commands" [["command"]] := ⟨by decide +kernel⟩
instance : Marks E "commands" [] := ⟨by decide +kernel⟩
instance : Kids E "commit" [["uid"], ["url"], ["author"], ["committer"], ["message"]] := ⟨by decide +kernel⟩
instance : Marks E "commit" [] := ⟨by decide +kernel⟩
instance : Kids E "commits" [["commit"]] := ⟨by decide +kernel⟩
instance : Marks E "commits" [] := ⟨by decide +kernel⟩
instance : Kids E "committer" [["timestamp"], ["name"], ["email"]] := ⟨by decide +kernel⟩
instance : Marks E "committer" [] := ⟨by decide +kernel⟩
instance : Kids E "component" [["supplier"], ["author"], ["publisher"], ["group"], ["name"], ["version"], ["description"], ["scope"], ["hashes"], ["licenses"], ["copyright"], ["cpe"], ["purl"], ["swid"], ["modified"], ["pedigree"], ["externalReferences"], ["properties"], ["components"], ["evidence"], ["signature"], ["releaseNotes"], ["modelCard"], ["data"]] := ⟨by decide +kernel⟩
instance : Marks E "component" ["type", "mime-type", "bom-ref"] := ⟨by decide +kernel⟩
instance : Kids E "components" [["component"]] := ⟨by decide +kernel⟩
instance : Marks E "components" [] := ⟨by decide +kernel⟩
instance : Kids E "composition" [["aggregate"], ["assemblies"], ["dependencies"], ["vulnerabilities"], ["signature"]] := ⟨by decide +kernel⟩
instance : Marks E "composition" ["bom-ref"] := ⟨by decide +kernel⟩
instance : Kids E "compositions" [["composition"]] := ⟨by decide +kernel⟩
instance : Marks E "compositions" [] := ⟨by decide +kernel⟩
instance : Kids E "condition" [["description"], ["expression"], ["properties"]] := ⟨by decide +kernel⟩
instance : Marks E "condition" [] := ⟨by decide +kernel⟩
instance : Kids E "conditions" [["condition"]] := ⟨by decide +kernel⟩
instance : Marks E "conditions" [] := ⟨by decide +kernel⟩
instance : Kids E "confidenceInterval" [["lowerBound"], ["upperBound"]] := ⟨by decide +kernel⟩
instance : Marks E "confidenceInterval" [] := ⟨by decide +kernel⟩
instance : Kids E "considerations" [["users"], ["useCases"], ["technicalLimitations"], ["performanceTradeoffs"], ["ethicalConsiderations"], ["fairnessAssessments"]] := ⟨by decide +kernel⟩
instance : Marks E "considerations" [] := ⟨by decide +kernel⟩
instance : Kids E "contact" [["name"], ["email"], ["phone"]] := ⟨by decide +kernel⟩
instance : Marks E "contact" ["bom-ref"] := ⟨by decide +kernel⟩
instance : Kids E "contents" [["attachment"], ["url"], ["properties"]] := ⟨by decide +kernel⟩
instance : Marks E "contents" [] := ⟨by decide +kernel⟩
instance : Kids E "copyright" [["text"]] := ⟨by decide +kernel⟩
instance : Marks E "copyright" [] := ⟨by decide +kernel⟩
instance : Kids E "credits" [["organizations"], ["individuals"]] := ⟨by decide +kernel⟩
instance : Marks E "credits" [] := ⟨by decide +kernel⟩
instance : Kids E "custodian" [["organization", "contact"]] := ⟨by decide +kernel⟩
instance : Marks E "custodian" [] := ⟨by decide +kernel⟩
instance : Kids E "custodians" [["custodian"]] := ⟨by decide +kernel⟩
instance : Marks E "custodians" [] := ⟨by decide +kernel⟩
instance : Kids E "cwes" [["cwe"]] := ⟨by decide +kernel⟩
instance : Marks E "cwes" [] := ⟨by decide +kernel⟩
instance : Kids E "data" [["type"], ["name"], ["contents"], ["classification", "dataflow"], ["sensitiveData"], ["graphics"], ["description"], ["governance"]] := ⟨by decide +kernel⟩
instance : Marks E "data" ["bom-ref", "content-type", "encoding"] := ⟨by decide +kernel⟩
instance : Kids E "dataflow" [["classification"], ["governance"], ["source"], ["destination"]] := ⟨by decide +kernel⟩
instance : Marks E "dataflow" ["name", "description"] := ⟨by decide +kernel⟩
instance : Kids E "dataset" [["ref"], ["type"], ["name"], ["contents"], ["classification"], ["sensitiveData"], ["graphics"], ["description"], ["governance"]] := ⟨by decide +kernel⟩
instance : Marks E "dataset" ["bom-ref"] := ⟨by decide +kernel⟩
instance : Kids E "datasets" [["dataset", "ref"]] := ⟨by decide +kernel⟩
instance : Marks E "datasets" [] := ⟨by decide +kernel⟩
instance : Kids E "dependencies" [["dependency"]] := ⟨by decide +kernel⟩
instance : Marks E "dependencies" [] := ⟨by decide +kernel⟩
instance : Kids E "dependency" [["dependency"]] := ⟨by decide +kernel⟩
instance : Marks E "dependency" ["ref"] := ⟨by decide +kernel⟩
instance : Kids E "descendants" [["component"]] := ⟨by decide +kernel⟩
instance : Marks E "descendants" [] := ⟨by decide +kernel⟩
instance : Kids E "destination" [["url"]] := ⟨by decide +kernel⟩
instance : Marks E "destination" [] := ⟨by decide +kernel⟩
instance : Kids E "diff" [["text"], ["url"]] := ⟨by decide +kernel⟩
instance : Marks E "diff" [] := ⟨by decide +kernel⟩
instance : Kids E "endpoints" [["endpoint"]] := ⟨by decide +kernel⟩
instance : Marks E "endpoints" [] := ⟨by decide +kernel⟩
instance : Kids E "environmentVar" [] := ⟨by decide +kernel⟩
instance : Marks E "environmentVar" ["name"] := ⟨by decide +kernel⟩
instance : Kids E "environmentVars" [["environmentVar", "value"]] := ⟨by decide +kernel⟩
instance : Marks E "environmentVars" [] := ⟨by decide +kernel⟩
instance : Kids E "ethicalConsideration" [["name"], ["mitigationStrategy"]] := ⟨by decide +kernel⟩
instance : Marks E "ethicalConsideration" [] := ⟨by decide +kernel⟩
instance : Kids E "ethicalConsiderations" [["ethicalConsideration"]] := ⟨by decide +kernel⟩
instance : Marks E "ethicalConsiderations" [] := ⟨by decide +kernel⟩
instance : Kids E "event" [["uid"], ["description"], ["timeReceived"], ["data"], ["source"], ["target"], ["properties"]] := ⟨by decide +kernel⟩
instance : Marks E "event" [] := ⟨by decide +kernel⟩
instance : Kids E "evidence" [["identity"], ["occurrences"], ["callstack"], ["licenses"], ["copyright"]] := ⟨by decide +kernel⟩
instance : Marks E "evidence" [] := ⟨by decide +kernel⟩
instance : Kids E "expression" [] := ⟨by decide +kernel⟩
instance : Marks E "expression" ["bom-ref"] := ⟨by decide +kernel⟩
instance : Kids E "externalReference" [["url"], ["comment"], ["hashes"]] := ⟨by decide +kernel⟩
instance : Marks E "externalReference" ["type"] := ⟨by decide +kernel⟩
instance : Kids E "externalReferences" [["reference"]] := ⟨by decide +kernel⟩
instance : Marks E "externalReferences" [] := ⟨by decide +kernel⟩
instance : Kids E "fairnessAssessment" [["groupAtRisk"], ["benefits"], ["harms"], ["mitigationStrategy"]] := ⟨by decide +kernel⟩
instance : Marks E "fairnessAssessment" [] := ⟨by decide +kernel⟩
instance : Kids E "fairnessAssessments" [["fairnessAssessment"]] := ⟨by decide +kernel⟩
instance : Marks E "fairnessAssessments" [] := ⟨by decide +kernel⟩
instance : Kids E "formula" [["components"], ["services"], ["workflows"], ["properties"]] := ⟨by decide +kernel⟩
instance : Marks E "formula" ["bom-ref"] := ⟨by decide +kernel⟩
instance : Kids E "formulation" [["formula"]] := ⟨by decide +kernel⟩
instance : Marks E "formulation" [] := ⟨by decide +kernel⟩
instance : Kids E "frame" [["package"], ["module"], ["function"], ["parameters"], ["line"], ["column"], ["fullFilename"]] := ⟨by decide +kernel⟩
instance : Marks E "frame" [] := ⟨by decide +kernel⟩
instance : Kids E "frames" [["frame"]] := ⟨by decide +kernel⟩
instance : Marks E "frames" [] := ⟨by decide +kernel⟩
instance : Kids E "governance" [["custodians", "stewards", "owners"]] := ⟨by decide +kernel⟩
instance : Marks E "governance" [] := ⟨by decide +kernel⟩
instance : Kids E "graphic" [["name"], ["image"]] := ⟨by decide +kernel⟩
instance : Marks E "graphic" [] := ⟨by decide +kernel⟩
instance : Kids E "graphics" [["description"], ["collection"]] := ⟨by decide +kernel⟩
instance : Marks E "graphics" [] := ⟨by decide +kernel⟩
instance : Kids E "hash" [] := ⟨by decide +kernel⟩
instance : Marks E "hash" ["alg"] := ⟨by decide +kernel⟩
instance : Kids E "hashes" [["hash"]] := ⟨by decide +kernel⟩
instance : Marks E "hashes" [] := ⟨by decide +kernel⟩
instance : Kids E "identity" [["field"], ["confidence"], ["methods"], ["tools"]] := ⟨by decide +kernel⟩
instance : Marks E "identity" [] := ⟨by decide +kernel⟩
instance : Kids E "image" [] := ⟨by decide +kernel⟩
instance : Marks E "image" ["content-type", "encoding"] := ⟨by decide +kernel⟩
instance : Kids E "individual" [["name"], ["email"], ["phone"]] := ⟨by decide +kernel⟩
instance : Marks E "individual" ["bom-ref"] := ⟨by decide +kernel⟩
instance : Kids E "individuals" [["individual"]] := ⟨by decide +kernel⟩
instance : Marks E "individuals" [] := ⟨by decide +kernel⟩
instance : Kids E "input" [["format", "resource", "parameters", "environmentVars", "data"], ["source"], ["target"], ["properties"]] := ⟨by decide +kernel⟩
instance : Marks E "input" [] := ⟨by decide +kernel⟩
instance : Kids E "inputs" [["input"]] := ⟨by decide +kernel⟩
instance : Marks E "inputs" [] := ⟨by decide +kernel⟩
instance : Kids E "issue" [["id"], ["name"], ["description"], ["source"], ["references"]] := ⟨by decide +kernel⟩
instance : Marks E "issue" ["type"] := ⟨by decide +kernel⟩
instance : Kids E "license" [["id", "name"], ["text"], ["url"], ["licensing"], ["properties"]] := ⟨by decide +kernel⟩
instance : Marks E "license" ["bom-ref"] := ⟨by decide +kernel⟩
instance : Kids E "licenseTypes" [["licenseType"]] := ⟨by decide +kernel⟩
instance : Marks E "licenseTypes" [] := ⟨by decide +kernel⟩
instance : Kids E "licensee" [["organization", "individual"]] := ⟨by decide +kernel⟩
instance : Marks E "licensee" [] := ⟨by decide +kernel⟩
instance : Kids E "licenses" [["license", "expression"]] := ⟨by decide +kernel⟩
instance : Marks E "licenses" [] := ⟨by decide +kernel⟩
instance : Kids E "licensing" [["altIds"], ["licensor"], ["licensee"], ["purchaser"], ["purchaseOrder"], ["licenseTypes"], ["lastRenewal"], ["expiration"]] := ⟨by decide +kernel⟩
instance : Marks E "licensing" [] := ⟨by decide +kernel⟩
instance : Kids E "licensor" [["organization", "individual"]] := ⟨by decide +kernel⟩
instance : Marks E "licensor" [] := ⟨by decide +kernel⟩
instance : Kids E "lifecycle" [["phase"], ["name"], ["description"]] := ⟨by decide +kernel⟩
instance : Marks E "lifecycle" [] := ⟨by decide +kernel⟩
instance : Kids E "lifecycles" [["lifecycle"]] := ⟨by decide +kernel⟩
instance : Marks E "lifecycles" [] := ⟨by decide +kernel⟩
instance : Kids E "manufacture" [["name"], ["url"], ["contact"]] := ⟨by decide +kernel⟩
instance : Marks E "manufacture" ["bom-ref"] := ⟨by decide +kernel⟩
instance : Kids E "metadata" [["timestamp"], ["tools"], ["authors"], ["component"], ["manufacture"], ["supplier"], ["licenses"], ["properties"], ["lifecycles"]] := ⟨by decide +kernel⟩
instance : Marks E "metadata" [] := ⟨by decide +kernel⟩
instance : Kids E "method" [["technique"], ["confidence"], ["value"]] := ⟨by decide +kernel⟩
instance : Marks E "method" [] := ⟨by decide +kernel⟩
instance : Kids E "methods" [["method"]] := ⟨by decide +kernel⟩
instance : Marks E "methods" [] := ⟨by decide +kernel⟩
instance : Kids E "modelCard" [["modelParameters"], ["quantitativeAnalysis"], ["considerations"], ["properties"]] := ⟨by decide +kernel⟩
instance : Marks E "modelCard" ["bom-ref"] := ⟨by decide +kernel⟩
instance : Kids E "modelParameters" [["approach"], ["task"], ["architectureFamily"], ["modelArchitecture"], ["datasets"], ["inputs"], ["outputs"]] := ⟨by decide +kernel⟩
instance : Marks E "modelParameters" [] := ⟨by decide +kernel⟩
instance : Kids E "note" [["locale"], ["text"]] := ⟨by decide +kernel⟩
instance : Marks E "note" [] := ⟨by decide +kernel⟩
instance : Kids E "notes" [["note"]] := ⟨by decide +kernel⟩
instance : Marks E "notes" [] := ⟨by decide +kernel⟩
instance : Kids E "occurrence" [["location"]] := ⟨by decide +kernel⟩
instance : Marks E "occurrence" ["bom-ref"] := ⟨by decide +kernel⟩
instance : Kids E "occurrences" [["occurrence"]] := ⟨by decide +kernel⟩
instance : Marks E "occurrences" [] := ⟨by decide +kernel⟩
instance : Kids E "organization" [["name"], ["url"], ["contact"]] := ⟨by decide +kernel⟩
instance : Marks E "organization" ["bom-ref"] := ⟨by decide +kernel⟩
instance : Kids E "organizations" [["organization"]] := ⟨by decide +kernel⟩
instance : Marks E "organizations" [] := ⟨by decide +kernel⟩
instance : Kids E "output" [["format", "resource", "environmentVars", "data"], ["type"], ["source"], ["target"], ["properties"]] := ⟨by decide +kernel⟩
instance : Marks E "output" [] := ⟨by decide +kernel⟩
instance : Kids E "outputs" [["output"]] := ⟨by decide +kernel⟩
instance : Marks E "outputs" [] := ⟨by decide +kernel⟩
instance : Kids E "owner" [["organization", "contact"]] := ⟨by decide +kernel⟩
instance : Marks E "owner" [] := ⟨by decide +kernel⟩
instance : Kids E "owners" [["owner"]] := ⟨by decide +kernel⟩
instance : Marks E "owners" [] := ⟨by decide +kernel⟩
instance : Kids E "parameter" [["name"], ["value"], ["dataType"]] := ⟨by decide +kernel⟩
instance : Marks E "parameter" [] := ⟨by decide +kernel⟩
instance : Kids E "parameters" [["parameter"]] := ⟨by decide +kernel⟩
instance : Marks E "parameters" [] := ⟨by decide +kernel⟩
instance : Kids E "patch" [["diff"], ["resolves"]] := ⟨by decide +kernel⟩
instance : Marks E "patch" ["type"] := ⟨by decide +kernel⟩
instance : Kids E "patches" [["patch"]] := ⟨by decide +kernel⟩
instance : Marks E "patches" [] := ⟨by decide +kernel⟩
instance : Kids E "pedigree" [["ancestors"], ["descendants"], ["variants"], ["commits"], ["patches"], ["notes"]] := ⟨by decide +kernel⟩
instance : Marks E "pedigree" [] := ⟨by decide +kernel⟩
instance : Kids E "performanceMetric" [["type"], ["value"], ["slice"], ["confidenceInterval"]] := ⟨by decide +kernel⟩
instance : Marks E "performanceMetric" [] := ⟨by decide +kernel⟩
instance : Kids E "performanceMetrics" [["performanceMetric"]] := ⟨by decide +kernel⟩
instance : Marks E "performanceMetrics" [] := ⟨by decide +kernel⟩
instance : Kids E "performanceTradeoffs" [["performanceTradeoff"]] := ⟨by decide +kernel⟩
instance : Marks E "performanceTradeoffs" [] := ⟨by decide +kernel⟩
instance : Kids E "proofOfConcept" [["reproductionSteps"], ["environment"], ["supportingMaterial"]] := ⟨by decide +kernel⟩
instance : Marks E "proofOfConcept" [] := ⟨by decide +kernel⟩
instance : Kids E "properties" [["property"]] := ⟨by decide +kernel⟩
instance : Marks E "properties" [] := ⟨by decide +kernel⟩
instance : Kids E "property" [] := ⟨by decide +kernel⟩
instance : Marks E "property" ["name"] := ⟨by decide +kernel⟩
instance : Kids E "provider" [["name"], ["url"], ["contact"]] := ⟨by decide +kernel⟩
instance : Marks E "provider" ["bom-ref"] := ⟨by decide +kernel⟩
instance : Kids E "purchaser" [["organization", "individual"]] := ⟨by decide +kernel⟩
instance : Marks E "purchaser" [] := ⟨by decide +kernel⟩
instance : Kids E "quantitativeAnalysis" [["performanceMetrics"], ["graphics"]] := ⟨by decide +kernel⟩
instance : Marks E "quantitativeAnalysis" [] := ⟨by decide +kernel⟩
instance : Kids E "rating" [["source"], ["score"], ["severity"], ["method"], ["vector"], ["justification"]] := ⟨by decide +kernel⟩
instance : Marks E "rating" [] := ⟨by decide +kernel⟩
instance : Kids E "ratings" [["rating"]] := ⟨by decide +kernel⟩
instance : Marks E "ratings" [] := ⟨by decide +kernel⟩
instance : Kids E "reference" [["url"], ["comment"], ["hashes"], ["id"], ["source"]] := ⟨by decide +kernel⟩
instance : Marks E "reference" ["type"] := ⟨by decide +kernel⟩
instance : Kids E "references" [["url", "reference"]] := ⟨by decide +kernel⟩
instance : Marks E "references" [] := ⟨by decide +kernel⟩
instance : Kids E "releaseNotes" [["type"], ["title"], ["featuredImage"], ["socialImage"], ["description"], ["timestamp"], ["aliases"], ["tags"], ["resolves"], ["notes"], ["properties"]] := ⟨by decide +kernel⟩
instance : Marks E "releaseNotes" [] := ⟨by decide +kernel⟩
instance : Kids E "resolves" [["issue"]] := ⟨by decide +kernel⟩
instance : Marks E "resolves" [] := ⟨by decide +kernel⟩
instance : Kids E "resource" [["ref", "reference"]] := ⟨by decide +kernel⟩
instance : Marks E "resource" [] := ⟨by decide +kernel⟩
instance : Kids E "resourceReference" [["ref", "reference"]] := ⟨by decide +kernel⟩
instance : Marks E "resourceReference" [] := ⟨by decide +kernel⟩
instance : Kids E "resourceReferences" [["resourceReference"]] := ⟨by decide +kernel⟩
instance : Marks E "resourceReferences" [] := ⟨by decide +kernel⟩
instance : Kids E "responses" [["response"]] := ⟨by decide +kernel⟩
instance : Marks E "responses" [] := ⟨by decide +kernel⟩
instance : Kids E "runtimeTopology" [["dependency"]] := ⟨by decide +kernel⟩
instance : Marks E "runtimeTopology" [] := ⟨by decide +kernel⟩
instance : Kids E "service" [["provider"], ["group"], ["name"], ["version"], ["description"], ["endpoints"], ["authenticated"], ["x-trust-boundary"], ["data"], ["licenses"], ["externalReferences"], ["properties"], ["services"], ["releaseNotes"], ["signature"], ["trustZone"]] := ⟨by decide +kernel⟩
instance : Marks E "service" ["bom-ref"] := ⟨by decide +kernel⟩
instance : Kids E "services" [["service"]] := ⟨by decide +kernel⟩
instance : Marks E "services" [] := ⟨by decide +kernel⟩
instance : Kids E "signature" [["signers", "chain", "algorithm"], ["value"]] := ⟨by decide +kernel⟩
instance : Marks E "signature" [] := ⟨by decide +kernel⟩
instance : Kids E "signer" [["algorithm"], ["value"]] := ⟨by decide +kernel⟩
instance : Marks E "signer" [] := ⟨by decide +kernel⟩
instance : Kids E "signers" [["signer"]] := ⟨by decide +kernel⟩
instance : Marks E "signers" [] := ⟨by decide +kernel⟩
instance : Kids E "source" [["ref", "reference"], ["name"], ["url"]] := ⟨by decide +kernel⟩
instance : Marks E "source" [] := ⟨by decide +kernel⟩
instance : Kids E "step" [["commands"], ["description"], ["name"], ["properties"]] := ⟨by decide +kernel⟩
instance : Marks E "step" [] := ⟨by decide +kernel⟩
instance : Kids E "steps" [["step"]] := ⟨by decide +kernel⟩
instance : Marks E "steps" [] := ⟨by decide +kernel⟩
instance : Kids E "steward" [["organization", "contact"]] := ⟨by decide +kernel⟩
instance : Marks E "steward" [] := ⟨by decide +kernel⟩
instance : Kids E "stewards" [["steward"]] := ⟨by decide +kernel⟩
instance : Marks E "stewards" [] := ⟨by decide +kernel⟩
instance : Kids E "subjects" [["subject"]] := ⟨by decide +kernel⟩
instance : Marks E "subjects" [] := ⟨by decide +kernel⟩
instance : Kids E "supplier" [["name"], ["url"], ["contact"]] := ⟨by decide +kernel⟩
instance : Marks E "supplier" ["bom-ref"] := ⟨by decide +kernel⟩
instance : Kids E "supportingMaterial" [["attachment"]] := ⟨by decide +kernel⟩
instance : Marks E "supportingMaterial" [] := ⟨by decide +kernel⟩
instance : Kids E "swid" [["text"], ["url"]] := ⟨by decide +kernel⟩
instance : Marks E "swid" ["tagId", "name", "version", "tagVersion", "patch"] := ⟨by decide +kernel⟩
instance : Kids E "tags" [["tag"]] := ⟨by decide +kernel⟩
instance : Marks E "tags" [] := ⟨by decide +kernel⟩
instance : Kids E "target" [["ref", "reference"], ["versions"]] := ⟨by decide +kernel⟩
instance : Marks E "target" [] := ⟨by decide +kernel⟩
instance : Kids E "task" [["uid"], ["name"], ["description"], ["resourceReferences"], ["taskTypes"], ["trigger"], ["steps"], ["inputs"], ["outputs"], ["timeStart"], ["timeEnd"], ["workspaces"], ["runtimeTopology"], ["properties"]] := ⟨by decide +kernel⟩
instance : Marks E "task" ["bom-ref"] := ⟨by decide +kernel⟩
instance : Kids E "taskDependencies" [["dependency"]] := ⟨by decide +kernel⟩
instance : Marks E "taskDependencies" [] := ⟨by decide +kernel⟩
instance : Kids E "taskTypes" [["taskType"]] := ⟨by decide +kernel⟩
instance : Marks E "taskTypes" [] := ⟨by decide +kernel⟩
instance : Kids E "tasks" [["task"]] := ⟨by decide +kernel⟩
instance : Marks E "tasks" [] := ⟨by decide +kernel⟩
instance : Kids E "technicalLimitations" [["technicalLimitation"]] := ⟨by decide +kernel⟩
instance : Marks E "technicalLimitations" [] := ⟨by decide +kernel⟩
instance : Kids E "text" [] := ⟨by decide +kernel⟩
instance : Marks E "text" ["content-type", "encoding"] := ⟨by decide +kernel⟩
instance : Kids E "tool" [["vendor"], ["name"], ["version"], ["hashes"], ["externalReferences"]] := ⟨by decide +kernel⟩
instance : Marks E "tool" ["ref"] := ⟨by decide +kernel⟩
instance : Kids E "tools" [["tool"], ["services"], ["components"]] := ⟨by decide +kernel⟩
instance : Marks E "tools" [] := ⟨by decide +kernel⟩
instance : Kids E "trigger" [["uid"], ["name"], ["description"], ["resourceReferences"], ["type"], ["event"], ["conditions"], ["timeActivated"], ["inputs"], ["outputs"], ["properties"]] := ⟨by decide +kernel⟩
instance : Marks E "trigger" ["bom-ref"] := ⟨by decide +kernel⟩
instance : Kids E "useCases" [["useCase"]] := ⟨by decide +kernel⟩
instance : Marks E "useCases" [] := ⟨by decide +kernel⟩
instance : Kids E "users" [["user"]] := ⟨by decide +kernel⟩
instance : Marks E "users" [] := ⟨by decide +kernel⟩
instance : Kids E "variants" [["component"]] := ⟨by decide +kernel⟩
instance : Marks E "variants" [] := ⟨by decide +kernel⟩
instance : Kids E "version" [["version", "range"], ["status"]] := ⟨by decide +kernel⟩
instance : Marks E "version" [] := ⟨by decide +kernel⟩
instance : Kids E "versions" [["version"]] := ⟨by decide +kernel⟩
instance : Marks E "versions" [] := ⟨by decide +kernel⟩
instance : Kids E "volume" [["uid"], ["name"], ["mode"], ["path"], ["sizeAllocated"], ["persistent"], ["remote"], ["properties"]] := ⟨by decide +kernel⟩
instance : Marks E "volume" [] := ⟨by decide +kernel⟩
instance : Kids E "vulnerabilities" [["vulnerability"]] := ⟨by decide +kernel⟩
instance : Marks E "vulnerabilities" [] := ⟨by decide +kernel⟩
instance : Kids E "vulnerability" [["id"], ["source"], ["references"], ["ratings"], ["cwes"], ["description"], ["detail"], ["recommendation"], ["proofOfConcept"], ["advisories"], ["created"], ["published"], ["updated"], ["rejected"], ["credits"], ["tools"], ["analysis"], ["affects"], ["properties"], ["workaround"]] := ⟨by decide +kernel⟩
instance : Marks E "vulnerability" ["bom-ref", "ref"] := ⟨by decide +kernel⟩
instance : Kids E "workflow" [["uid"], ["name"], ["description"], ["resourceReferences"], ["tasks"], ["taskDependencies"], ["taskTypes"], ["trigger"], ["steps"], ["inputs"], ["outputs"], ["timeStart"], ["timeEnd"], ["workspaces"], ["runtimeTopology"], ["properties"]] := ⟨by decide +kernel⟩
instance : Marks E "workflow" ["bom-ref"] := ⟨by decide +kernel⟩
instance : Kids E "workflows" [["workflow"]] := ⟨by decide +kernel⟩
instance : Marks E "workflows" [] := ⟨by decide +kernel⟩
instance : Kids E "workspace" [["uid"], ["name"], ["aliases"], ["description"], ["resourceReferences"], ["accessMode"], ["mountPath"], ["managedDataType"], ["volumeRequest"], ["volume"], ["properties"]] := ⟨by decide +kernel⟩
instance : Marks E "workspace" ["bom-ref"] := ⟨by decide +kernel⟩
instance : Kids E "workspaces" [["workspace"]] := ⟨by decide +kernel⟩
instance : Marks E "workspaces" [] := ⟨by decide +kernel⟩

instance (s p : String) (g : List String) [In "text" g] : Made E p g (writeCdata "text" s) := by
  unfold writeCdata; infer_instance

instance (x : AttachedText) (p : String) (g : List String) [In "text" g] :
    Made E p g (AttachedText.writeXml "text" x) := by
  unfold AttachedText.writeXml; infer_instance

instance (x : Property) (p : String) (g : List String) [In "property" g] :
    Made E p g (Property.writeXml x) := by
  unfold Property.writeXml; infer_instance

instance (x : Hash) (p : String) (g : List String) [In "hash" g] :
    Made E p g (Hash.writeXml x) := by
  unfold Hash.writeXml; infer_instance

instance (x : OrganizationalContact) (p : String) (g : List String) [In "contact" g] :
    Made E p g (OrganizationalContact.writeXml "contact" x) := by
  unfold OrganizationalContact.writeXml; infer_instance

instance (x : OrganizationalContact) (p : String) (g : List String) [In "individual" g] :
    Made E p g (OrganizationalContact.writeXml "individual" x) := by
  unfold OrganizationalContact.writeXml; infer_instance

instance (x : OrganizationalContact) (p : String) (g : List String) [In "author" g] :
    Made E p g (OrganizationalContact.writeXml "author" x) := by
  unfold OrganizationalContact.writeXml; infer_instance

instance (x : OrganizationalEntity) (p : String) (g : List String) [In "supplier" g] :
    Made E p g (OrganizationalEntity.writeXml "supplier" x) := by
  unfold OrganizationalEntity.writeXml; infer_instance

instance (x : OrganizationalEntity) (p : String) (g : List String) [In "manufacture" g] :
    Made E p g (OrganizationalEntity.writeXml "manufacture" x) := by
  unfold OrganizationalEntity.writeXml; infer_instance

instance (x : OrganizationalEntity) (p : String) (g : List String) [In "provider" g] :
    Made E p g (OrganizationalEntity.writeXml "provider" x) := by
  unfold OrganizationalEntity.writeXml; infer_instance

instance (x : OrganizationalEntity) (p : String) (g : List String) [In "organization" g] :
    Made E p g (OrganizationalEntity.writeXml "organization" x) := by
  unfold OrganizationalEntity.writeXml; infer_instance

instance (x : ExternalReference) (p : String) (g : List String) [In "reference" g] :
    Made E p g (ExternalReference.writeXml x) := by
  unfold ExternalReference.writeXml; infer_instance

instance (x : VulnerabilitySource) (p : String) (g : List String) [In "source" g] :
    Made E p g (VulnerabilitySource.writeXml x) := by
  unfold VulnerabilitySource.writeXml; infer_instance

instance (x : VulnerabilityReference) (p : String) (g : List String) [In "reference" g] :
    Made E p g (VulnerabilityReference.writeXml x) := by
  unfold VulnerabilityReference.writeXml; infer_instance

instance (x : Advisory) (p : String) (g : List String) [In "advisory" g] :
    Made E p g (Advisory.writeXml x) := by
  unfold Advisory.writeXml; infer_instance

instance (x : VulnerabilityCredits) (p : String) (g : List String) [In "credits" g] :
    Made E p g (VulnerabilityCredits.writeXml x) := by
  unfold VulnerabilityCredits.writeXml; infer_instance

instance (x : Signer) (p : String) (g : List String) [In "signer" g] :
    Made E p g (Signer.writeXml "signer" x) := by
  unfold Signer.writeXml; infer_instance

instance (x : Signer) (p : String) (g : List String) [In "chain" g] :
    Made E p g (Signer.writeXml "chain" x) := by
  unfold Signer.writeXml; infer_instance

instance (x : Signer) (p : String) (g : List String) [In "signature" g] :
    Made E p g (Signer.writeXml "signature" x) := by
  unfold Signer.writeXml; infer_instance

instance (x : Signature) (p : String) (g : List String) [In "signature" g] :
    Made E p g (Signature.writeXml x) := by
  cases x <;> simp only [Signature.writeXml] <;> infer_instance

instance (x : Dependency) (p : String) (g : List String) [In "dependency" g] :
    Made E p g (Dependency.writeXml x) := by
  unfold Dependency.writeXml; infer_instance

instance (x : Composition) (p : String) (g : List String) [In "composition" g] :
    Made E p g (Composition.writeXml .v1_5 x) := by
  unfold Composition.writeXml; infer_instance

instance (x : IdentifiableAction) (p : String) (g : List String) [In "author" g] :
    Made E p g (IdentifiableAction.writeXml "author" x) := by
  unfold IdentifiableAction.writeXml; infer_instance

instance (x : IdentifiableAction) (p : String) (g : List String) [In "committer" g] :
    Made E p g (IdentifiableAction.writeXml "committer" x) := by
  unfold IdentifiableAction.writeXml; infer_instance

instance (x : Commit) (p : String) (g : List String) [In "commit" g] :
    Made E p g (Commit.writeXml x) := by
  unfold Commit.writeXml; infer_instance

instance (x : Diff) (p : String) (g : List String) [In "diff" g] :
    Made E p g (Diff.writeXml x) := by
  unfold Diff.writeXml; infer_instance

instance (x : Source) (p : String) (g : List String) [In "source" g] :
    Made E p g (Source.writeXml x) := by
  unfold Source.writeXml; infer_instance

instance (x : Issue) (p : String) (g : List String) [In "issue" g] :
    Made E p g (Issue.writeXml x) := by
  unfold Issue.writeXml; infer_instance

instance (x : Patch) (p : String) (g : List String) [In "patch" g] :
    Made E p g (Patch.writeXml x) := by
  unfold Patch.writeXml; infer_instance

instance (x : VulnerabilityAnalysis) (p : String) (g : List String) [In "analysis" g] :
    Made E p g (VulnerabilityAnalysis.writeXml .v1_5 x) := by
  unfold VulnerabilityAnalysis.writeXml; infer_instance

instance (x : VersionRange) (p : String) (g : List String) [In "version" g] [In "range" g] :
    Made E p g (VersionRange.writeXml x) := by
  cases x <;> simp only [VersionRange.writeXml] <;> infer_instance

instance (x : TargetVersion) (p : String) (g : List String) [In "version" g] :
    Made E p g (TargetVersion.writeXml x) := by
  unfold TargetVersion.writeXml; infer_instance

instance (x : VulnerabilityTarget) (p : String) (g : List String) [In "target" g] :
    Made E p g (VulnerabilityTarget.writeXml x) := by
  unfold VulnerabilityTarget.writeXml; infer_instance

instance (x : DataGovernanceResponsibleParty) (p : String) (g : List String) [In "organization" g] [In "contact" g] :
    Made E p g (DataGovernanceResponsibleParty.writeInner x) := by
  cases x <;> simp only [DataGovernanceResponsibleParty.writeInner] <;> infer_instance

instance (x : DataGovernanceResponsibleParty) (p : String) (g : List String) [In "owner" g] :
    Made E p g (DataGovernanceResponsibleParty.writeXml "owner" x) := by
  unfold DataGovernanceResponsibleParty.writeXml; infer_instance

instance (x : DataGovernanceResponsibleParty) (p : String) (g : List String) [In "custodian" g] :
    Made E p g (DataGovernanceResponsibleParty.writeXml "custodian" x) := by
  unfold DataGovernanceResponsibleParty.writeXml; infer_instance

instance (x : DataGovernanceResponsibleParty) (p : String) (g : List String) [In "steward" g] :
    Made E p g (DataGovernanceResponsibleParty.writeXml "steward" x) := by
  unfold DataGovernanceResponsibleParty.writeXml; infer_instance

instance (x : DataGovernance) (p : String) (g : List String) [In "governance" g] :
    Made E p g (DataGovernance.writeXml "governance" x) := by
  unfold DataGovernance.writeXml; infer_instance

instance (x : Attachment) (p : String) (g : List String) [In "image" g] :
    Made E p g (Attachment.writeXml "image" x) := by
  unfold Attachment.writeXml; infer_instance

instance (x : Attachment) (p : String) (g : List String) [In "attachment" g] :
    Made E p g (Attachment.writeXml "attachment" x) := by
  unfold Attachment.writeXml; infer_instance

instance (x : Attachment) (p : String) (g : List String) [In "data" g] :
    Made E p g (Attachment.writeXml "data" x) := by
  unfold Attachment.writeXml; infer_instance

instance (x : Graphic) (p : String) (g : List String) [In "graphic" g] :
    Made E p g (Graphic.writeXml x) := by
  unfold Graphic.writeXml; infer_instance

instance (x : GraphicsCollection) (p : String) (g : List String) [In "graphics" g] :
    Made E p g (GraphicsCollection.writeXml "graphics" x) := by
  unfold GraphicsCollection.writeXml; infer_instance

instance (x : DataContents) (p : String) (g : List String) [In "contents" g] :
    Made E p g (DataContents.writeXml x) := by
  unfold DataContents.writeXml; infer_instance

instance (x : ComponentData) (p : String) (g : List String) [In "data" g] :
    Made E p g (ComponentData.writeXml "data" x) := by
  unfold ComponentData.writeXml; infer_instance

instance (x : ComponentData) (p : String) (g : List String) [In "dataset" g] :
    Made E p g (ComponentData.writeXml "dataset" x) := by
  unfold ComponentData.writeXml; infer_instance

instance (x : ModelParametersApproach) (p : String) (g : List String) [In "approach" g] :
    Made E p g (ModelParametersApproach.writeXml x) := by
  unfold ModelParametersApproach.writeXml; infer_instance

instance (x : Dataset) (p : String) (g : List String) [In "dataset" g] :
    Made E p g (Dataset.writeXml x) := by
  cases x <;> simp only [Dataset.writeXml] <;> infer_instance

instance (x : MLParameter) (p : String) (g : List String) [In "input" g] :
    Made E p g (MLParameter.writeXml "input" x) := by
  unfold MLParameter.writeXml; infer_instance

instance (x : MLParameter) (p : String) (g : List String) [In "output" g] :
    Made E p g (MLParameter.writeXml "output" x) := by
  unfold MLParameter.writeXml; infer_instance

instance (x : ModelParameters) (p : String) (g : List String) [In "modelParameters" g] :
    Made E p g (ModelParameters.writeXml x) := by
  unfold ModelParameters.writeXml; infer_instance

instance (x : ConfidenceInterval) (p : String) (g : List String) [In "confidenceInterval" g] :
    Made E p g (ConfidenceInterval.writeXml x) := by
  unfold ConfidenceInterval.writeXml; infer_instance

instance (x : PerformanceMetric) (p : String) (g : List String) [In "performanceMetric" g] :
    Made E p g (PerformanceMetric.writeXml x) := by
  unfold PerformanceMetric.writeXml; infer_instance

instance (x : QuantitativeAnalysis) (p : String) (g : List String) [In "quantitativeAnalysis" g] :
    Made E p g (QuantitativeAnalysis.writeXml x) := by
  unfold QuantitativeAnalysis.writeXml; infer_instance

instance (x : Considerations) (p : String) (g : List String) [In "considerations" g] :
    Made E p g (Considerations.writeXml x) := by
  unfold Considerations.writeXml; infer_instance

instance (x : ModelCard) (p : String) (g : List String) [In "modelCard" g] :
    Made E p g (ModelCard.writeXml x) := by
  unfold ModelCard.writeXml; infer_instance

instance (x : DataClassification) (p : String) (g : List String) [In "classification" g] :
    Made E p g (DataClassification.writeXml x) := by
  unfold DataClassification.writeXml; infer_instance

instance (x : ServiceData) (p : String) (g : List String) [In "dataflow" g] :
    Made E p g (ServiceData.writeXml x) := by
  unfold ServiceData.writeXml; infer_instance

instance (x : ServiceDataChoice) (p : String) (g : List String) [In "classification" g] [In "dataflow" g] :
    Made E p g (ServiceDataChoice.writeInner .v1_5 x) := by
  cases x <;> simp only [ServiceDataChoice.writeInner] <;> infer_instance

instance (x : ServiceDataChoice) (p : String) (g : List String) [In "data" g] :
    Made E p g (ServiceDataChoice.writeXml .v1_5 x) := by
  unfold ServiceDataChoice.writeXml; infer_instance

instance (x : Swid) (p : String) (g : List String) [In "swid" g] :
    Made E p g (Swid.writeXml x) := by
  unfold Swid.writeXml; infer_instance

instance (x : Lifecycle) (p : String) (g : List String) [In "lifecycle" g] :
    Made E p g (Lifecycle.writeXml x) := by
  cases x <;> simp only [Lifecycle.writeXml] <;> infer_instance

instance (x : LicenseIdentifier) (p : String) (g : List String) [In "id" g] [In "name" g] :
    Made E p g (LicenseIdentifier.writeXml x) := by
  cases x <;> simp only [LicenseIdentifier.writeXml] <;> infer_instance

instance (x : License) (p : String) (g : List String) [In "license" g] :
    Made E p g (License.writeXml .v1_5 x) := by
  unfold License.writeXml; infer_instance

instance (x : SpdxExpression) (p : String) (g : List String) [In "expression" g] :
    Made E p g (SpdxExpression.writeXml x) := by
  unfold SpdxExpression.writeXml; infer_instance

instance (x : LicenseChoice) (p : String) (g : List String) [In "license" g] [In "expression" g] :
    Made E p g (LicenseChoice.writeXml .v1_5 x) := by
  cases x <;> simp only [LicenseChoice.writeXml] <;> infer_instance

instance (x : Licenses) (p : String) (g : List String) [In "licenses" g] :
    Made E p g (Licenses.writeXml .v1_5 x) := by
  unfold Licenses.writeXml; infer_instance

instance (x : VulnerabilityRating) (p : String) (g : List String) [In "rating" g] :
    Made E p g (VulnerabilityRating.writeXml x) := by
  unfold VulnerabilityRating.writeXml; infer_instance

instance (x : ComponentEvidence) (p : String) (g : List String) [In "evidence" g] :
    Made E p g (ComponentEvidence.writeXml .v1_5 x) := by
  unfold ComponentEvidence.writeXml; infer_instance

mutual
theorem component_all : ∀ (x : List Component) (p : String) (g : List String) [In "component" g],
    Made E p g (Component.writeXmlAll .v1_5 x)
  | [], _, _, _ => by simp only [Component.writeXmlAll]; infer_instance
  | a :: x, p, g, _ => by
    have h1 := component_made a p g
    have h2 := component_all x p g
    simp only [Component.writeXmlAll]
    exact ⟨fun l r h => by rw [List.append_assoc]; exact h1.before l _ (h2.before l r h)⟩
termination_by structural x => x
theorem component_opt : ∀ (x : Option (List Component)) (tag p : String) (g : List String) (ks : List (List String))
    [In tag g] [Kids E tag (["component"] :: ks)], Made E p g (Component.writeXmlOpt .v1_5 tag x)
  | none, _, _, _, _, _, _ => by simp only [Component.writeXmlOpt]; infer_instance
  | some x, tag, p, g, ks, _, _ => by
    have h1 := component_all x tag ["component"]
    simp only [Component.writeXmlOpt]
    infer_instance
termination_by structural x => x
theorem pedigree_made : ∀ (x : Pedigree) (p : String) (g : List String) [In "pedigree" g],
    Made E p g (Pedigree.writeXml .v1_5 x)
  | ⟨ancestors, descendants, variants, commits, patches, notes⟩, p, g, _ => by
    have h1 := component_opt ancestors "ancestors" "pedigree" ["ancestors"] []
    have h2 := component_opt descendants "descendants" "pedigree" ["descendants"] []
    have h3 := component_opt variants "variants" "pedigree" ["variants"] []
    simp only [Pedigree.writeXml]
    infer_instance
termination_by structural x => x
theorem pedigree_opt : ∀ (x : Option Pedigree) (p : String) (g : List String) [In "pedigree" g],
    Made E p g (Pedigree.writeXmlOpt .v1_5 x)
  | none, _, _, _ => by simp only [Pedigree.writeXmlOpt]; infer_instance
  | some x, p, g, _ => by
    have h1 := pedigree_made x p g
    simp only [Pedigree.writeXmlOpt]
    exact h1
termination_by structural x => x
theorem component_made : ∀ (x : Component) (p : String) (g : List String) [In "component" g],
    Made E p g (Component.writeXml .v1_5 x)
  | ⟨componentType, mimeType, bomRef, supplier, author, publisher, group, name, version, description, scope, hashes, licenses, copyright, cpe, purl, swid, modified, pedigree, externalReferences, properties, components, evidence, signature, modelCard, data⟩, p, g, _ => by
    have h1 := pedigree_opt pedigree "component" ["pedigree"]
    have h2 := component_opt components "components" "component" ["components"] []
    simp only [Component.writeXml]
    infer_instance
termination_by structural x => x
end

instance (x : Component) (p : String) (g : List String) [In "component" g] :
    Made E p g (Component.writeXml .v1_5 x) := component_made x p g

mutual
theorem service_all : ∀ (x : List Service) (p : String) (g : List String) [In "service" g],
    Made E p g (Service.writeXmlAll .v1_5 x)
  | [], _, _, _ => by simp only [Service.writeXmlAll]; infer_instance
  | a :: x, p, g, _ => by
    have h1 := service_made a p g
    have h2 := service_all x p g
    simp only [Service.writeXmlAll]
    exact ⟨fun l r h => by rw [List.append_assoc]; exact h1.before l _ (h2.before l r h)⟩
termination_by structural x => x
theorem service_opt : ∀ (x : Option (List Service)) (tag p : String) (g : List String) (ks : List (List String))
    [In tag g] [Kids E tag (["service"] :: ks)], Made E p g (Service.writeXmlOpt .v1_5 tag x)
  | none, _, _, _, _, _, _ => by simp only [Service.writeXmlOpt]; infer_instance
  | some x, tag, p, g, ks, _, _ => by
    have h1 := service_all x tag ["service"]
    simp only [Service.writeXmlOpt]
    infer_instance
termination_by structural x => x
theorem service_made : ∀ (x : Service) (p : String) (g : List String) [In "service" g],
    Made E p g (Service.writeXml .v1_5 x)
  | ⟨bomRef, provider, group, name, version, description, endpoints, authenticated, xTrustBoundary, data, licenses, externalReferences, properties, services, signature, trustZone⟩, p, g, _ => by
    have h1 := service_opt services "services" "service" ["services"] []
    simp only [Service.writeXml]
    infer_instance
termination_by structural x => x
end

instance (x : Service) (p : String) (g : List String) [In "service" g] :
    Made E p g (Service.writeXml .v1_5 x) := service_made x p g

instance (x : Tool) (p : String) (g : List String) [In "tool" g] :
    Made E p g (Tool.writeXml .v1_5 x) := by
  unfold Tool.writeXml; infer_instance

instance (x : Tools) (p : String) (g : List String) [In "tools" g] :
    Made E p g (Tools.writeXml .v1_5 x) := by
  cases x <;> simp only [Tools.writeXml] <;> infer_instance

instance (x : Metadata) (p : String) (g : List String) [In "metadata" g] :
    Made E p g (Metadata.writeXml .v1_5 x) := by
  unfold Metadata.writeXml; infer_instance

instance (x : Vulnerability) (p : String) (g : List String) [In "vulnerability" g] :
    Made E p g (Vulnerability.writeXml .v1_5 x) := by
  unfold Vulnerability.writeXml; infer_instance

instance (x : ResourceReference) (p : String) (g : List String) [In "ref" g] [In "reference" g] :
    Made E p g (ResourceReference.writeInner x) := by
  cases x <;> simp only [ResourceReference.writeInner] <;> infer_instance

instance (x : ResourceReference) (p : String) (g : List String) [In "resource" g] :
    Made E p g (ResourceReference.writeXml "resource" x) := by
  unfold ResourceReference.writeXml; infer_instance

instance (x : ResourceReference) (p : String) (g : List String) [In "source" g] :
    Made E p g (ResourceReference.writeXml "source" x) := by
  unfold ResourceReference.writeXml; infer_instance

instance (x : ResourceReference) (p : String) (g : List String) [In "target" g] :
    Made E p g (ResourceReference.writeXml "target" x) := by
  unfold ResourceReference.writeXml; infer_instance

instance (x : ResourceReference) (p : String) (g : List String) [In "resourceReference" g] :
    Made E p g (ResourceReference.writeXml "resourceReference" x) := by
  unfold ResourceReference.writeXml; infer_instance

instance (x : EnvironmentVar) (p : String) (g : List String) [In "environmentVar" g] [In "value" g] :
    Made E p g (EnvironmentVar.writeXml x) := by
  cases x <;> simp only [EnvironmentVar.writeXml] <;> infer_instance

instance (x : Parameter) (p : String) (g : List String) [In "parameter" g] :
    Made E p g (Parameter.writeXml x) := by
  unfold Parameter.writeXml; infer_instance

instance (x : RequiredInputField) (p : String) (g : List String) [In "resource" g] [In "parameters" g] [In "environmentVars" g] [In "data" g] :
    Made E p g (RequiredInputField.writeXml x) := by
  cases x <;> simp only [RequiredInputField.writeXml] <;> infer_instance

instance (x : Input) (p : String) (g : List String) [In "input" g] :
    Made E p g (Input.writeXml x) := by
  unfold Input.writeXml; infer_instance

instance (x : RequiredOutputField) (p : String) (g : List String) [In "resource" g] [In "environmentVars" g] [In "data" g] :
    Made E p g (RequiredOutputField.writeXml x) := by
  cases x <;> simp only [RequiredOutputField.writeXml] <;> infer_instance

instance (x : Output) (p : String) (g : List String) [In "output" g] :
    Made E p g (Output.writeXml x) := by
  unfold Output.writeXml; infer_instance

instance (x : Command) (p : String) (g : List String) [In "command" g] :
    Made E p g (Command.writeXml x) := by
  unfold Command.writeXml; infer_instance

instance (x : Step) (p : String) (g : List String) [In "step" g] :
    Made E p g (Step.writeXml x) := by
  unfold Step.writeXml; infer_instance

instance (x : TriggerEvent) (p : String) (g : List String) [In "event" g] :
    Made E p g (TriggerEvent.writeXml x) := by
  unfold TriggerEvent.writeXml; infer_instance

instance (x : Condition) (p : String) (g : List String) [In "condition" g] :
    Made E p g (Condition.writeXml x) := by
  unfold Condition.writeXml; infer_instance

instance (x : Trigger) (p : String) (g : List String) [In "trigger" g] :
    Made E p g (Trigger.writeXml x) := by
  unfold Trigger.writeXml; infer_instance

instance (x : Volume) (p : String) (g : List String) [In "volume" g] :
    Made E p g (Volume.writeXml x) := by
  unfold Volume.writeXml; infer_instance

instance (x : Workspace) (p : String) (g : List String) [In "workspace" g] :
    Made E p g (Workspace.writeXml x) := by
  unfold Workspace.writeXml; infer_instance

instance (x : WorkflowTask) (p : String) (g : List String) [In "task" g] :
    Made E p g (WorkflowTask.writeXml x) := by
  unfold WorkflowTask.writeXml; infer_instance

instance (x : Workflow) (p : String) (g : List String) [In "workflow" g] :
    Made E p g (Workflow.writeXml x) := by
  unfold Workflow.writeXml; infer_instance

instance (x : Formula) (p : String) (g : List String) [In "formula" g] :
    Made E p g (Formula.writeXml .v1_5 x) := by
  unfold Formula.writeXml; infer_instance

theorem bom_arranged (x : Bom) : ArrangedDocument E (Bom.writeXml .v1_5 x) := by
  have h : Made E "" ["bom"] (Bom.writeXml .v1_5 x) := by
    unfold Bom.writeXml; infer_instance
  unfold Bom.writeXml at *
  refine ⟨_, _, rfl, ?_, ?_⟩
  · intro a h
    simp only [mkAttrs, List.mem_filterMap, Option.map_eq_some_iff] at h
    obtain ⟨q, hq, x, hx, rfl⟩ := h
    have : (E "bom").attributes = ["serialNumber", "version"] := by decide +kernel
    rw [this]
    simp only [List.mem_cons, List.not_mem_nil, or_false] at hq ⊢
    rcases hq with rfl | rfl <;> simp
  · rw [(inferInstance : Kids E "bom" _).eq]
    exact Laid.arranged

end

end Cdx.V1_5
