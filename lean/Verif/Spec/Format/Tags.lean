import Verif.Model.Format.Bom

/-!
# The tags that the versions of the format know

For the elements that skip what they do not know: the names of their children, in each version.
-/

namespace Cdx

/-- The children of a contact. -/
def OrganizationalContact.tags : List String :=
  ["name", "email", "phone"]

/-- The children of an organization. -/
def OrganizationalEntity.tags : List String :=
  ["name", "url", "contact"]

/-- The children of `source`. -/
def VulnerabilitySource.tags : List String :=
  ["name", "url"]

/-- The children of `reference`. -/
def VulnerabilityReference.tags : List String :=
  ["id", "source"]

/-- The children of `advisory`. -/
def Advisory.tags : List String :=
  ["title", "url"]

/-- The children of `credits`. -/
def VulnerabilityCredits.tags : List String :=
  ["organizations", "individuals"]

/-- The children of `license` in a version. -/
def License.tags (v : SpecVersion) : List String :=
  ["id", "name", "text", "url"] ++ since15 v ["licensing", "properties"] []

/-- The children of an action. -/
def IdentifiableAction.tags : List String :=
  ["timestamp", "name", "email"]

/-- The children of `commit`. -/
def Commit.tags : List String :=
  ["uid", "url", "author", "committer", "message"]

/-- The children of `diff`. -/
def Diff.tags : List String :=
  ["text", "url"]

/-- The children of `issue`. -/
def Issue.tags : List String :=
  ["id", "name", "description", "source", "references"]

/-- The children of `patch`. -/
def Patch.tags : List String :=
  ["diff", "resolves"]

/-- The children of `analysis` in a version. -/
def VulnerabilityAnalysis.tags (v : SpecVersion) : List String :=
  ["state", "justification", "responses", "detail"] ++ since15 v ["firstIssued", "lastUpdated"] []

/-- The children of `version`. -/
def TargetVersion.tags : List String :=
  ["version", "range", "status"]

/-- The children of `target`. -/
def VulnerabilityTarget.tags : List String :=
  ["ref", "versions"]

/-- The children of `service` in a version. -/
def Service.tags (v : SpecVersion) : List String :=
  ["provider", "group", "name", "version", "description", "endpoints", "authenticated", "x-trust-boundary", "data", "licenses", "externalReferences", "properties", "services"] ++ since14 v ["signature"] [] ++ since15 v ["trustZone"] []

/-- The children of `rating`. -/
def VulnerabilityRating.tags : List String :=
  ["source", "score", "severity", "method", "vector", "justification"]

/-- The children of `pedigree`. -/
def Pedigree.tags : List String :=
  ["ancestors", "descendants", "variants", "commits", "patches", "notes"]

/-- The children of `component` in a version. -/
def Component.tags (v : SpecVersion) : List String :=
  ["supplier", "author", "publisher", "group", "name", "version", "description", "scope", "hashes", "licenses", "copyright", "cpe", "purl", "swid", "modified", "pedigree", "externalReferences", "properties", "components", "evidence"] ++ since14 v ["signature"] [] ++ since15 v ["modelCard", "data"] []

/-- The children of `tool` in a version. -/
def Tool.tags (v : SpecVersion) : List String :=
  ["vendor", "name", "version", "hashes"] ++ since14 v ["externalReferences"] []

/-- The children of `metadata` in a version. -/
def Metadata.tags (v : SpecVersion) : List String :=
  ["timestamp", "tools", "authors", "component", "manufacture", "supplier", "licenses", "properties"] ++ since15 v ["lifecycles"] []

/-- The children of `vulnerability` in a version. -/
def Vulnerability.tags (v : SpecVersion) : List String :=
  ["id", "source", "references", "ratings", "cwes", "description", "detail", "recommendation", "advisories", "created", "published", "updated", "credits", "tools", "analysis", "affects", "properties"] ++ since15 v ["proofOfConcept", "rejected", "workaround"] []

/-- The children of `step`. -/
def Step.tags : List String :=
  ["commands", "description", "name", "properties"]

/-- The children of `event`. -/
def TriggerEvent.tags : List String :=
  ["uid", "description", "timeReceived", "data", "source", "target", "properties"]

/-- The children of `trigger`. -/
def Trigger.tags : List String :=
  ["uid", "name", "description", "resourceReferences", "type", "event", "conditions", "timeActivated", "inputs", "outputs", "properties"]

/-- The children of `volume`. -/
def Volume.tags : List String :=
  ["uid", "name", "mode", "path", "sizeAllocated", "persistent", "remote", "properties"]

/-- The children of `workspace`. -/
def Workspace.tags : List String :=
  ["uid", "name", "aliases", "description", "resourceReferences", "accessMode", "mountPath", "managedDataType", "volumeRequest", "volume", "properties"]

/-- The children of `task`. -/
def WorkflowTask.tags : List String :=
  ["uid", "name", "description", "resourceReferences", "taskTypes", "trigger", "steps", "inputs", "outputs", "timeStart", "timeEnd", "workspaces", "runtimeTopology", "properties"]

/-- The children of `workflow`. -/
def Workflow.tags : List String :=
  ["uid", "name", "description", "resourceReferences", "tasks", "taskDependencies", "taskTypes", "trigger", "steps", "inputs", "outputs", "timeStart", "timeEnd", "workspaces", "runtimeTopology", "properties"]

/-- The children of `bom` in a version. -/
def Bom.tags (v : SpecVersion) : List String :=
  ["metadata", "components", "services", "externalReferences", "dependencies", "compositions"] ++ since14 v ["vulnerabilities", "signature"] [] ++ since15 v ["properties", "annotations", "formulation"] []

end Cdx
