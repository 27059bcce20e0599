import Verif.Model.File.Convert

set_option linter.unusedVariables false

/-!
# The structures of the files as JSON

The `Serialize` and `Deserialize` implementations of the structures in `cyclonedx-bom/src/specs`.
-/

namespace Cdx

variable [F32Format]

variable [ReadLimit]

/-- The version of a component from the members of its object (`specs/common/component.rs` 144-148). -/
def File.Version.ofJson (v : SpecVersion) (o : List (String × Json)) : Except String (File.Version v) :=
  match v with
  | .v1_3 => Json.req o "version" Json.string
  | .v1_4 => Json.opt o "version" Json.string
  | .v1_5 => Json.opt o "version" Json.string

/-- `AttachedText` as JSON (`specs/common/attached_text.rs` 28-36). -/
def File.AttachedText.toJson (x : File.AttachedText) : Json :=
  .mk [("contentType", x.contentType.map Json.str),
    ("encoding", x.encoding.map Json.str),
    ("content", some (Json.str x.content))]

/-- `AttachedText` from JSON (`specs/common/attached_text.rs` 28-36). -/
def File.AttachedText.ofJson (j : Json) : Except String File.AttachedText := do
  let o ← j.fields
  let contentType' ← Json.opt o "contentType" Json.string
  let encoding' ← Json.opt o "encoding" Json.string
  let content' ← Json.req o "content" Json.string
  .ok { contentType := contentType',
        encoding := encoding',
        content := content' }

/-- `Property` as JSON (`specs/common/property.rs` 79-84). -/
def File.Property.toJson (x : File.Property) : Json :=
  .mk [("name", some (Json.str x.name)),
    ("value", some (Json.str x.value))]

/-- `Property` from JSON (`specs/common/property.rs` 79-84). -/
def File.Property.ofJson (j : Json) : Except String File.Property := do
  let o ← j.fields
  let name' ← Json.req o "name" Json.string
  let value' ← Json.req o "value" Json.string
  .ok { name := name',
        value := value' }

/-- `Hash` as JSON (`specs/common/hash.rs` 79-84, 146-159). -/
def File.Hash.toJson (x : File.Hash) : Json :=
  .mk [("alg", some (Json.str x.alg)),
    ("content", some (Json.str x.content))]

/-- `Hash` from JSON (`specs/common/hash.rs` 79-84, 146-159). -/
def File.Hash.ofJson (j : Json) : Except String File.Hash := do
  let o ← j.fields
  let alg' ← Json.req o "alg" Json.string
  let content' ← Json.req o "content" Json.string
  .ok { alg := alg',
        content := content' }

/-- `OrganizationalContact` as JSON (`specs/common/organization.rs` 33-44). -/
def File.OrganizationalContact.toJson (x : File.OrganizationalContact) : Json :=
  .mk [("bomRef", x.bomRef.map Json.str),
    ("name", x.name.map Json.str),
    ("email", x.email.map Json.str),
    ("phone", x.phone.map Json.str)]

/-- `OrganizationalContact` from JSON (`specs/common/organization.rs` 33-44). -/
def File.OrganizationalContact.ofJson (j : Json) : Except String File.OrganizationalContact := do
  let o ← j.fields
  let bomRef' ← Json.opt o "bomRef" Json.string
  let name' ← Json.opt o "name" Json.string
  let email' ← Json.opt o "email" Json.string
  let phone' ← Json.opt o "phone" Json.string
  .ok { bomRef := bomRef',
        name := name',
        email := email',
        phone := phone' }

/-- `OrganizationalEntity` as JSON (`specs/common/organization.rs` 159-170). -/
def File.OrganizationalEntity.toJson (x : File.OrganizationalEntity) : Json :=
  .mk [("bomRef", x.bomRef.map Json.str),
    ("name", x.name.map Json.str),
    ("url", x.url.map (Json.ofList Json.str)),
    ("contact", x.contact.map (Json.ofList File.OrganizationalContact.toJson))]

/-- `OrganizationalEntity` from JSON (`specs/common/organization.rs` 159-170). -/
def File.OrganizationalEntity.ofJson (j : Json) : Except String File.OrganizationalEntity := do
  let o ← j.fields
  let bomRef' ← Json.opt o "bomRef" Json.string
  let name' ← Json.opt o "name" Json.string
  let url' ← Json.opt o "url" (Json.array Json.string)
  let contact' ← Json.opt o "contact" (Json.array File.OrganizationalContact.ofJson)
  .ok { bomRef := bomRef',
        name := name',
        url := url',
        contact := contact' }

/-- `ExternalReference` as JSON (`specs/common/external_reference.rs` 85-95). -/
def File.ExternalReference.toJson (x : File.ExternalReference) : Json :=
  .mk [("type", some (Json.str x.externalReferenceType)),
    ("url", some (Json.str x.url)),
    ("comment", x.comment.map Json.str),
    ("hashes", x.hashes.map (Json.ofList File.Hash.toJson))]

/-- `ExternalReference` from JSON (`specs/common/external_reference.rs` 85-95). -/
def File.ExternalReference.ofJson (j : Json) : Except String File.ExternalReference := do
  let o ← j.fields
  let externalReferenceType' ← Json.req o "type" Json.string
  let url' ← Json.req o "url" Json.string
  let comment' ← Json.opt o "comment" Json.string
  let hashes' ← Json.opt o "hashes" (Json.array File.Hash.ofJson)
  .ok { externalReferenceType := externalReferenceType',
        url := url',
        comment := comment',
        hashes := hashes' }

/-- `VulnerabilitySource` as JSON (`specs/common/vulnerability_source.rs` 31-38). -/
def File.VulnerabilitySource.toJson (x : File.VulnerabilitySource) : Json :=
  .mk [("name", x.name.map Json.str),
    ("url", x.url.map Json.str)]

/-- `VulnerabilitySource` from JSON (`specs/common/vulnerability_source.rs` 31-38). -/
def File.VulnerabilitySource.ofJson (j : Json) : Except String File.VulnerabilitySource := do
  let o ← j.fields
  let name' ← Json.opt o "name" Json.string
  let url' ← Json.opt o "url" Json.string
  .ok { name := name',
        url := url' }

/-- `VulnerabilityReference` as JSON (`specs/common/vulnerability_reference.rs` 84-90). -/
def File.VulnerabilityReference.toJson (x : File.VulnerabilityReference) : Json :=
  .mk [("id", some (Json.str x.id)),
    ("source", some (File.VulnerabilitySource.toJson x.vulnerabilitySource))]

/-- `VulnerabilityReference` from JSON (`specs/common/vulnerability_reference.rs` 84-90). -/
def File.VulnerabilityReference.ofJson (j : Json) : Except String File.VulnerabilityReference := do
  let o ← j.fields
  let id' ← Json.req o "id" Json.string
  let vulnerabilitySource' ← Json.req o "source" File.VulnerabilitySource.ofJson
  .ok { id := id',
        vulnerabilitySource := vulnerabilitySource' }

/-- `Advisory` as JSON (`specs/common/advisory.rs` 81-87). -/
def File.Advisory.toJson (x : File.Advisory) : Json :=
  .mk [("title", x.title.map Json.str),
    ("url", some (Json.str x.url))]

/-- `Advisory` from JSON (`specs/common/advisory.rs` 81-87). -/
def File.Advisory.ofJson (j : Json) : Except String File.Advisory := do
  let o ← j.fields
  let title' ← Json.opt o "title" Json.string
  let url' ← Json.req o "url" Json.string
  .ok { title := title',
        url := url' }

/-- `VulnerabilityCredits` as JSON (`specs/common/vulnerability_credits.rs` 33-40). -/
def File.VulnerabilityCredits.toJson (x : File.VulnerabilityCredits) : Json :=
  .mk [("organizations", x.organizations.map (Json.ofList File.OrganizationalEntity.toJson)),
    ("individuals", x.individuals.map (Json.ofList File.OrganizationalContact.toJson))]

/-- `VulnerabilityCredits` from JSON (`specs/common/vulnerability_credits.rs` 33-40). -/
def File.VulnerabilityCredits.ofJson (j : Json) : Except String File.VulnerabilityCredits := do
  let o ← j.fields
  let organizations' ← Json.opt o "organizations" (Json.array File.OrganizationalEntity.ofJson)
  let individuals' ← Json.opt o "individuals" (Json.array File.OrganizationalContact.ofJson)
  .ok { organizations := organizations',
        individuals := individuals' }

/-- `LicenseContact` as JSON (`specs/v1_5/licensing.rs` 93-97). -/
def File.LicenseContact.toJson : File.LicenseContact → Json
  | .organization y => .obj [("organization", File.OrganizationalEntity.toJson y)]
  | .individual y => .obj [("individual", File.OrganizationalContact.toJson y)]

/-- `LicenseContact` from JSON (`specs/v1_5/licensing.rs` 93-97). -/
def File.LicenseContact.ofJson : Json → Except String File.LicenseContact :=
  Json.tagged
  [("organization", fun j => (File.OrganizationalEntity.ofJson j).map .organization),
   ("individual", fun j => (File.OrganizationalContact.ofJson j).map .individual)]

/-- `Licensing` as JSON (`specs/v1_5/licensing.rs` 37-47). -/
def File.Licensing.toJson (x : File.Licensing) : Json :=
  .mk [("altIds", some (Json.orNull (Json.ofList Json.str) x.altIds)),
    ("licensor", some (Json.orNull File.LicenseContact.toJson x.licensor)),
    ("licensee", some (Json.orNull File.LicenseContact.toJson x.licensee)),
    ("purchaser", some (Json.orNull File.LicenseContact.toJson x.purchaser)),
    ("purchaseOrder", some (Json.orNull Json.str x.purchaseOrder)),
    ("licenseTypes", some (Json.orNull (Json.ofList Json.str) x.licenseTypes)),
    ("lastRenewal", some (Json.orNull Json.str x.lastRenewal)),
    ("expiration", some (Json.orNull Json.str x.expiration))]

/-- `Licensing` from JSON (`specs/v1_5/licensing.rs` 37-47). -/
def File.Licensing.ofJson (j : Json) : Except String File.Licensing := do
  let o ← j.fields
  let altIds' ← Json.opt o "altIds" (Json.array Json.string)
  let licensor' ← Json.opt o "licensor" File.LicenseContact.ofJson
  let licensee' ← Json.opt o "licensee" File.LicenseContact.ofJson
  let purchaser' ← Json.opt o "purchaser" File.LicenseContact.ofJson
  let purchaseOrder' ← Json.opt o "purchaseOrder" Json.string
  let licenseTypes' ← Json.opt o "licenseTypes" (Json.array Json.string)
  let lastRenewal' ← Json.opt o "lastRenewal" Json.string
  let expiration' ← Json.opt o "expiration" Json.string
  .ok { altIds := altIds',
        licensor := licensor',
        licensee := licensee',
        purchaser := purchaser',
        purchaseOrder := purchaseOrder',
        licenseTypes := licenseTypes',
        lastRenewal := lastRenewal',
        expiration := expiration' }

/-- The members that a flattened `LicenseIdentifier` adds to an object (`specs/common/license.rs` 413-419). -/
def File.LicenseIdentifier.toFields : File.LicenseIdentifier → List (String × Option Json)
  | .spdxId y => [("id", some (Json.str y))]
  | .name y => [("name", some (Json.str y))]

/-- A flattened `LicenseIdentifier` from the members of an object (`specs/common/license.rs` 413-419). -/
def File.LicenseIdentifier.ofFields (o : List (String × Json)) : Except String File.LicenseIdentifier :=
  Json.flatVariant o
  [("id", fun j => (Json.string j).map .spdxId),
   ("name", fun j => (Json.string j).map .name)]

/-- `License` as JSON (`specs/common/license.rs` 197-215).
Simplification: members of later versions come last; the order of members is not significant (C80). -/
def File.License.toJson {v : SpecVersion} (x : File.License v) : Json :=
  .mk (File.LicenseIdentifier.toFields x.licenseIdentifier ++
    [("text", x.text.map File.AttachedText.toJson),
    ("url", x.url.map Json.str)] ++
    since15 v [("bomRef", (Since15.get v x.bomRef).map Json.str),
    ("licensing", (Since15.get v x.licensing).map File.Licensing.toJson),
    ("properties", (Since15.get v x.properties).map (Json.ofList File.Property.toJson))] [])

/-- `License` from JSON (`specs/common/license.rs` 197-215). -/
def File.License.ofJson (v : SpecVersion) (j : Json) : Except String (File.License v) := do
  let o ← j.fields
  let bomRef' ← Since15.tryPut v (Json.opt o "bomRef" Json.string)
  let licenseIdentifier' ← File.LicenseIdentifier.ofFields o
  let text' ← Json.opt o "text" File.AttachedText.ofJson
  let url' ← Json.opt o "url" Json.string
  let licensing' ← Since15.tryPut v (Json.opt o "licensing" File.Licensing.ofJson)
  let properties' ← Since15.tryPut v (Json.opt o "properties" (Json.array File.Property.ofJson))
  .ok { bomRef := bomRef',
        licenseIdentifier := licenseIdentifier',
        text := text',
        url := url',
        licensing := licensing',
        properties := properties' }

/-- `SpdxExpression` as JSON (`specs/common/license.rs` 504-510). -/
def File.SpdxExpression.toJson (x : File.SpdxExpression) : Json :=
  .mk [("bomRef", x.bomRef.map Json.str),
    ("expression", some (Json.str x.expression))]

/-- `SpdxExpression` from JSON (`specs/common/license.rs` 504-510). -/
def File.SpdxExpression.ofJson (j : Json) : Except String File.SpdxExpression := do
  let o ← j.fields
  let bomRef' ← Json.opt o "bomRef" Json.string
  let expression' ← Json.req o "expression" Json.string
  .ok { bomRef := bomRef',
        expression := expression' }

/-- `LicenseChoice` as JSON (`specs/common/license.rs` 121-128): a license is
tagged, an expression is not. -/
def File.LicenseChoice.toJson {v : SpecVersion} : File.LicenseChoice v → Json
  | .license l => .obj [("license", File.License.toJson l)]
  | .expression e => File.SpdxExpression.toJson e

/-- `LicenseChoice` from JSON (`specs/common/license.rs` 121-128): what cannot
be read as the tagged variant is read as the untagged one. -/
def File.LicenseChoice.ofJson (v : SpecVersion) (j : Json) : Except String (File.LicenseChoice v) :=
  match Json.tagged [("license", fun j => (File.License.ofJson v j).map .license)] j with
  | .ok x => .ok x
  | .error _ => (File.SpdxExpression.ofJson j).map .expression

/-- `Algorithm` as JSON (`specs/common/signature.rs` 197-214): an externally
tagged enumeration. -/
def File.Algorithm.toJson (a : Cdx.Algorithm) : Json :=
  match a with
  | .unknown s => .obj [("Unknown", .str s)]
  | b => .str b.display

/-- `Algorithm` from JSON (`specs/common/signature.rs` 197-214): the name of a
known algorithm, also as the key of a `null` member, or `Unknown` with a string. All errors
for objects are the same here. -/
def File.Algorithm.ofJson : Json → Except String Cdx.Algorithm
  | .str s =>
    match Algorithm.new s with
    | .unknown _ => .error "unknown variant"
    | b => .ok b
  | .obj [("Unknown", .str s)] => .ok (.unknown s)
  | .obj [(k, .null)] =>
    match Algorithm.new k with
    | .unknown _ => .error "invalid algorithm"
    | b => .ok b
  | _ => .error "invalid algorithm"

/-- `Signer` as JSON (`specs/common/signature.rs` 31-38). -/
def File.Signer.toJson (x : File.Signer) : Json :=
  .mk [("algorithm", some (File.Algorithm.toJson x.algorithm)),
    ("value", some (Json.str x.value))]

/-- `Signer` from JSON (`specs/common/signature.rs` 31-38). -/
def File.Signer.ofJson (j : Json) : Except String File.Signer := do
  let o ← j.fields
  let algorithm' ← Json.req o "algorithm" File.Algorithm.ofJson
  let value' ← Json.req o "value" Json.string
  .ok { algorithm := algorithm',
        value := value' }

/-- `Signature` as JSON (`specs/common/signature.rs` 112-121). -/
def File.Signature.toJson : File.Signature → Json
  | .signers l => Json.ofList File.Signer.toJson l
  | .chain l => Json.ofList File.Signer.toJson l
  | .single s => File.Signer.toJson s

/-- `Signature` from JSON (`specs/common/signature.rs` 112-121): the variants
are tried in order, so that an array is always a list of signers. -/
def File.Signature.ofJson (j : Json) : Except String File.Signature :=
  match Json.array File.Signer.ofJson j with
  | .ok l => .ok (.signers l)
  | .error _ =>
    match Json.array File.Signer.ofJson j with
    | .ok l => .ok (.chain l)
    | .error _ => (File.Signer.ofJson j).map .single

/-- `Dependency` as JSON (`specs/common/dependency.rs` 78-85). -/
def File.Dependency.toJson (x : File.Dependency) : Json :=
  .mk [("ref", some (Json.str x.dependencyRef)),
    ("dependsOn", Json.unlessEmpty Json.str x.dependsOn)]

/-- `Dependency` from JSON (`specs/common/dependency.rs` 78-85). -/
def File.Dependency.ofJson (j : Json) : Except String File.Dependency := do
  let o ← j.fields
  let dependencyRef' ← Json.req o "ref" Json.string
  let dependencies' ← Json.orEmpty o "dependsOn" Json.string
  .ok { dependencyRef := dependencyRef',
        dependsOn := dependencies' }

/-- `Composition` as JSON (`specs/common/composition.rs` 88-105).
Simplification: members of later versions come last; the order of members is not significant (C80). -/
def File.Composition.toJson {v : SpecVersion} (x : File.Composition v) : Json :=
  .mk ([("aggregate", some (Json.str x.aggregate)),
    ("assemblies", x.assemblies.map (Json.ofList Json.str)),
    ("dependencies", x.dependencies.map (Json.ofList Json.str))] ++
    since14 v [("signature", (Since14.get v x.signature).map File.Signature.toJson)] [] ++
    since15 v [("bomRef", (Since15.get v x.bomRef).map Json.str),
    ("vulnerabilities", (Since15.get v x.vulnerabilities).map (Json.ofList Json.str))] [])

/-- `Composition` from JSON (`specs/common/composition.rs` 88-105). -/
def File.Composition.ofJson (v : SpecVersion) (j : Json) : Except String (File.Composition v) := do
  let o ← j.fields
  let bomRef' ← Since15.tryPut v (Json.opt o "bomRef" Json.string)
  let aggregate' ← Json.req o "aggregate" Json.string
  let assemblies' ← Json.opt o "assemblies" (Json.array Json.string)
  let dependencies' ← Json.opt o "dependencies" (Json.array Json.string)
  let vulnerabilities' ← Since15.tryPut v (Json.opt o "vulnerabilities" (Json.array Json.string))
  let signature' ← Since14.tryPut v (Json.opt o "signature" File.Signature.ofJson)
  .ok { bomRef := bomRef',
        aggregate := aggregate',
        assemblies := assemblies',
        dependencies := dependencies',
        vulnerabilities := vulnerabilities',
        signature := signature' }

/-- `IdentifiableAction` as JSON (`specs/common/code.rs` 234-243). -/
def File.IdentifiableAction.toJson (x : File.IdentifiableAction) : Json :=
  .mk [("timestamp", x.timestamp.map Json.str),
    ("name", x.name.map Json.str),
    ("email", x.email.map Json.str)]

/-- `IdentifiableAction` from JSON (`specs/common/code.rs` 234-243). -/
def File.IdentifiableAction.ofJson (j : Json) : Except String File.IdentifiableAction := do
  let o ← j.fields
  let timestamp' ← Json.opt o "timestamp" Json.string
  let name' ← Json.opt o "name" Json.string
  let email' ← Json.opt o "email" Json.string
  .ok { timestamp := timestamp',
        name := name',
        email := email' }

/-- `Commit` as JSON (`specs/common/code.rs` 85-98). -/
def File.Commit.toJson (x : File.Commit) : Json :=
  .mk [("uid", x.uid.map Json.str),
    ("url", x.url.map Json.str),
    ("author", x.author.map File.IdentifiableAction.toJson),
    ("committer", x.committer.map File.IdentifiableAction.toJson),
    ("message", x.message.map Json.str)]

/-- `Commit` from JSON (`specs/common/code.rs` 85-98). -/
def File.Commit.ofJson (j : Json) : Except String File.Commit := do
  let o ← j.fields
  let uid' ← Json.opt o "uid" Json.string
  let url' ← Json.opt o "url" Json.string
  let author' ← Json.opt o "author" File.IdentifiableAction.ofJson
  let committer' ← Json.opt o "committer" File.IdentifiableAction.ofJson
  let message' ← Json.opt o "message" Json.string
  .ok { uid := uid',
        url := url',
        author := author',
        committer := committer',
        message := message' }

/-- `Diff` as JSON (`specs/common/code.rs` 513-520). -/
def File.Diff.toJson (x : File.Diff) : Json :=
  .mk [("text", x.text.map File.AttachedText.toJson),
    ("url", x.url.map Json.str)]

/-- `Diff` from JSON (`specs/common/code.rs` 513-520). -/
def File.Diff.ofJson (j : Json) : Except String File.Diff := do
  let o ← j.fields
  let text' ← Json.opt o "text" File.AttachedText.ofJson
  let url' ← Json.opt o "url" Json.string
  .ok { text := text',
        url := url' }

/-- `Source` as JSON (`specs/common/code.rs` 779-786). -/
def File.Source.toJson (x : File.Source) : Json :=
  .mk [("name", x.name.map Json.str),
    ("url", x.url.map Json.str)]

/-- `Source` from JSON (`specs/common/code.rs` 779-786). -/
def File.Source.ofJson (j : Json) : Except String File.Source := do
  let o ← j.fields
  let name' ← Json.opt o "name" Json.string
  let url' ← Json.opt o "url" Json.string
  .ok { name := name',
        url := url' }

/-- `Issue` as JSON (`specs/common/code.rs` 615-630). -/
def File.Issue.toJson (x : File.Issue) : Json :=
  .mk [("type", some (Json.str x.issueType)),
    ("id", x.id.map Json.str),
    ("name", x.name.map Json.str),
    ("description", x.description.map Json.str),
    ("source", x.source.map File.Source.toJson),
    ("references", x.references.map (Json.ofList Json.str))]

/-- `Issue` from JSON (`specs/common/code.rs` 615-630). -/
def File.Issue.ofJson (j : Json) : Except String File.Issue := do
  let o ← j.fields
  let issueType' ← Json.req o "type" Json.string
  let id' ← Json.opt o "id" Json.string
  let name' ← Json.opt o "name" Json.string
  let description' ← Json.opt o "description" Json.string
  let source' ← Json.opt o "source" File.Source.ofJson
  let references' ← Json.opt o "references" (Json.array Json.string)
  .ok { issueType := issueType',
        id := id',
        name := name',
        description := description',
        source := source',
        references := references' }

/-- `Patch` as JSON (`specs/common/code.rs` 397-406). -/
def File.Patch.toJson (x : File.Patch) : Json :=
  .mk [("type", some (Json.str x.patchType)),
    ("diff", x.diff.map File.Diff.toJson),
    ("resolves", x.resolves.map (Json.ofList File.Issue.toJson))]

/-- `Patch` from JSON (`specs/common/code.rs` 397-406). -/
def File.Patch.ofJson (j : Json) : Except String File.Patch := do
  let o ← j.fields
  let patchType' ← Json.req o "type" Json.string
  let diff' ← Json.opt o "diff" File.Diff.ofJson
  let resolves' ← Json.opt o "resolves" (Json.array File.Issue.ofJson)
  .ok { patchType := patchType',
        diff := diff',
        resolves := resolves' }

/-- `VulnerabilityAnalysis` as JSON (`specs/common/vulnerability_analysis.rs` 39-56, 240-287). -/
def File.VulnerabilityAnalysis.toJson {v : SpecVersion} (x : File.VulnerabilityAnalysis v) : Json :=
  .mk ([("state", x.state.map Json.str),
    ("justification", x.justification.map Json.str),
    ("responses", x.responses.map (Json.ofList Json.str)),
    ("detail", x.detail.map Json.str)] ++
    since15 v [("firstIssued", (Since15.get v x.firstIssued).map Json.str),
    ("lastUpdated", (Since15.get v x.lastUpdated).map Json.str)] [])

/-- `VulnerabilityAnalysis` from JSON (`specs/common/vulnerability_analysis.rs` 39-56, 240-287). -/
def File.VulnerabilityAnalysis.ofJson (v : SpecVersion) (j : Json) : Except String (File.VulnerabilityAnalysis v) := do
  let o ← j.fields
  let state' ← Json.opt o "state" Json.string
  let justification' ← Json.opt o "justification" Json.string
  let responses' ← Json.opt o "responses" (Json.array Json.string)
  let detail' ← Json.opt o "detail" Json.string
  let firstIssued' ← Since15.tryPut v (Json.opt o "firstIssued" Json.string)
  let lastUpdated' ← Since15.tryPut v (Json.opt o "lastUpdated" Json.string)
  .ok { state := state',
        justification := justification',
        responses := responses',
        detail := detail',
        firstIssued := firstIssued',
        lastUpdated := lastUpdated' }

/-- The members that a flattened `VersionRange` adds to an object (`specs/common/vulnerability_target.rs` 342-349). -/
def File.VersionRange.toFields : File.VersionRange → List (String × Option Json)
  | .version y => [("version", some (Json.str y))]
  | .range y => [("range", some (Json.str y))]
  | .undefinedVersionRange y => [("undefinedVersionRange", some (Json.str y))]

/-- A flattened `VersionRange` from the members of an object (`specs/common/vulnerability_target.rs` 342-349). -/
def File.VersionRange.ofFields (o : List (String × Json)) : Except String File.VersionRange :=
  Json.flatVariant o
  [("range", fun j => (Json.string j).map .range),
   ("undefinedVersionRange", fun j => (Json.string j).map .undefinedVersionRange),
   ("version", fun j => (Json.string j).map .version)]

/-- `TargetVersion` as JSON (`specs/common/vulnerability_target.rs` 239-245, 412-435). -/
def File.TargetVersion.toJson (x : File.TargetVersion) : Json :=
  .mk (File.VersionRange.toFields x.versionRange ++
    [("status", some (Json.str x.status))])

/-- `TargetVersion` from JSON (`specs/common/vulnerability_target.rs` 239-245, 412-435). -/
def File.TargetVersion.ofJson (j : Json) : Except String File.TargetVersion := do
  let o ← j.fields
  let versionRange' ← File.VersionRange.ofFields o
  let status' ← Json.req o "status" Json.string
  .ok { versionRange := versionRange',
        status := status' }

/-- `VulnerabilityTarget` as JSON (`specs/common/vulnerability_target.rs` 82-89, 191-205). -/
def File.VulnerabilityTarget.toJson (x : File.VulnerabilityTarget) : Json :=
  .mk [("ref", some (Json.str x.bomRef)),
    ("versions", x.versions.map (Json.ofList File.TargetVersion.toJson))]

/-- `VulnerabilityTarget` from JSON (`specs/common/vulnerability_target.rs` 82-89, 191-205). -/
def File.VulnerabilityTarget.ofJson (j : Json) : Except String File.VulnerabilityTarget := do
  let o ← j.fields
  let bomRef' ← Json.req o "ref" Json.string
  let versions' ← Json.opt o "versions" (Json.array File.TargetVersion.ofJson)
  .ok { bomRef := bomRef',
        versions := versions' }

/-- `DataGovernanceResponsibleParty` as JSON (`specs/v1_5/data_governance.rs` 166-169). -/
def File.DataGovernanceResponsibleParty.toJson : File.DataGovernanceResponsibleParty → Json
  | .organization y => .obj [("Organization", File.OrganizationalEntity.toJson y)]
  | .contact y => .obj [("Contact", File.OrganizationalContact.toJson y)]

/-- `DataGovernanceResponsibleParty` from JSON (`specs/v1_5/data_governance.rs` 166-169). -/
def File.DataGovernanceResponsibleParty.ofJson : Json → Except String File.DataGovernanceResponsibleParty :=
  Json.tagged
  [("Organization", fun j => (File.OrganizationalEntity.ofJson j).map .organization),
   ("Contact", fun j => (File.OrganizationalContact.ofJson j).map .contact)]

/-- `DataGovernance` as JSON (`specs/v1_5/data_governance.rs` 35-42). -/
def File.DataGovernance.toJson (x : File.DataGovernance) : Json :=
  .mk [("custodians", x.custodians.map (Json.ofList File.DataGovernanceResponsibleParty.toJson)),
    ("stewards", x.stewards.map (Json.ofList File.DataGovernanceResponsibleParty.toJson)),
    ("owners", x.owners.map (Json.ofList File.DataGovernanceResponsibleParty.toJson))]

/-- `DataGovernance` from JSON (`specs/v1_5/data_governance.rs` 35-42). -/
def File.DataGovernance.ofJson (j : Json) : Except String File.DataGovernance := do
  let o ← j.fields
  let custodians' ← Json.opt o "custodians" (Json.array File.DataGovernanceResponsibleParty.ofJson)
  let stewards' ← Json.opt o "stewards" (Json.array File.DataGovernanceResponsibleParty.ofJson)
  let owners' ← Json.opt o "owners" (Json.array File.DataGovernanceResponsibleParty.ofJson)
  .ok { custodians := custodians',
        stewards := stewards',
        owners := owners' }

/-- `Attachment` as JSON (`specs/v1_5/attachment.rs` 38-45). -/
def File.Attachment.toJson (x : File.Attachment) : Json :=
  .mk [("content", some (Json.str x.content)),
    ("contentType", x.contentType.map Json.str),
    ("encoding", x.encoding.map Json.str)]

/-- `Attachment` from JSON (`specs/v1_5/attachment.rs` 38-45). -/
def File.Attachment.ofJson (j : Json) : Except String File.Attachment := do
  let o ← j.fields
  let content' ← Json.req o "content" Json.string
  let contentType' ← Json.opt o "contentType" Json.string
  let encoding' ← Json.opt o "encoding" Json.string
  .ok { content := content',
        contentType := contentType',
        encoding := encoding' }

/-- `Graphic` as JSON (`specs/v1_5/component_data.rs` 581-586). -/
def File.Graphic.toJson (x : File.Graphic) : Json :=
  .mk [("name", x.name.map Json.str),
    ("image", x.image.map File.Attachment.toJson)]

/-- `Graphic` from JSON (`specs/v1_5/component_data.rs` 581-586). -/
def File.Graphic.ofJson (j : Json) : Except String File.Graphic := do
  let o ← j.fields
  let name' ← Json.opt o "name" Json.string
  let image' ← Json.opt o "image" File.Attachment.ofJson
  .ok { name := name',
        image := image' }

/-- `GraphicsCollection` as JSON (`specs/v1_5/component_data.rs` 406-411, 507). -/
def File.GraphicsCollection.toJson (x : File.GraphicsCollection) : Json :=
  .mk [("description", x.description.map Json.str),
    ("collection", x.collection.map (Json.ofList File.Graphic.toJson))]

/-- `GraphicsCollection` from JSON (`specs/v1_5/component_data.rs` 406-411, 507). -/
def File.GraphicsCollection.ofJson (j : Json) : Except String File.GraphicsCollection := do
  let o ← j.fields
  let description' ← Json.opt o "description" Json.string
  let collection' ← Json.opt o "collection" (Json.array File.Graphic.ofJson)
  .ok { description := description',
        collection := collection' }

/-- `DataContents` as JSON (`specs/v1_5/component_data.rs` 283-291). -/
def File.DataContents.toJson (x : File.DataContents) : Json :=
  .mk [("attachment", x.attachment.map File.Attachment.toJson),
    ("url", x.url.map Json.str),
    ("properties", x.properties.map (Json.ofList File.Property.toJson))]

/-- `DataContents` from JSON (`specs/v1_5/component_data.rs` 283-291). -/
def File.DataContents.ofJson (j : Json) : Except String File.DataContents := do
  let o ← j.fields
  let attachment' ← Json.opt o "attachment" File.Attachment.ofJson
  let url' ← Json.opt o "url" Json.string
  let properties' ← Json.opt o "properties" (Json.array File.Property.ofJson)
  .ok { attachment := attachment',
        url := url',
        properties := properties' }

/-- `ComponentData` as JSON (`specs/v1_5/component_data.rs` 47-69). -/
def File.ComponentData.toJson (x : File.ComponentData) : Json :=
  .mk [("bomRef", x.bomRef.map Json.str),
    ("type", some (Json.str x.dataType)),
    ("name", x.name.map Json.str),
    ("contents", x.contents.map File.DataContents.toJson),
    ("classification", x.classification.map Json.str),
    ("sensitiveData", x.sensitiveData.map Json.str),
    ("graphics", x.graphics.map File.GraphicsCollection.toJson),
    ("description", x.description.map Json.str),
    ("governance", x.governance.map File.DataGovernance.toJson)]

/-- `ComponentData` from JSON (`specs/v1_5/component_data.rs` 47-69). -/
def File.ComponentData.ofJson (j : Json) : Except String File.ComponentData := do
  let o ← j.fields
  let bomRef' ← Json.opt o "bomRef" Json.string
  let dataType' ← Json.req o "type" Json.string
  let name' ← Json.opt o "name" Json.string
  let contents' ← Json.opt o "contents" File.DataContents.ofJson
  let classification' ← Json.opt o "classification" Json.string
  let sensitiveData' ← Json.opt o "sensitiveData" Json.string
  let graphics' ← Json.opt o "graphics" File.GraphicsCollection.ofJson
  let description' ← Json.opt o "description" Json.string
  let governance' ← Json.opt o "governance" File.DataGovernance.ofJson
  .ok { bomRef := bomRef',
        dataType := dataType',
        name := name',
        contents := contents',
        classification := classification',
        sensitiveData := sensitiveData',
        graphics := graphics',
        description := description',
        governance := governance' }

/-- `ModelParametersApproach` as JSON (`specs/v1_5/modelcard.rs` 367-371). -/
def File.ModelParametersApproach.toJson (x : File.ModelParametersApproach) : Json :=
  .mk [("type", x.approachType.map Json.str)]

/-- `ModelParametersApproach` from JSON (`specs/v1_5/modelcard.rs` 367-371). -/
def File.ModelParametersApproach.ofJson (j : Json) : Except String File.ModelParametersApproach := do
  let o ← j.fields
  let approachType' ← Json.opt o "type" Json.string
  .ok { approachType := approachType' }

/-- `Dataset` as JSON (`specs/v1_5/modelcard.rs` 514-518). -/
def File.Dataset.toJson : File.Dataset → Json
  | .component y => File.ComponentData.toJson y
  | .reference r => .str r

/-- `Dataset` from JSON (`specs/v1_5/modelcard.rs` 514-518): the first variant
that can be read. -/
def File.Dataset.ofJson (j : Json) : Except String File.Dataset :=
  match File.ComponentData.ofJson j with
  | .ok y => .ok (.component y)
  | .error _ => j.string.map .reference

/-- `MLParameter` as JSON (`specs/v1_5/modelcard.rs` 1165-1168). -/
def File.MLParameter.toJson (x : File.MLParameter) : Json :=
  .mk [("format", x.format.map Json.str)]

/-- `MLParameter` from JSON (`specs/v1_5/modelcard.rs` 1165-1168). -/
def File.MLParameter.ofJson (j : Json) : Except String File.MLParameter := do
  let o ← j.fields
  let format' ← Json.opt o "format" Json.string
  .ok { format := format' }

/-- `ModelParameters` as JSON (`specs/v1_5/modelcard.rs` 177-193, 444-445, 1021, 1093). -/
def File.ModelParameters.toJson (x : File.ModelParameters) : Json :=
  .mk [("approach", x.approach.map File.ModelParametersApproach.toJson),
    ("task", x.task.map Json.str),
    ("architectureFamily", x.architectureFamily.map Json.str),
    ("modelArchitecture", x.modelArchitecture.map Json.str),
    ("datasets", x.datasets.map (Json.ofList File.Dataset.toJson)),
    ("inputs", x.inputs.map (Json.ofList File.MLParameter.toJson)),
    ("outputs", x.outputs.map (Json.ofList File.MLParameter.toJson))]

/-- `ModelParameters` from JSON (`specs/v1_5/modelcard.rs` 177-193, 444-445, 1021, 1093). -/
def File.ModelParameters.ofJson (j : Json) : Except String File.ModelParameters := do
  let o ← j.fields
  let approach' ← Json.opt o "approach" File.ModelParametersApproach.ofJson
  let task' ← Json.opt o "task" Json.string
  let architectureFamily' ← Json.opt o "architectureFamily" Json.string
  let modelArchitecture' ← Json.opt o "modelArchitecture" Json.string
  let datasets' ← Json.opt o "datasets" (Json.array File.Dataset.ofJson)
  let inputs' ← Json.opt o "inputs" (Json.array File.MLParameter.ofJson)
  let outputs' ← Json.opt o "outputs" (Json.array File.MLParameter.ofJson)
  .ok { approach := approach',
        task := task',
        architectureFamily := architectureFamily',
        modelArchitecture := modelArchitecture',
        datasets := datasets',
        inputs := inputs',
        outputs := outputs' }

/-- `ConfidenceInterval` as JSON (`specs/v1_5/modelcard.rs` 891-897). -/
def File.ConfidenceInterval.toJson (x : File.ConfidenceInterval) : Json :=
  .mk [("lowerBound", x.lowerBound.map Json.str),
    ("upperBound", x.upperBound.map Json.str)]

/-- `ConfidenceInterval` from JSON (`specs/v1_5/modelcard.rs` 891-897). -/
def File.ConfidenceInterval.ofJson (j : Json) : Except String File.ConfidenceInterval := do
  let o ← j.fields
  let lowerBound' ← Json.opt o "lowerBound" Json.string
  let upperBound' ← Json.opt o "upperBound" Json.string
  .ok { lowerBound := lowerBound',
        upperBound := upperBound' }

/-- `PerformanceMetric` as JSON (`specs/v1_5/modelcard.rs` 764-773). -/
def File.PerformanceMetric.toJson (x : File.PerformanceMetric) : Json :=
  .mk [("type", x.metricType.map Json.str),
    ("value", x.value.map Json.str),
    ("slice", x.slice.map Json.str),
    ("confidence_interval", x.confidenceInterval.map File.ConfidenceInterval.toJson)]

/-- `PerformanceMetric` from JSON (`specs/v1_5/modelcard.rs` 764-773). -/
def File.PerformanceMetric.ofJson (j : Json) : Except String File.PerformanceMetric := do
  let o ← j.fields
  let metricType' ← Json.opt o "type" Json.string
  let value' ← Json.opt o "value" Json.string
  let slice' ← Json.opt o "slice" Json.string
  let confidenceInterval' ← Json.opt o "confidence_interval" File.ConfidenceInterval.ofJson
  .ok { metricType := metricType',
        value := value',
        slice := slice',
        confidenceInterval := confidenceInterval' }

/-- `QuantitativeAnalysis` as JSON (`specs/v1_5/modelcard.rs` 585-591, 691-692). -/
def File.QuantitativeAnalysis.toJson (x : File.QuantitativeAnalysis) : Json :=
  .mk [("performanceMetrics", x.performanceMetrics.map (Json.ofList File.PerformanceMetric.toJson)),
    ("graphics", x.graphics.map File.GraphicsCollection.toJson)]

/-- `QuantitativeAnalysis` from JSON (`specs/v1_5/modelcard.rs` 585-591, 691-692). -/
def File.QuantitativeAnalysis.ofJson (j : Json) : Except String File.QuantitativeAnalysis := do
  let o ← j.fields
  let performanceMetrics' ← Json.opt o "performanceMetrics" (Json.array File.PerformanceMetric.ofJson)
  let graphics' ← Json.opt o "graphics" File.GraphicsCollection.ofJson
  .ok { performanceMetrics := performanceMetrics',
        graphics := graphics' }

/-- `Considerations` as JSON (`specs/v1_5/modelcard.rs` 988-989). -/
def File.Considerations.toJson (_ : File.Considerations) : Json := .obj []

/-- `Considerations` from JSON (`specs/v1_5/modelcard.rs` 988-989). -/
def File.Considerations.ofJson (j : Json) : Except String File.Considerations := j.fields.map fun _ => {}

/-- `ModelCard` as JSON (`specs/v1_5/modelcard.rs` 41-53). -/
def File.ModelCard.toJson (x : File.ModelCard) : Json :=
  .mk [("bomRef", x.bomRef.map Json.str),
    ("modelParameters", x.modelParameters.map File.ModelParameters.toJson),
    ("quantitativeAnalysis", x.quantitativeAnalysis.map File.QuantitativeAnalysis.toJson),
    ("considerations", x.considerations.map File.Considerations.toJson),
    ("properties", x.properties.map (Json.ofList File.Property.toJson))]

/-- `ModelCard` from JSON (`specs/v1_5/modelcard.rs` 41-53). -/
def File.ModelCard.ofJson (j : Json) : Except String File.ModelCard := do
  let o ← j.fields
  let bomRef' ← Json.opt o "bomRef" Json.string
  let modelParameters' ← Json.opt o "modelParameters" File.ModelParameters.ofJson
  let quantitativeAnalysis' ← Json.opt o "quantitativeAnalysis" File.QuantitativeAnalysis.ofJson
  let considerations' ← Json.opt o "considerations" File.Considerations.ofJson
  let properties' ← Json.opt o "properties" (Json.array File.Property.ofJson)
  .ok { bomRef := bomRef',
        modelParameters := modelParameters',
        quantitativeAnalysis := quantitativeAnalysis',
        considerations := considerations',
        properties := properties' }

/-- `VulnerabilityProofOfConcept` as JSON (`specs/v1_5/proof_of_concept.rs` 34-42). -/
def File.VulnerabilityProofOfConcept.toJson (x : File.VulnerabilityProofOfConcept) : Json :=
  .mk [("reproductionSteps", x.reproductionSteps.map Json.str),
    ("environment", x.environment.map Json.str),
    ("supportingMaterial", x.supportingMaterial.map (Json.ofList File.Attachment.toJson))]

/-- `VulnerabilityProofOfConcept` from JSON (`specs/v1_5/proof_of_concept.rs` 34-42). -/
def File.VulnerabilityProofOfConcept.ofJson (j : Json) : Except String File.VulnerabilityProofOfConcept := do
  let o ← j.fields
  let reproductionSteps' ← Json.opt o "reproductionSteps" Json.string
  let environment' ← Json.opt o "environment" Json.string
  let supportingMaterial' ← Json.opt o "supportingMaterial" (Json.array File.Attachment.ofJson)
  .ok { reproductionSteps := reproductionSteps',
        environment := environment',
        supportingMaterial := supportingMaterial' }

/-- `DataClassification` as JSON (`specs/common/service.rs` 701-706). -/
def File.DataClassification.toJson (x : File.DataClassification) : Json :=
  .mk [("flow", some (Json.str x.flow)),
    ("classification", some (Json.str x.classification))]

/-- `DataClassification` from JSON (`specs/common/service.rs` 701-706). -/
def File.DataClassification.ofJson (j : Json) : Except String File.DataClassification := do
  let o ← j.fields
  let flow' ← Json.req o "flow" Json.string
  let classification' ← Json.req o "classification" Json.string
  .ok { flow := flow',
        classification := classification' }

/-- `ServiceData` as JSON (`specs/v1_5/service_data.rs` 37-51), with the members
of the flattened classification. -/
def File.ServiceData.toJson (x : File.ServiceData) : Json :=
  .mk [("name", x.name.map Json.str),
    ("description", x.description.map Json.str),
    ("flow", some (Json.str x.classification.flow)),
    ("classification", some (Json.str x.classification.classification)),
    ("governance", x.governance.map File.DataGovernance.toJson),
    ("source", x.source.map (Json.ofList Json.str)),
    ("destination", x.destination.map (Json.ofList Json.str))]

/-- `ServiceData` from JSON (`specs/v1_5/service_data.rs` 37-51). -/
def File.ServiceData.ofJson (j : Json) : Except String File.ServiceData := do
  let o ← j.fields
  let name' ← Json.opt o "name" Json.string
  let description' ← Json.opt o "description" Json.string
  let classification' ← File.DataClassification.ofJson (.obj o)
  let governance' ← Json.opt o "governance" File.DataGovernance.ofJson
  let source' ← Json.opt o "source" (Json.array Json.string)
  let destination' ← Json.opt o "destination" (Json.array Json.string)
  .ok { name := name',
        description := description',
        classification := classification',
        governance := governance',
        source := source',
        destination := destination' }

/-- `Data` as JSON (`specs/common/service.rs` 540-548): before version 1.5, only
the classifications of data flows are written. -/
def File.ServiceDataChoice.toJson {v : SpecVersion} : File.ServiceDataChoice v → Json
  | .classification l => Json.ofList File.DataClassification.toJson l
  | .serviceData _ l => Json.ofList File.ServiceData.toJson l

/-- `Data` from JSON (`specs/common/service.rs` 540-548): the first variant that
can be read. -/
def File.ServiceDataChoice.ofJson (v : SpecVersion) (j : Json) : Except String (File.ServiceDataChoice v) :=
  match Json.array File.DataClassification.ofJson j with
  | .ok l => .ok (.classification l)
  | .error e =>
    match v with
    | .v1_3 => .error e
    | .v1_4 => .error e
    | .v1_5 => (Json.array File.ServiceData.ofJson j).map (.serviceData rfl)

/-- `Swid` as JSON (`specs/common/component.rs` 694-709). -/
def File.Swid.toJson (x : File.Swid) : Json :=
  .mk [("tagId", some (Json.str x.tagId)),
    ("name", some (Json.str x.name)),
    ("version", x.version.map Json.str),
    ("tagVersion", x.tagVersion.map Json.nat),
    ("patch", x.patch.map Json.bool),
    ("text", x.text.map File.AttachedText.toJson),
    ("url", x.url.map Json.str)]

/-- `Swid` from JSON (`specs/common/component.rs` 694-709). -/
def File.Swid.ofJson (j : Json) : Except String File.Swid := do
  let o ← j.fields
  let tagId' ← Json.req o "tagId" Json.string
  let name' ← Json.req o "name" Json.string
  let version' ← Json.opt o "version" Json.string
  let tagVersion' ← Json.opt o "tagVersion" Json.u32
  let patch' ← Json.opt o "patch" Json.boolean
  let text' ← Json.opt o "text" File.AttachedText.ofJson
  let url' ← Json.opt o "url" Json.string
  .ok { tagId := tagId',
        name := name',
        version := version',
        tagVersion := tagVersion',
        patch := patch',
        text := text',
        url := url' }

/-- `LifecycleDescription` as JSON (`specs/v1_5/lifecycles.rs` 218-223). -/
def File.LifecycleDescription.toJson (x : File.LifecycleDescription) : Json :=
  .mk [("name", some (Json.str x.name)),
    ("description", x.description.map Json.str)]

/-- `LifecycleDescription` from JSON (`specs/v1_5/lifecycles.rs` 218-223). -/
def File.LifecycleDescription.ofJson (j : Json) : Except String File.LifecycleDescription := do
  let o ← j.fields
  let name' ← Json.req o "name" Json.string
  let description' ← Json.opt o "description" Json.string
  .ok { name := name',
        description := description' }

/-- `Lifecycle` as JSON (`specs/v1_5/lifecycles.rs` 88-94, 195-196): a phase is
tagged, a description is not. -/
def File.Lifecycle.toJson : File.Lifecycle → Json
  | .phase p => .obj [("phase", .str p)]
  | .description d => File.LifecycleDescription.toJson d

/-- `Lifecycle` from JSON (`specs/v1_5/lifecycles.rs` 88-94, 195-196). -/
def File.Lifecycle.ofJson (j : Json) : Except String File.Lifecycle :=
  match Json.tagged [("phase", fun j => (Json.string j).map .phase)] j with
  | .ok x => .ok x
  | .error _ => (File.LifecycleDescription.ofJson j).map .description

mutual

/-- An optional list of `Service`s as JSON. -/
def File.Service.toJsonOpt {v : SpecVersion} : Option (List (File.Service v)) → Option Json
  | none => none
  | some l => some (.arr (File.Service.toJsonAll l))
termination_by structural l => l

/-- A list of `Service`s as JSON. -/
def File.Service.toJsonAll {v : SpecVersion} : List (File.Service v) → List Json
  | [] => []
  | x :: l => File.Service.toJson x :: File.Service.toJsonAll l
termination_by structural l => l

/-- `Service` as JSON (`specs/common/service.rs` 113-149). -/
def File.Service.toJson {v : SpecVersion} : File.Service v → Json
  | ⟨bomRef, provider, group, name, version, description, endpoints, authenticated, xTrustBoundary, data, licenses, externalReferences, properties, services, signature, trustZone⟩ =>
  .mk ([("bom-ref", bomRef.map Json.str),
    ("provider", provider.map File.OrganizationalEntity.toJson),
    ("group", group.map Json.str),
    ("name", some (Json.str name)),
    ("version", version.map Json.str),
    ("description", description.map Json.str),
    ("endpoints", endpoints.map (Json.ofList Json.str)),
    ("authenticated", authenticated.map Json.bool),
    ("x-trust-boundary", xTrustBoundary.map Json.bool),
    ("data", data.map File.ServiceDataChoice.toJson),
    ("licenses", licenses.map (Json.ofList File.LicenseChoice.toJson)),
    ("externalReferences", externalReferences.map (Json.ofList File.ExternalReference.toJson)),
    ("properties", properties.map (Json.ofList File.Property.toJson)),
    ("services", File.Service.toJsonOpt services)] ++
    since14 v [("signature", (Since14.get v signature).map File.Signature.toJson)] [] ++
    since15 v [("trustZone", (Since15.get v trustZone).map Json.str)] [])
termination_by structural x => x

end

/-- `Service` from JSON (`specs/common/service.rs` 113-149), with the reader of nested values. -/
def File.Service.ofJsonWith (v : SpecVersion) (sub : Json → Except String (File.Service v)) (j : Json) : Except String (File.Service v) := do
  let o ← j.fields
  let bomRef' ← Json.opt o "bom-ref" Json.string
  let provider' ← Json.opt o "provider" File.OrganizationalEntity.ofJson
  let group' ← Json.opt o "group" Json.string
  let name' ← Json.req o "name" Json.string
  let version' ← Json.opt o "version" Json.string
  let description' ← Json.opt o "description" Json.string
  let endpoints' ← Json.opt o "endpoints" (Json.array Json.string)
  let authenticated' ← Json.opt o "authenticated" Json.boolean
  let xTrustBoundary' ← Json.opt o "x-trust-boundary" Json.boolean
  let data' ← Json.opt o "data" (File.ServiceDataChoice.ofJson v)
  let licenses' ← Json.opt o "licenses" (Json.array (File.LicenseChoice.ofJson v))
  let externalReferences' ← Json.opt o "externalReferences" (Json.array File.ExternalReference.ofJson)
  let properties' ← Json.opt o "properties" (Json.array File.Property.ofJson)
  let services' ← Json.opt o "services" (Json.array sub)
  let signature' ← Since14.tryPut v (Json.opt o "signature" File.Signature.ofJson)
  let trustZone' ← Since15.tryPut v (Json.opt o "trustZone" Json.string)
  .ok { bomRef := bomRef',
        provider := provider',
        group := group',
        name := name',
        version := version',
        description := description',
        endpoints := endpoints',
        authenticated := authenticated',
        xTrustBoundary := xTrustBoundary',
        data := data',
        licenses := licenses',
        externalReferences := externalReferences',
        properties := properties',
        services := services',
        signature := signature',
        trustZone := trustZone' }

/-- `Service` from JSON, with at most `n` levels of nested `Service`s: the code recurses without a limit of
its own (`specs/common/service.rs` 83-111, 356-538). -/
def File.Service.ofJsonN (v : SpecVersion) : Nat → Json → Except String (File.Service v)
  | 0, _ => .error "recursion limit exceeded"
  | n + 1, j => File.Service.ofJsonWith v (File.Service.ofJsonN v n) j

/-- `Service` from JSON, as deep as the limit on reading allows. -/
def File.Service.ofJson (v : SpecVersion) : Json → Except String (File.Service v) := File.Service.ofJsonN v ReadLimit.limit

/-- `VulnerabilityRating` as JSON (`specs/common/vulnerability_rating.rs` 84-99). -/
def File.VulnerabilityRating.toJson (x : File.VulnerabilityRating) : Json :=
  .mk [("source", x.vulnerabilitySource.map File.VulnerabilitySource.toJson),
    ("score", x.score.map Json.ofF32),
    ("severity", x.severity.map Json.str),
    ("method", x.scoreMethod.map Json.str),
    ("vector", x.vector.map Json.str),
    ("justification", x.justification.map Json.str)]

/-- `VulnerabilityRating` from JSON (`specs/common/vulnerability_rating.rs` 84-99). -/
def File.VulnerabilityRating.ofJson (j : Json) : Except String File.VulnerabilityRating := do
  let o ← j.fields
  let vulnerabilitySource' ← Json.opt o "source" File.VulnerabilitySource.ofJson
  let score' ← Json.opt o "score" Json.f32
  let severity' ← Json.opt o "severity" Json.string
  let scoreMethod' ← Json.opt o "method" Json.string
  let vector' ← Json.opt o "vector" Json.string
  let justification' ← Json.opt o "justification" Json.string
  .ok { vulnerabilitySource := vulnerabilitySource',
        score := score',
        severity := severity',
        scoreMethod := scoreMethod',
        vector := vector',
        justification := justification' }

/-- `Occurrence` as JSON (`specs/v1_5/evidence.rs` 94-99). -/
def File.Occurrence.toJson (x : File.Occurrence) : Json :=
  .mk [("bomRef", x.bomRef.map Json.str),
    ("location", some (Json.str x.location))]

/-- `Occurrence` from JSON (`specs/v1_5/evidence.rs` 94-99). -/
def File.Occurrence.ofJson (j : Json) : Except String File.Occurrence := do
  let o ← j.fields
  let bomRef' ← Json.opt o "bomRef" Json.string
  let location' ← Json.req o "location" Json.string
  .ok { bomRef := bomRef',
        location := location' }

/-- `Frame` as JSON (`specs/v1_5/evidence.rs` 295-310). -/
def File.Frame.toJson (x : File.Frame) : Json :=
  .mk [("package", x.package.map Json.str),
    ("module", some (Json.str x.module)),
    ("function", x.function.map Json.str),
    ("parameters", x.parameters.map (Json.ofList Json.str)),
    ("line", x.line.map Json.nat),
    ("column", x.column.map Json.nat),
    ("fullFilename", x.fullFilename.map Json.str)]

/-- `Frame` from JSON (`specs/v1_5/evidence.rs` 295-310). -/
def File.Frame.ofJson (j : Json) : Except String File.Frame := do
  let o ← j.fields
  let package' ← Json.opt o "package" Json.string
  let module' ← Json.req o "module" Json.string
  let function' ← Json.opt o "function" Json.string
  let parameters' ← Json.opt o "parameters" (Json.array Json.string)
  let line' ← Json.opt o "line" Json.u32
  let column' ← Json.opt o "column" Json.u32
  let fullFilename' ← Json.opt o "fullFilename" Json.string
  .ok { package := package',
        module := module',
        function := function',
        parameters := parameters',
        line := line',
        column := column',
        fullFilename := fullFilename' }

/-- `Callstack` as JSON (`specs/v1_5/evidence.rs` 181-184, 279-280). -/
def File.Callstack.toJson (x : File.Callstack) : Json :=
  .mk [("frames", some ((Json.ofList File.Frame.toJson) x.frames))]

/-- `Callstack` from JSON (`specs/v1_5/evidence.rs` 181-184, 279-280). -/
def File.Callstack.ofJson (j : Json) : Except String File.Callstack := do
  let o ← j.fields
  let frames' ← Json.req o "frames" (Json.array File.Frame.ofJson)
  .ok { frames := frames' }

/-- `Method` as JSON (`specs/v1_5/evidence.rs` 697-703). -/
def File.Method.toJson (x : File.Method) : Json :=
  .mk [("technique", some (Json.str x.technique)),
    ("confidence", some (Json.ofF32 x.confidence)),
    ("value", x.value.map Json.str)]

/-- `Method` from JSON (`specs/v1_5/evidence.rs` 697-703). -/
def File.Method.ofJson (j : Json) : Except String File.Method := do
  let o ← j.fields
  let technique' ← Json.req o "technique" Json.string
  let confidence' ← Json.req o "confidence" Json.f32
  let value' ← Json.opt o "value" Json.string
  .ok { technique := technique',
        confidence := confidence',
        value := value' }

/-- `Identity` as JSON (`specs/v1_5/evidence.rs` 478-488). -/
def File.Identity.toJson (x : File.Identity) : Json :=
  .mk [("field", some (Json.str x.field)),
    ("confidence", x.confidence.map Json.ofF32),
    ("methods", x.methods.map (Json.ofList File.Method.toJson)),
    ("tools", x.tools.map (Json.ofList Json.str))]

/-- `Identity` from JSON (`specs/v1_5/evidence.rs` 478-488). -/
def File.Identity.ofJson (j : Json) : Except String File.Identity := do
  let o ← j.fields
  let field' ← Json.req o "field" Json.string
  let confidence' ← Json.opt o "confidence" Json.f32
  let methods' ← Json.opt o "methods" (Json.array File.Method.ofJson)
  let tools' ← Json.opt o "tools" (Json.array Json.string)
  .ok { field := field',
        confidence := confidence',
        methods := methods',
        tools := tools' }

/-- `ComponentEvidence` as JSON (`specs/common/component.rs` 898-914, 1313-1327). -/
def File.ComponentEvidence.toJson {v : SpecVersion} (x : File.ComponentEvidence v) : Json :=
  .mk ([("licenses", x.licenses.map (Json.ofList File.LicenseChoice.toJson)),
    ("copyright", x.copyright.map (Json.ofList Copyright.toJson))] ++
    since15 v [("occurrences", (Since15.get v x.occurrences).map (Json.ofList File.Occurrence.toJson)),
    ("callstack", (Since15.get v x.callstack).map File.Callstack.toJson),
    ("identity", (Since15.get v x.identity).map File.Identity.toJson)] [])

/-- `ComponentEvidence` from JSON (`specs/common/component.rs` 898-914, 1313-1327). -/
def File.ComponentEvidence.ofJson (v : SpecVersion) (j : Json) : Except String (File.ComponentEvidence v) := do
  let o ← j.fields
  let licenses' ← Json.opt o "licenses" (Json.array (File.LicenseChoice.ofJson v))
  let copyright' ← Json.opt o "copyright" (Json.array Copyright.ofJson)
  let occurrences' ← Since15.tryPut v (Json.opt o "occurrences" (Json.array File.Occurrence.ofJson))
  let callstack' ← Since15.tryPut v (Json.opt o "callstack" File.Callstack.ofJson)
  let identity' ← Since15.tryPut v (Json.opt o "identity" File.Identity.ofJson)
  .ok { licenses := licenses',
        copyright := copyright',
        occurrences := occurrences',
        callstack := callstack',
        identity := identity' }

mutual

/-- An optional list of `Component`s as JSON. -/
def File.Component.toJsonOpt {v : SpecVersion} : Option (List (File.Component v)) → Option Json
  | none => none
  | some l => some (.arr (File.Component.toJsonAll l))
termination_by structural l => l

/-- A list of `Component`s as JSON. -/
def File.Component.toJsonAll {v : SpecVersion} : List (File.Component v) → List Json
  | [] => []
  | x :: l => File.Component.toJson x :: File.Component.toJsonAll l
termination_by structural l => l

/-- An optional `Pedigree` as JSON. -/
def File.Pedigree.toJsonOpt {v : SpecVersion} : Option (File.Pedigree v) → Option Json
  | none => none
  | some x => some (File.Pedigree.toJson x)
termination_by structural x => x

/-- `Pedigree` as JSON (`specs/common/component.rs` 1082-1097). -/
def File.Pedigree.toJson {v : SpecVersion} : File.Pedigree v → Json
  | ⟨ancestors, descendants, variants, commits, patches, notes⟩ =>
  .mk [("ancestors", File.Component.toJsonOpt ancestors),
    ("descendants", File.Component.toJsonOpt descendants),
    ("variants", File.Component.toJsonOpt variants),
    ("commits", commits.map (Json.ofList File.Commit.toJson)),
    ("patches", patches.map (Json.ofList File.Patch.toJson)),
    ("notes", notes.map Json.str)]
termination_by structural x => x

/-- `Component` as JSON (`specs/common/component.rs` 126-186, 859-872, 1359-1372). -/
def File.Component.toJson {v : SpecVersion} : File.Component v → Json
  | ⟨componentType, mimeType, bomRef, supplier, author, publisher, group, name, version, description, scope, hashes, licenses, copyright, cpe, purl, swid, modified, pedigree, externalReferences, properties, components, evidence, signature, modelCard, data⟩ =>
  .mk ([("type", some (Json.str componentType)),
    ("mime-type", mimeType.map Json.str),
    ("bom-ref", bomRef.map Json.str),
    ("supplier", supplier.map File.OrganizationalEntity.toJson),
    ("author", author.map Json.str),
    ("publisher", publisher.map Json.str),
    ("group", group.map Json.str),
    ("name", some (Json.str name)),
    ("version", (File.Version.toModel v version).map Json.str),
    ("description", description.map Json.str),
    ("scope", scope.map Json.str),
    ("hashes", hashes.map (Json.ofList File.Hash.toJson)),
    ("licenses", licenses.map (Json.ofList File.LicenseChoice.toJson)),
    ("copyright", copyright.map Json.str),
    ("cpe", cpe.map Json.str),
    ("purl", purl.map Json.str),
    ("swid", swid.map File.Swid.toJson),
    ("modified", modified.map Json.bool),
    ("pedigree", File.Pedigree.toJsonOpt pedigree),
    ("externalReferences", externalReferences.map (Json.ofList File.ExternalReference.toJson)),
    ("properties", properties.map (Json.ofList File.Property.toJson)),
    ("components", File.Component.toJsonOpt components),
    ("evidence", evidence.map File.ComponentEvidence.toJson)] ++
    since14 v [("signature", (Since14.get v signature).map File.Signature.toJson)] [] ++
    since15 v [("modelCard", (Since15.get v modelCard).map File.ModelCard.toJson),
    ("data", (Since15.get v data).map File.ComponentData.toJson)] [])
termination_by structural x => x

end

/-- `Pedigree` from JSON (`specs/common/component.rs` 1082-1097), with the reader of nested values. -/
def File.Pedigree.ofJsonWith (v : SpecVersion) (sub : Json → Except String (File.Component v)) (j : Json) : Except String (File.Pedigree v) := do
  let o ← j.fields
  let ancestors' ← Json.opt o "ancestors" (Json.array sub)
  let descendants' ← Json.opt o "descendants" (Json.array sub)
  let variants' ← Json.opt o "variants" (Json.array sub)
  let commits' ← Json.opt o "commits" (Json.array File.Commit.ofJson)
  let patches' ← Json.opt o "patches" (Json.array File.Patch.ofJson)
  let notes' ← Json.opt o "notes" Json.string
  .ok { ancestors := ancestors',
        descendants := descendants',
        variants := variants',
        commits := commits',
        patches := patches',
        notes := notes' }

/-- `Component` from JSON (`specs/common/component.rs` 126-186, 859-872, 1359-1372), with the reader of nested values. -/
def File.Component.ofJsonWith (v : SpecVersion) (sub : Json → Except String (File.Component v)) (j : Json) : Except String (File.Component v) := do
  let o ← j.fields
  let componentType' ← Json.req o "type" Json.string
  let mimeType' ← Json.opt o "mime-type" Json.string
  let bomRef' ← Json.opt o "bom-ref" Json.string
  let supplier' ← Json.opt o "supplier" File.OrganizationalEntity.ofJson
  let author' ← Json.opt o "author" Json.string
  let publisher' ← Json.opt o "publisher" Json.string
  let group' ← Json.opt o "group" Json.string
  let name' ← Json.req o "name" Json.string
  let version' ← File.Version.ofJson v o
  let description' ← Json.opt o "description" Json.string
  let scope' ← Json.opt o "scope" Json.string
  let hashes' ← Json.opt o "hashes" (Json.array File.Hash.ofJson)
  let licenses' ← Json.opt o "licenses" (Json.array (File.LicenseChoice.ofJson v))
  let copyright' ← Json.opt o "copyright" Json.string
  let cpe' ← Json.opt o "cpe" Json.string
  let purl' ← Json.opt o "purl" Json.string
  let swid' ← Json.opt o "swid" File.Swid.ofJson
  let modified' ← Json.opt o "modified" Json.boolean
  let pedigree' ← Json.opt o "pedigree" (File.Pedigree.ofJsonWith v sub)
  let externalReferences' ← Json.opt o "externalReferences" (Json.array File.ExternalReference.ofJson)
  let properties' ← Json.opt o "properties" (Json.array File.Property.ofJson)
  let components' ← Json.opt o "components" (Json.array sub)
  let evidence' ← Json.opt o "evidence" (File.ComponentEvidence.ofJson v)
  let signature' ← Since14.tryPut v (Json.opt o "signature" File.Signature.ofJson)
  let modelCard' ← Since15.tryPut v (Json.opt o "modelCard" File.ModelCard.ofJson)
  let data' ← Since15.tryPut v (Json.opt o "data" File.ComponentData.ofJson)
  .ok { componentType := componentType',
        mimeType := mimeType',
        bomRef := bomRef',
        supplier := supplier',
        author := author',
        publisher := publisher',
        group := group',
        name := name',
        version := version',
        description := description',
        scope := scope',
        hashes := hashes',
        licenses := licenses',
        copyright := copyright',
        cpe := cpe',
        purl := purl',
        swid := swid',
        modified := modified',
        pedigree := pedigree',
        externalReferences := externalReferences',
        properties := properties',
        components := components',
        evidence := evidence',
        signature := signature',
        modelCard := modelCard',
        data := data' }

/-- `Component` from JSON, with at most `n` levels of nested `Component`s: the code recurses without a limit of
its own (`specs/common/component.rs` 84-124, 437-692, 1182-1264). -/
def File.Component.ofJsonN (v : SpecVersion) : Nat → Json → Except String (File.Component v)
  | 0, _ => .error "recursion limit exceeded"
  | n + 1, j => File.Component.ofJsonWith v (File.Component.ofJsonN v n) j

/-- `Component` from JSON, as deep as the limit on reading allows. -/
def File.Component.ofJson (v : SpecVersion) : Json → Except String (File.Component v) := File.Component.ofJsonN v ReadLimit.limit

/-- `Tool` as JSON (`specs/common/tool.rs` 218-232). -/
def File.Tool.toJson {v : SpecVersion} (x : File.Tool v) : Json :=
  .mk ([("vendor", x.vendor.map Json.str),
    ("name", x.name.map Json.str),
    ("version", x.version.map Json.str),
    ("hashes", x.hashes.map (Json.ofList File.Hash.toJson))] ++
    since14 v [("externalReferences", (Since14.get v x.externalReferences).map (Json.ofList File.ExternalReference.toJson))] [])

/-- `Tool` from JSON (`specs/common/tool.rs` 218-232). -/
def File.Tool.ofJson (v : SpecVersion) (j : Json) : Except String (File.Tool v) := do
  let o ← j.fields
  let vendor' ← Json.opt o "vendor" Json.string
  let name' ← Json.opt o "name" Json.string
  let version' ← Json.opt o "version" Json.string
  let hashes' ← Json.opt o "hashes" (Json.array File.Hash.ofJson)
  let externalReferences' ← Since14.tryPut v (Json.opt o "externalReferences" (Json.array File.ExternalReference.ofJson))
  .ok { vendor := vendor',
        name := name',
        version := version',
        hashes := hashes',
        externalReferences := externalReferences' }

/-- `Tools` as JSON (`specs/common/tool.rs` 44-57): before version 1.5 tools
described by components and services become an empty list. -/
def File.Tools.toJson {v : SpecVersion} : File.Tools v → Json
  | .list l => Json.ofList File.Tool.toJson l
  | .object _ s c =>
    .mk [("services", s.map (Json.ofList File.Service.toJson)),
      ("components", c.map (Json.ofList File.Component.toJson))]

/-- The second form of `Tools` from JSON (`specs/common/tool.rs` 50-56). -/
def File.Tools.objectOfJson (j : Json) : Except String (File.Tools .v1_5) := do
  let o ← j.fields
  let s ← Json.opt o "services" (Json.array (File.Service.ofJson .v1_5))
  let c ← Json.opt o "components" (Json.array (File.Component.ofJson .v1_5))
  .ok (.object rfl s c)

/-- `Tools` from JSON (`specs/common/tool.rs` 44-57): the forms are tried in
order. -/
def File.Tools.ofJson (v : SpecVersion) (j : Json) : Except String (File.Tools v) :=
  match Json.array (File.Tool.ofJson v) j with
  | .ok l => .ok (.list l)
  | .error e =>
    match v with
    | .v1_3 => .error e
    | .v1_4 => .error e
    | .v1_5 => File.Tools.objectOfJson j

/-- `Metadata` as JSON (`specs/common/metadata.rs` 51-73). -/
def File.Metadata.toJson {v : SpecVersion} (x : File.Metadata v) : Json :=
  .mk ([("timestamp", x.timestamp.map Json.str),
    ("tools", x.tools.map File.Tools.toJson),
    ("authors", x.authors.map (Json.ofList File.OrganizationalContact.toJson)),
    ("component", x.component.map File.Component.toJson),
    ("manufacture", x.manufacture.map File.OrganizationalEntity.toJson),
    ("supplier", x.supplier.map File.OrganizationalEntity.toJson),
    ("licenses", x.licenses.map (Json.ofList File.LicenseChoice.toJson)),
    ("properties", x.properties.map (Json.ofList File.Property.toJson))] ++
    since15 v [("lifecycles", (Since15.get v x.lifecycles).map (Json.ofList File.Lifecycle.toJson))] [])

/-- `Metadata` from JSON (`specs/common/metadata.rs` 51-73). -/
def File.Metadata.ofJson (v : SpecVersion) (j : Json) : Except String (File.Metadata v) := do
  let o ← j.fields
  let timestamp' ← Json.opt o "timestamp" Json.string
  let tools' ← Json.opt o "tools" (File.Tools.ofJson v)
  let authors' ← Json.opt o "authors" (Json.array File.OrganizationalContact.ofJson)
  let component' ← Json.opt o "component" (File.Component.ofJson v)
  let manufacture' ← Json.opt o "manufacture" File.OrganizationalEntity.ofJson
  let supplier' ← Json.opt o "supplier" File.OrganizationalEntity.ofJson
  let licenses' ← Json.opt o "licenses" (Json.array (File.LicenseChoice.ofJson v))
  let properties' ← Json.opt o "properties" (Json.array File.Property.ofJson)
  let lifecycles' ← Since15.tryPut v (Json.opt o "lifecycles" (Json.array File.Lifecycle.ofJson))
  .ok { timestamp := timestamp',
        tools := tools',
        authors := authors',
        component := component',
        manufacture := manufacture',
        supplier := supplier',
        licenses := licenses',
        properties := properties',
        lifecycles := lifecycles' }

/-- `Vulnerability` as JSON (`specs/common/vulnerability.rs` 107-155; the format has vulnerabilities from version 1.4 on).
Simplification: members of later versions come last; the order of members is not significant (C80). -/
def File.Vulnerability.toJson {v : SpecVersion} (x : File.Vulnerability v) : Json :=
  .mk ([("bom-ref", x.bomRef.map Json.str),
    ("id", x.id.map Json.str),
    ("source", x.vulnerabilitySource.map File.VulnerabilitySource.toJson),
    ("references", x.vulnerabilityReferences.map (Json.ofList File.VulnerabilityReference.toJson)),
    ("ratings", x.vulnerabilityRatings.map (Json.ofList File.VulnerabilityRating.toJson)),
    ("cwes", x.cwes.map (Json.ofList Json.nat)),
    ("description", x.description.map Json.str),
    ("detail", x.detail.map Json.str),
    ("recommendation", x.recommendation.map Json.str),
    ("advisories", x.advisories.map (Json.ofList File.Advisory.toJson)),
    ("created", x.created.map Json.str),
    ("published", x.published.map Json.str),
    ("updated", x.updated.map Json.str),
    ("credits", x.vulnerabilityCredits.map File.VulnerabilityCredits.toJson),
    ("tools", x.tools.map File.Tools.toJson),
    ("analysis", x.vulnerabilityAnalysis.map File.VulnerabilityAnalysis.toJson),
    ("affects", x.vulnerabilityTargets.map (Json.ofList File.VulnerabilityTarget.toJson)),
    ("properties", x.properties.map (Json.ofList File.Property.toJson))] ++
    since15 v [("workaround", (Since15.get v x.workaround).map Json.str),
    ("proofOfConcept", (Since15.get v x.proofOfConcept).map File.VulnerabilityProofOfConcept.toJson),
    ("rejected", (Since15.get v x.rejected).map Json.str)] [])

/-- `Vulnerability` from JSON (`specs/common/vulnerability.rs` 107-155; the format has vulnerabilities from version 1.4 on). -/
def File.Vulnerability.ofJson (v : SpecVersion) (j : Json) : Except String (File.Vulnerability v) := do
  let o ← j.fields
  let bomRef' ← Json.opt o "bom-ref" Json.string
  let id' ← Json.opt o "id" Json.string
  let vulnerabilitySource' ← Json.opt o "source" File.VulnerabilitySource.ofJson
  let vulnerabilityReferences' ← Json.opt o "references" (Json.array File.VulnerabilityReference.ofJson)
  let vulnerabilityRatings' ← Json.opt o "ratings" (Json.array File.VulnerabilityRating.ofJson)
  let cwes' ← Json.opt o "cwes" (Json.array Json.u32)
  let description' ← Json.opt o "description" Json.string
  let detail' ← Json.opt o "detail" Json.string
  let recommendation' ← Json.opt o "recommendation" Json.string
  let workaround' ← Since15.tryPut v (Json.opt o "workaround" Json.string)
  let proofOfConcept' ← Since15.tryPut v (Json.opt o "proofOfConcept" File.VulnerabilityProofOfConcept.ofJson)
  let advisories' ← Json.opt o "advisories" (Json.array File.Advisory.ofJson)
  let created' ← Json.opt o "created" Json.string
  let published' ← Json.opt o "published" Json.string
  let updated' ← Json.opt o "updated" Json.string
  let rejected' ← Since15.tryPut v (Json.opt o "rejected" Json.string)
  let vulnerabilityCredits' ← Json.opt o "credits" File.VulnerabilityCredits.ofJson
  let tools' ← Json.opt o "tools" (File.Tools.ofJson v)
  let vulnerabilityAnalysis' ← Json.opt o "analysis" (File.VulnerabilityAnalysis.ofJson v)
  let vulnerabilityTargets' ← Json.opt o "affects" (Json.array File.VulnerabilityTarget.ofJson)
  let properties' ← Json.opt o "properties" (Json.array File.Property.ofJson)
  .ok { bomRef := bomRef',
        id := id',
        vulnerabilitySource := vulnerabilitySource',
        vulnerabilityReferences := vulnerabilityReferences',
        vulnerabilityRatings := vulnerabilityRatings',
        cwes := cwes',
        description := description',
        detail := detail',
        recommendation := recommendation',
        workaround := workaround',
        proofOfConcept := proofOfConcept',
        advisories := advisories',
        created := created',
        published := published',
        updated := updated',
        rejected := rejected',
        vulnerabilityCredits := vulnerabilityCredits',
        tools := tools',
        vulnerabilityAnalysis := vulnerabilityAnalysis',
        vulnerabilityTargets := vulnerabilityTargets',
        properties := properties' }

/-- `Annotator` as JSON (`specs/v1_5/annotation.rs` 162-168; the format has annotations from version 1.5 on). -/
def File.Annotator.toJson : File.Annotator → Json
  | .organization y => .obj [("organization", File.OrganizationalEntity.toJson y)]
  | .individual y => .obj [("individual", File.OrganizationalContact.toJson y)]
  | .component y => .obj [("component", File.Component.toJson y)]
  | .service y => .obj [("service", File.Service.toJson y)]

/-- `Annotator` from JSON (`specs/v1_5/annotation.rs` 162-168; the format has annotations from version 1.5 on). -/
def File.Annotator.ofJson : Json → Except String File.Annotator :=
  Json.tagged
  [("organization", fun j => (File.OrganizationalEntity.ofJson j).map .organization),
   ("individual", fun j => (File.OrganizationalContact.ofJson j).map .individual),
   ("component", fun j => ((File.Component.ofJson .v1_5) j).map .component),
   ("service", fun j => ((File.Service.ofJson .v1_5) j).map .service)]

/-- `Annotation` as JSON (`specs/v1_5/annotation.rs` 114-130). -/
def File.Annotation.toJson (x : File.Annotation) : Json :=
  .mk [("bom-ref", x.bomRef.map Json.str),
    ("subjects", some ((Json.ofList Json.str) x.subjects)),
    ("annotator", some (File.Annotator.toJson x.annotator)),
    ("timestamp", some (Json.str x.timestamp)),
    ("text", some (Json.str x.text)),
    ("signature", x.signature.map File.Signature.toJson)]

/-- `Annotation` from JSON (`specs/v1_5/annotation.rs` 114-130). -/
def File.Annotation.ofJson (j : Json) : Except String File.Annotation := do
  let o ← j.fields
  let bomRef' ← Json.opt o "bom-ref" Json.string
  let subjects' ← Json.req o "subjects" (Json.array Json.string)
  let annotator' ← Json.req o "annotator" File.Annotator.ofJson
  let timestamp' ← Json.req o "timestamp" Json.string
  let text' ← Json.req o "text" Json.string
  let signature' ← Json.opt o "signature" File.Signature.ofJson
  .ok { bomRef := bomRef',
        subjects := subjects',
        annotator := annotator',
        timestamp := timestamp',
        text := text',
        signature := signature' }

/-- The members that a flattened `ResourceReference` adds to an object (`specs/v1_5/formulation/workflow/resource_reference.rs` 78-86). -/
def File.ResourceReference.toFields : File.ResourceReference → List (String × Option Json)
  | .ref y => [("ref", some (Json.str y))]
  | .externalReference y => [("externalReference", some (File.ExternalReference.toJson y))]

/-- A flattened `ResourceReference` from the members of an object (`specs/v1_5/formulation/workflow/resource_reference.rs` 78-86). -/
def File.ResourceReference.ofFields (o : List (String × Json)) : Except String File.ResourceReference :=
  Json.flatUntagged o
  [("ref", fun j => (Json.string j).map .ref),
   ("externalReference", fun j => (File.ExternalReference.ofJson j).map .externalReference)]

/-- `ResourceReference` as JSON (`specs/v1_5/formulation/workflow/resource_reference.rs` 78-86). -/
def File.ResourceReference.toJson (x : File.ResourceReference) : Json := .mk (File.ResourceReference.toFields x)

/-- `ResourceReference` from JSON (`specs/v1_5/formulation/workflow/resource_reference.rs` 78-86). -/
def File.ResourceReference.ofJson (j : Json) : Except String File.ResourceReference := do
  let o ← j.fields
  File.ResourceReference.ofFields o

/-- `EnvironmentVar` as JSON (`specs/v1_5/formulation/workflow/mod.rs` 522-526). -/
def File.EnvironmentVar.toJson : File.EnvironmentVar → Json
  | .property n v => .mk [("name", some (.str n)), ("value", some (.str v))]
  | .value v => .str v

/-- `EnvironmentVar` from JSON (`specs/v1_5/formulation/workflow/mod.rs` 522-526): an object with a name and
a value, or a string. -/
def File.EnvironmentVar.ofJson : Json → Except String File.EnvironmentVar
  | .str s => .ok (.value s)
  | j => do
    let o ← j.fields
    let n ← Json.req o "name" Json.string
    let v ← Json.req o "value" Json.string
    .ok (.property n v)

/-- `Parameter` as JSON (`specs/v1_5/formulation/workflow/input.rs` 238-246). -/
def File.Parameter.toJson (x : File.Parameter) : Json :=
  .mk [("name", x.name.map Json.str),
    ("value", x.value.map Json.str),
    ("dataType", x.dataType.map Json.str)]

/-- `Parameter` from JSON (`specs/v1_5/formulation/workflow/input.rs` 238-246). -/
def File.Parameter.ofJson (j : Json) : Except String File.Parameter := do
  let o ← j.fields
  let name' ← Json.opt o "name" Json.string
  let value' ← Json.opt o "value" Json.string
  let dataType' ← Json.opt o "dataType" Json.string
  .ok { name := name',
        value := value',
        dataType := dataType' }

/-- The members that a flattened `RequiredInputField` adds to an object (`specs/v1_5/formulation/workflow/input.rs` 229-235). -/
def File.RequiredInputField.toFields : File.RequiredInputField → List (String × Option Json)
  | .resource y => [("resource", some (File.ResourceReference.toJson y))]
  | .parameters y => [("parameters", some ((Json.ofList File.Parameter.toJson) y))]
  | .environmentVars y => [("environmentVars", some ((Json.ofList File.EnvironmentVar.toJson) y))]
  | .data y => [("data", some (File.Attachment.toJson y))]

/-- A flattened `RequiredInputField` from the members of an object (`specs/v1_5/formulation/workflow/input.rs` 229-235). -/
def File.RequiredInputField.ofFields (o : List (String × Json)) : Except String File.RequiredInputField :=
  Json.flatUntagged o
  [("resource", fun j => (File.ResourceReference.ofJson j).map .resource),
   ("parameters", fun j => ((Json.array File.Parameter.ofJson) j).map .parameters),
   ("environmentVars", fun j => ((Json.array File.EnvironmentVar.ofJson) j).map .environmentVars),
   ("data", fun j => (File.Attachment.ofJson j).map .data)]

/-- `Input` as JSON (`specs/v1_5/formulation/workflow/input.rs` 17-27). -/
def File.Input.toJson (x : File.Input) : Json :=
  .mk (File.RequiredInputField.toFields x.required ++
    [("source", x.source.map File.ResourceReference.toJson),
    ("target", x.target.map File.ResourceReference.toJson),
    ("properties", x.properties.map (Json.ofList File.Property.toJson))])

/-- `Input` from JSON (`specs/v1_5/formulation/workflow/input.rs` 17-27). -/
def File.Input.ofJson (j : Json) : Except String File.Input := do
  let o ← j.fields
  let required' ← File.RequiredInputField.ofFields o
  let source' ← Json.opt o "source" File.ResourceReference.ofJson
  let target' ← Json.opt o "target" File.ResourceReference.ofJson
  let properties' ← Json.opt o "properties" (Json.array File.Property.ofJson)
  .ok { required := required',
        source := source',
        target := target',
        properties := properties' }

/-- The members that a flattened `RequiredOutputField` adds to an object (`specs/v1_5/formulation/workflow/output.rs` 225-231). -/
def File.RequiredOutputField.toFields : File.RequiredOutputField → List (String × Option Json)
  | .resource y => [("resource", some (File.ResourceReference.toJson y))]
  | .environmentVars y => [("environmentVars", some ((Json.ofList File.EnvironmentVar.toJson) y))]
  | .data y => [("data", some (File.Attachment.toJson y))]

/-- A flattened `RequiredOutputField` from the members of an object (`specs/v1_5/formulation/workflow/output.rs` 225-231). -/
def File.RequiredOutputField.ofFields (o : List (String × Json)) : Except String File.RequiredOutputField :=
  Json.flatUntagged o
  [("resource", fun j => (File.ResourceReference.ofJson j).map .resource),
   ("environmentVars", fun j => ((Json.array File.EnvironmentVar.ofJson) j).map .environmentVars),
   ("data", fun j => (File.Attachment.ofJson j).map .data)]

/-- `Output` as JSON (`specs/v1_5/formulation/workflow/output.rs` 16-28). -/
def File.Output.toJson (x : File.Output) : Json :=
  .mk (File.RequiredOutputField.toFields x.required ++
    [("type", x.type.map Json.str),
    ("source", x.source.map File.ResourceReference.toJson),
    ("target", x.target.map File.ResourceReference.toJson),
    ("properties", x.properties.map (Json.ofList File.Property.toJson))])

/-- `Output` from JSON (`specs/v1_5/formulation/workflow/output.rs` 16-28). -/
def File.Output.ofJson (j : Json) : Except String File.Output := do
  let o ← j.fields
  let required' ← File.RequiredOutputField.ofFields o
  let type' ← Json.opt o "type" Json.string
  let source' ← Json.opt o "source" File.ResourceReference.ofJson
  let target' ← Json.opt o "target" File.ResourceReference.ofJson
  let properties' ← Json.opt o "properties" (Json.array File.Property.ofJson)
  .ok { required := required',
        type := type',
        source := source',
        target := target',
        properties := properties' }

/-- `Command` as JSON (`specs/v1_5/formulation/workflow/step.rs` 132-138). -/
def File.Command.toJson (x : File.Command) : Json :=
  .mk [("executed", x.executed.map Json.str),
    ("properties", x.properties.map (Json.ofList File.Property.toJson))]

/-- `Command` from JSON (`specs/v1_5/formulation/workflow/step.rs` 132-138). -/
def File.Command.ofJson (j : Json) : Except String File.Command := do
  let o ← j.fields
  let executed' ← Json.opt o "executed" Json.string
  let properties' ← Json.opt o "properties" (Json.array File.Property.ofJson)
  .ok { executed := executed',
        properties := properties' }

/-- `Step` as JSON (`specs/v1_5/formulation/workflow/step.rs` 15-25). -/
def File.Step.toJson (x : File.Step) : Json :=
  .mk [("commands", x.commands.map (Json.ofList File.Command.toJson)),
    ("description", x.description.map Json.str),
    ("name", x.name.map Json.str),
    ("properties", x.properties.map (Json.ofList File.Property.toJson))]

/-- `Step` from JSON (`specs/v1_5/formulation/workflow/step.rs` 15-25). -/
def File.Step.ofJson (j : Json) : Except String File.Step := do
  let o ← j.fields
  let commands' ← Json.opt o "commands" (Json.array File.Command.ofJson)
  let description' ← Json.opt o "description" Json.string
  let name' ← Json.opt o "name" Json.string
  let properties' ← Json.opt o "properties" (Json.array File.Property.ofJson)
  .ok { commands := commands',
        description := description',
        name := name',
        properties := properties' }

/-- `TriggerEvent` as JSON (`specs/v1_5/formulation/workflow/trigger.rs` 236-253). -/
def File.TriggerEvent.toJson (x : File.TriggerEvent) : Json :=
  .mk [("uid", x.uid.map Json.str),
    ("description", x.description.map Json.str),
    ("timeReceived", x.timeReceived.map Json.str),
    ("data", x.data.map File.Attachment.toJson),
    ("source", x.source.map File.ResourceReference.toJson),
    ("target", x.target.map File.ResourceReference.toJson),
    ("properties", x.properties.map (Json.ofList File.Property.toJson))]

/-- `TriggerEvent` from JSON (`specs/v1_5/formulation/workflow/trigger.rs` 236-253). -/
def File.TriggerEvent.ofJson (j : Json) : Except String File.TriggerEvent := do
  let o ← j.fields
  let uid' ← Json.opt o "uid" Json.string
  let description' ← Json.opt o "description" Json.string
  let timeReceived' ← Json.opt o "timeReceived" Json.string
  let data' ← Json.opt o "data" File.Attachment.ofJson
  let source' ← Json.opt o "source" File.ResourceReference.ofJson
  let target' ← Json.opt o "target" File.ResourceReference.ofJson
  let properties' ← Json.opt o "properties" (Json.array File.Property.ofJson)
  .ok { uid := uid',
        description := description',
        timeReceived := timeReceived',
        data := data',
        source := source',
        target := target',
        properties := properties' }

/-- `Condition` as JSON (`specs/v1_5/formulation/workflow/trigger.rs` 394-402). -/
def File.Condition.toJson (x : File.Condition) : Json :=
  .mk [("description", x.description.map Json.str),
    ("expression", x.expression.map Json.str),
    ("properties", x.properties.map (Json.ofList File.Property.toJson))]

/-- `Condition` from JSON (`specs/v1_5/formulation/workflow/trigger.rs` 394-402). -/
def File.Condition.ofJson (j : Json) : Except String File.Condition := do
  let o ← j.fields
  let description' ← Json.opt o "description" Json.string
  let expression' ← Json.opt o "expression" Json.string
  let properties' ← Json.opt o "properties" (Json.array File.Property.ofJson)
  .ok { description := description',
        expression := expression',
        properties := properties' }

/-- `Trigger` as JSON (`specs/v1_5/formulation/workflow/trigger.rs` 23-48). -/
def File.Trigger.toJson (x : File.Trigger) : Json :=
  .mk [("bom-ref", some (Json.str x.bomRef)),
    ("uid", some (Json.str x.uid)),
    ("name", x.name.map Json.str),
    ("description", x.description.map Json.str),
    ("resourceReferences", x.resourceReferences.map (Json.ofList File.ResourceReference.toJson)),
    ("type", some (Json.str x.type)),
    ("event", x.event.map File.TriggerEvent.toJson),
    ("conditions", x.conditions.map (Json.ofList File.Condition.toJson)),
    ("timeActivated", x.timeActivated.map Json.str),
    ("inputs", x.inputs.map (Json.ofList File.Input.toJson)),
    ("outputs", x.outputs.map (Json.ofList File.Output.toJson)),
    ("properties", x.properties.map (Json.ofList File.Property.toJson))]

/-- `Trigger` from JSON (`specs/v1_5/formulation/workflow/trigger.rs` 23-48). -/
def File.Trigger.ofJson (j : Json) : Except String File.Trigger := do
  let o ← j.fields
  let bomRef' ← Json.req o "bom-ref" Json.string
  let uid' ← Json.req o "uid" Json.string
  let name' ← Json.opt o "name" Json.string
  let description' ← Json.opt o "description" Json.string
  let resourceReferences' ← Json.opt o "resourceReferences" (Json.array File.ResourceReference.ofJson)
  let type' ← Json.req o "type" Json.string
  let event' ← Json.opt o "event" File.TriggerEvent.ofJson
  let conditions' ← Json.opt o "conditions" (Json.array File.Condition.ofJson)
  let timeActivated' ← Json.opt o "timeActivated" Json.string
  let inputs' ← Json.opt o "inputs" (Json.array File.Input.ofJson)
  let outputs' ← Json.opt o "outputs" (Json.array File.Output.ofJson)
  let properties' ← Json.opt o "properties" (Json.array File.Property.ofJson)
  .ok { bomRef := bomRef',
        uid := uid',
        name := name',
        description := description',
        resourceReferences := resourceReferences',
        type := type',
        event := event',
        conditions := conditions',
        timeActivated := timeActivated',
        inputs := inputs',
        outputs := outputs',
        properties := properties' }

/-- `Volume` as JSON (`specs/v1_5/formulation/workflow/workspace/volume.rs` 10-28; the key `size_allocated` is as in the code). -/
def File.Volume.toJson (x : File.Volume) : Json :=
  .mk [("uid", x.uid.map Json.str),
    ("name", x.name.map Json.str),
    ("mode", x.mode.map Json.str),
    ("path", x.path.map Json.str),
    ("size_allocated", x.sizeAllocated.map Json.str),
    ("persistent", x.persistent.map Json.bool),
    ("remote", x.remote.map Json.bool),
    ("properties", x.properties.map (Json.ofList File.Property.toJson))]

/-- `Volume` from JSON (`specs/v1_5/formulation/workflow/workspace/volume.rs` 10-28; the key `size_allocated` is as in the code). -/
def File.Volume.ofJson (j : Json) : Except String File.Volume := do
  let o ← j.fields
  let uid' ← Json.opt o "uid" Json.string
  let name' ← Json.opt o "name" Json.string
  let mode' ← Json.opt o "mode" Json.string
  let path' ← Json.opt o "path" Json.string
  let sizeAllocated' ← Json.opt o "size_allocated" Json.string
  let persistent' ← Json.opt o "persistent" Json.boolean
  let remote' ← Json.opt o "remote" Json.boolean
  let properties' ← Json.opt o "properties" (Json.array File.Property.ofJson)
  .ok { uid := uid',
        name := name',
        mode := mode',
        path := path',
        sizeAllocated := sizeAllocated',
        persistent := persistent',
        remote := remote',
        properties := properties' }

/-- `Workspace` as JSON (`specs/v1_5/formulation/workflow/workspace/mod.rs` 21-47). -/
def File.Workspace.toJson (x : File.Workspace) : Json :=
  .mk [("bom-ref", some (Json.str x.bomRef)),
    ("uid", some (Json.str x.uid)),
    ("name", x.name.map Json.str),
    ("aliases", x.aliases.map (Json.ofList Json.str)),
    ("description", x.description.map Json.str),
    ("resourceReferences", x.resourceReferences.map (Json.ofList File.ResourceReference.toJson)),
    ("accessMode", x.accessMode.map Json.str),
    ("mountPath", x.mountPath.map Json.str),
    ("managedDataType", x.managedDataType.map Json.str),
    ("volumeRequest", x.volumeRequest.map Json.str),
    ("volume", x.volume.map File.Volume.toJson),
    ("properties", x.properties.map (Json.ofList File.Property.toJson))]

/-- `Workspace` from JSON (`specs/v1_5/formulation/workflow/workspace/mod.rs` 21-47). -/
def File.Workspace.ofJson (j : Json) : Except String File.Workspace := do
  let o ← j.fields
  let bomRef' ← Json.req o "bom-ref" Json.string
  let uid' ← Json.req o "uid" Json.string
  let name' ← Json.opt o "name" Json.string
  let aliases' ← Json.opt o "aliases" (Json.array Json.string)
  let description' ← Json.opt o "description" Json.string
  let resourceReferences' ← Json.opt o "resourceReferences" (Json.array File.ResourceReference.ofJson)
  let accessMode' ← Json.opt o "accessMode" Json.string
  let mountPath' ← Json.opt o "mountPath" Json.string
  let managedDataType' ← Json.opt o "managedDataType" Json.string
  let volumeRequest' ← Json.opt o "volumeRequest" Json.string
  let volume' ← Json.opt o "volume" File.Volume.ofJson
  let properties' ← Json.opt o "properties" (Json.array File.Property.ofJson)
  .ok { bomRef := bomRef',
        uid := uid',
        name := name',
        aliases := aliases',
        description := description',
        resourceReferences := resourceReferences',
        accessMode := accessMode',
        mountPath := mountPath',
        managedDataType := managedDataType',
        volumeRequest := volumeRequest',
        volume := volume',
        properties := properties' }

/-- `WorkflowTask` as JSON (`specs/v1_5/formulation/workflow/mod.rs` 281-312). -/
def File.WorkflowTask.toJson (x : File.WorkflowTask) : Json :=
  .mk [("bom-ref", some (Json.str x.bomRef)),
    ("uid", some (Json.str x.uid)),
    ("name", x.name.map Json.str),
    ("description", x.description.map Json.str),
    ("resourceReferences", x.resourceReferences.map (Json.ofList File.ResourceReference.toJson)),
    ("taskTypes", some ((Json.ofList Json.str) x.taskTypes)),
    ("trigger", x.trigger.map File.Trigger.toJson),
    ("steps", x.steps.map (Json.ofList File.Step.toJson)),
    ("inputs", x.inputs.map (Json.ofList File.Input.toJson)),
    ("outputs", x.outputs.map (Json.ofList File.Output.toJson)),
    ("timeStart", x.timeStart.map Json.str),
    ("timeEnd", x.timeEnd.map Json.str),
    ("workspaces", x.workspaces.map (Json.ofList File.Workspace.toJson)),
    ("runtimeTopology", x.runtimeTopology.map (Json.ofList File.Dependency.toJson)),
    ("properties", x.properties.map (Json.ofList File.Property.toJson))]

/-- `WorkflowTask` from JSON (`specs/v1_5/formulation/workflow/mod.rs` 281-312). -/
def File.WorkflowTask.ofJson (j : Json) : Except String File.WorkflowTask := do
  let o ← j.fields
  let bomRef' ← Json.req o "bom-ref" Json.string
  let uid' ← Json.req o "uid" Json.string
  let name' ← Json.opt o "name" Json.string
  let description' ← Json.opt o "description" Json.string
  let resourceReferences' ← Json.opt o "resourceReferences" (Json.array File.ResourceReference.ofJson)
  let taskTypes' ← Json.req o "taskTypes" (Json.array Json.string)
  let trigger' ← Json.opt o "trigger" File.Trigger.ofJson
  let steps' ← Json.opt o "steps" (Json.array File.Step.ofJson)
  let inputs' ← Json.opt o "inputs" (Json.array File.Input.ofJson)
  let outputs' ← Json.opt o "outputs" (Json.array File.Output.ofJson)
  let timeStart' ← Json.opt o "timeStart" Json.string
  let timeEnd' ← Json.opt o "timeEnd" Json.string
  let workspaces' ← Json.opt o "workspaces" (Json.array File.Workspace.ofJson)
  let runtimeTopology' ← Json.opt o "runtimeTopology" (Json.array File.Dependency.ofJson)
  let properties' ← Json.opt o "properties" (Json.array File.Property.ofJson)
  .ok { bomRef := bomRef',
        uid := uid',
        name := name',
        description := description',
        resourceReferences := resourceReferences',
        taskTypes := taskTypes',
        trigger := trigger',
        steps := steps',
        inputs := inputs',
        outputs := outputs',
        timeStart := timeStart',
        timeEnd := timeEnd',
        workspaces := workspaces',
        runtimeTopology := runtimeTopology',
        properties := properties' }

/-- `Workflow` as JSON (`specs/v1_5/formulation/workflow/mod.rs` 31-67). -/
def File.Workflow.toJson (x : File.Workflow) : Json :=
  .mk [("bom-ref", some (Json.str x.bomRef)),
    ("uid", some (Json.str x.uid)),
    ("name", x.name.map Json.str),
    ("description", x.description.map Json.str),
    ("resourceReferences", x.resourceReferences.map (Json.ofList File.ResourceReference.toJson)),
    ("tasks", x.tasks.map (Json.ofList File.WorkflowTask.toJson)),
    ("taskDependencies", x.taskDependencies.map (Json.ofList File.Dependency.toJson)),
    ("taskTypes", some ((Json.ofList Json.str) x.taskTypes)),
    ("trigger", x.trigger.map File.Trigger.toJson),
    ("steps", x.steps.map (Json.ofList File.Step.toJson)),
    ("inputs", x.inputs.map (Json.ofList File.Input.toJson)),
    ("outputs", x.outputs.map (Json.ofList File.Output.toJson)),
    ("timeStart", x.timeStart.map Json.str),
    ("timeEnd", x.timeEnd.map Json.str),
    ("workspaces", x.workspaces.map (Json.ofList File.Workspace.toJson)),
    ("runtimeTopology", x.runtimeTopology.map (Json.ofList File.Dependency.toJson)),
    ("properties", x.properties.map (Json.ofList File.Property.toJson))]

/-- `Workflow` from JSON (`specs/v1_5/formulation/workflow/mod.rs` 31-67). -/
def File.Workflow.ofJson (j : Json) : Except String File.Workflow := do
  let o ← j.fields
  let bomRef' ← Json.req o "bom-ref" Json.string
  let uid' ← Json.req o "uid" Json.string
  let name' ← Json.opt o "name" Json.string
  let description' ← Json.opt o "description" Json.string
  let resourceReferences' ← Json.opt o "resourceReferences" (Json.array File.ResourceReference.ofJson)
  let tasks' ← Json.opt o "tasks" (Json.array File.WorkflowTask.ofJson)
  let taskDependencies' ← Json.opt o "taskDependencies" (Json.array File.Dependency.ofJson)
  let taskTypes' ← Json.req o "taskTypes" (Json.array Json.string)
  let trigger' ← Json.opt o "trigger" File.Trigger.ofJson
  let steps' ← Json.opt o "steps" (Json.array File.Step.ofJson)
  let inputs' ← Json.opt o "inputs" (Json.array File.Input.ofJson)
  let outputs' ← Json.opt o "outputs" (Json.array File.Output.ofJson)
  let timeStart' ← Json.opt o "timeStart" Json.string
  let timeEnd' ← Json.opt o "timeEnd" Json.string
  let workspaces' ← Json.opt o "workspaces" (Json.array File.Workspace.ofJson)
  let runtimeTopology' ← Json.opt o "runtimeTopology" (Json.array File.Dependency.ofJson)
  let properties' ← Json.opt o "properties" (Json.array File.Property.ofJson)
  .ok { bomRef := bomRef',
        uid := uid',
        name := name',
        description := description',
        resourceReferences := resourceReferences',
        tasks := tasks',
        taskDependencies := taskDependencies',
        taskTypes := taskTypes',
        trigger := trigger',
        steps := steps',
        inputs := inputs',
        outputs := outputs',
        timeStart := timeStart',
        timeEnd := timeEnd',
        workspaces := workspaces',
        runtimeTopology := runtimeTopology',
        properties := properties' }

/-- `Formula` as JSON (`specs/v1_5/formulation/mod.rs` 24-37; the format has formulations from version 1.5 on). -/
def File.Formula.toJson (x : File.Formula) : Json :=
  .mk [("bom-ref", x.bomRef.map Json.str),
    ("components", x.components.map (Json.ofList File.Component.toJson)),
    ("services", x.services.map (Json.ofList File.Service.toJson)),
    ("workflows", x.workflows.map (Json.ofList File.Workflow.toJson)),
    ("properties", x.properties.map (Json.ofList File.Property.toJson))]

/-- `Formula` from JSON (`specs/v1_5/formulation/mod.rs` 24-37; the format has formulations from version 1.5 on). -/
def File.Formula.ofJson (j : Json) : Except String File.Formula := do
  let o ← j.fields
  let bomRef' ← Json.opt o "bom-ref" Json.string
  let components' ← Json.opt o "components" (Json.array (File.Component.ofJson .v1_5))
  let services' ← Json.opt o "services" (Json.array (File.Service.ofJson .v1_5))
  let workflows' ← Json.opt o "workflows" (Json.array File.Workflow.ofJson)
  let properties' ← Json.opt o "properties" (Json.array File.Property.ofJson)
  .ok { bomRef := bomRef',
        components := components',
        services := services',
        workflows := workflows',
        properties := properties' }

/-- `Bom` as JSON (`specs/common/bom.rs` 79-114). -/
def File.Bom.toJson {v : SpecVersion} (x : File.Bom v) : Json :=
  .mk ([("bomFormat", some (Json.str "CycloneDX")),
    ("specVersion", some (Json.str x.specVersion.display)),
    ("version", some (Json.nat x.version)),
    ("serialNumber", x.serialNumber.map Json.str),
    ("metadata", x.metadata.map File.Metadata.toJson),
    ("components", x.components.map (Json.ofList File.Component.toJson)),
    ("services", x.services.map (Json.ofList File.Service.toJson)),
    ("externalReferences", x.externalReferences.map (Json.ofList File.ExternalReference.toJson)),
    ("dependencies", x.dependencies.map (Json.ofList File.Dependency.toJson)),
    ("compositions", x.compositions.map (Json.ofList File.Composition.toJson))] ++
    since14 v [("vulnerabilities", (Since14.get v x.vulnerabilities).map (Json.ofList File.Vulnerability.toJson)),
    ("signature", (Since14.get v x.signature).map File.Signature.toJson)] [] ++
    since15 v [("annotations", (Since15.get v x.annotations).map (Json.ofList File.Annotation.toJson)),
    ("properties", (Since15.get v x.properties).map (Json.ofList File.Property.toJson)),
    ("formulation", (Since15.get v x.formulation).map (Json.ofList File.Formula.toJson))] [])

/-- `Bom` from JSON (`specs/common/bom.rs` 79-114). -/
def File.Bom.ofJson (v : SpecVersion) (j : Json) : Except String (File.Bom v) := do
  let o ← j.fields
  let bomFormat' ← Json.req o "bomFormat" Bom.formatOfJson
  let specVersion' ← Json.req o "specVersion" SpecVersion.ofJson
  let version' ← Json.req o "version" Json.u32
  let serialNumber' ← Json.opt o "serialNumber" Json.string
  let metadata' ← Json.opt o "metadata" (File.Metadata.ofJson v)
  let components' ← Json.opt o "components" (Json.array (File.Component.ofJson v))
  let services' ← Json.opt o "services" (Json.array (File.Service.ofJson v))
  let externalReferences' ← Json.opt o "externalReferences" (Json.array File.ExternalReference.ofJson)
  let dependencies' ← Json.opt o "dependencies" (Json.array File.Dependency.ofJson)
  let compositions' ← Json.opt o "compositions" (Json.array (File.Composition.ofJson v))
  let vulnerabilities' ← Since14.tryPut v (Json.opt o "vulnerabilities" (Json.array (File.Vulnerability.ofJson v)))
  let signature' ← Since14.tryPut v (Json.opt o "signature" File.Signature.ofJson)
  let annotations' ← Since15.tryPut v (Json.opt o "annotations" (Json.array File.Annotation.ofJson))
  let properties' ← Since15.tryPut v (Json.opt o "properties" (Json.array File.Property.ofJson))
  let formulation' ← Since15.tryPut v (Json.opt o "formulation" (Json.array File.Formula.ofJson))
  .ok { specVersion := specVersion',
        version := version',
        serialNumber := serialNumber',
        metadata := metadata',
        components := components',
        services := services',
        externalReferences := externalReferences',
        dependencies := dependencies',
        compositions := compositions',
        vulnerabilities := vulnerabilities',
        signature := signature',
        annotations := annotations',
        properties := properties',
        formulation := formulation' }

end Cdx
