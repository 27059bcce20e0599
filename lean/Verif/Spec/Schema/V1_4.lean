import Verif.Spec.Schema.Patterns

/-!
# Specification: the schema of CycloneDX 1.4

Written by `scripts/schema.py` from `bom-1.4.schema.json` (in
`cyclonedx-bom/test-utils/schema`).
-/

namespace Cdx.Spec.Schema14

/-- The schema of `bom-1.4.schema.json`. -/
def root : Schema :=
  .allOf [.kw (.type .object),
    .kw (.required ["bomFormat", "specVersion", "version"]),
    .kw (.closed ["$schema", "bomFormat", "specVersion", "serialNumber", "version", "metadata", "components", "services", "externalReferences", "dependencies", "compositions", "vulnerabilities", "signature"]),
    .properties [("$schema", .allOf [.kw (.type .string),
      .kw (.enum ["http://cyclonedx.org/schema/bom-1.4.schema.json"])]),
    ("bomFormat", .allOf [.kw (.type .string),
      .kw (.enum ["CycloneDX"])]),
    ("specVersion", .kw (.type .string)),
    ("serialNumber", .allOf [.kw (.type .string),
      .kw (.pattern patternSerial)]),
    ("version", .kw (.type .integer)),
    ("metadata", .ref "metadata"),
    ("components", .allOf [.kw (.type .array),
      .kw .uniqueItems,
      .items (.ref "component")]),
    ("services", .allOf [.kw (.type .array),
      .kw .uniqueItems,
      .items (.ref "service")]),
    ("externalReferences", .allOf [.kw (.type .array),
      .items (.ref "externalReference")]),
    ("dependencies", .allOf [.kw (.type .array),
      .kw .uniqueItems,
      .items (.ref "dependency")]),
    ("compositions", .allOf [.kw (.type .array),
      .kw .uniqueItems,
      .items (.ref "compositions")]),
    ("vulnerabilities", .allOf [.kw (.type .array),
      .kw .uniqueItems,
      .items (.ref "vulnerability")]),
    ("signature", .ref "signature")]]

/-- `definitions/refType` of `bom-1.4.schema.json`. -/
def refType : Schema :=
  .kw (.type .string)

/-- `definitions/metadata` of `bom-1.4.schema.json`. -/
def metadata : Schema :=
  .allOf [.kw (.type .object),
    .kw (.closed ["timestamp", "tools", "authors", "component", "manufacture", "supplier", "licenses", "properties"]),
    .properties [("timestamp", .allOf [.kw (.type .string),
      .kw (.format "date-time")]),
    ("tools", .allOf [.kw (.type .array),
      .items (.ref "tool")]),
    ("authors", .allOf [.kw (.type .array),
      .items (.ref "organizationalContact")]),
    ("component", .ref "component"),
    ("manufacture", .ref "organizationalEntity"),
    ("supplier", .ref "organizationalEntity"),
    ("licenses", .allOf [.kw (.type .array),
      .items (.ref "licenseChoice")]),
    ("properties", .allOf [.kw (.type .array),
      .items (.ref "property")])]]

/-- `definitions/tool` of `bom-1.4.schema.json`. -/
def tool : Schema :=
  .allOf [.kw (.type .object),
    .kw (.closed ["vendor", "name", "version", "hashes", "externalReferences"]),
    .properties [("vendor", .kw (.type .string)),
    ("name", .kw (.type .string)),
    ("version", .kw (.type .string)),
    ("hashes", .allOf [.kw (.type .array),
      .items (.ref "hash")]),
    ("externalReferences", .allOf [.kw (.type .array),
      .items (.ref "externalReference")])]]

/-- `definitions/organizationalEntity` of `bom-1.4.schema.json`. -/
def organizationalEntity : Schema :=
  .allOf [.kw (.type .object),
    .kw (.closed ["name", "url", "contact"]),
    .properties [("name", .kw (.type .string)),
    ("url", .allOf [.kw (.type .array),
      .items (.allOf [.kw (.type .string),
        .kw (.format "iri-reference")])]),
    ("contact", .allOf [.kw (.type .array),
      .items (.ref "organizationalContact")])]]

/-- `definitions/organizationalContact` of `bom-1.4.schema.json`. -/
def organizationalContact : Schema :=
  .allOf [.kw (.type .object),
    .kw (.closed ["name", "email", "phone"]),
    .properties [("name", .kw (.type .string)),
    ("email", .allOf [.kw (.type .string),
      .kw (.format "idn-email")]),
    ("phone", .kw (.type .string))]]

/-- `definitions/component` of `bom-1.4.schema.json`. -/
def component : Schema :=
  .allOf [.kw (.type .object),
    .kw (.required ["type", "name"]),
    .kw (.closed ["type", "mime-type", "bom-ref", "supplier", "author", "publisher", "group", "name", "version", "description", "scope", "hashes", "licenses", "copyright", "cpe", "purl", "swid", "modified", "pedigree", "externalReferences", "components", "evidence", "releaseNotes", "properties", "signature"]),
    .properties [("type", .allOf [.kw (.type .string),
      .kw (.enum ["application", "framework", "library", "container", "operating-system", "device", "firmware", "file"])]),
    ("mime-type", .allOf [.kw (.type .string),
      .kw (.pattern patternMime)]),
    ("bom-ref", .ref "refType"),
    ("supplier", .ref "organizationalEntity"),
    ("author", .kw (.type .string)),
    ("publisher", .kw (.type .string)),
    ("group", .kw (.type .string)),
    ("name", .kw (.type .string)),
    ("version", .kw (.type .string)),
    ("description", .kw (.type .string)),
    ("scope", .allOf [.kw (.type .string),
      .kw (.enum ["required", "optional", "excluded"])]),
    ("hashes", .allOf [.kw (.type .array),
      .items (.ref "hash")]),
    ("licenses", .allOf [.kw (.type .array),
      .items (.ref "licenseChoice")]),
    ("copyright", .kw (.type .string)),
    ("cpe", .kw (.type .string)),
    ("purl", .kw (.type .string)),
    ("swid", .ref "swid"),
    ("modified", .kw (.type .boolean)),
    ("pedigree", .allOf [.kw (.type .object),
      .kw (.closed ["ancestors", "descendants", "variants", "commits", "patches", "notes"]),
      .properties [("ancestors", .allOf [.kw (.type .array),
        .items (.ref "component")]),
      ("descendants", .allOf [.kw (.type .array),
        .items (.ref "component")]),
      ("variants", .allOf [.kw (.type .array),
        .items (.ref "component")]),
      ("commits", .allOf [.kw (.type .array),
        .items (.ref "commit")]),
      ("patches", .allOf [.kw (.type .array),
        .items (.ref "patch")]),
      ("notes", .kw (.type .string))]]),
    ("externalReferences", .allOf [.kw (.type .array),
      .items (.ref "externalReference")]),
    ("components", .allOf [.kw (.type .array),
      .kw .uniqueItems,
      .items (.ref "component")]),
    ("evidence", .ref "componentEvidence"),
    ("releaseNotes", .ref "releaseNotes"),
    ("properties", .allOf [.kw (.type .array),
      .items (.ref "property")]),
    ("signature", .ref "signature")]]

/-- `definitions/swid` of `bom-1.4.schema.json`. -/
def swid : Schema :=
  .allOf [.kw (.type .object),
    .kw (.required ["tagId", "name"]),
    .kw (.closed ["tagId", "name", "version", "tagVersion", "patch", "text", "url"]),
    .properties [("tagId", .kw (.type .string)),
    ("name", .kw (.type .string)),
    ("version", .kw (.type .string)),
    ("tagVersion", .kw (.type .integer)),
    ("patch", .kw (.type .boolean)),
    ("text", .ref "attachment"),
    ("url", .allOf [.kw (.type .string),
      .kw (.format "iri-reference")])]]

/-- `definitions/attachment` of `bom-1.4.schema.json`. -/
def attachment : Schema :=
  .allOf [.kw (.type .object),
    .kw (.required ["content"]),
    .kw (.closed ["contentType", "encoding", "content"]),
    .properties [("contentType", .kw (.type .string)),
    ("encoding", .allOf [.kw (.type .string),
      .kw (.enum ["base64"])]),
    ("content", .kw (.type .string))]]

/-- `definitions/hash` of `bom-1.4.schema.json`. -/
def hash : Schema :=
  .allOf [.kw (.type .object),
    .kw (.required ["alg", "content"]),
    .kw (.closed ["alg", "content"]),
    .properties [("alg", .ref "hash-alg"),
    ("content", .ref "hash-content")]]

/-- `definitions/hash-alg` of `bom-1.4.schema.json`. -/
def hashAlg : Schema :=
  .allOf [.kw (.type .string),
    .kw (.enum ["MD5", "SHA-1", "SHA-256", "SHA-384", "SHA-512", "SHA3-256", "SHA3-384", "SHA3-512", "BLAKE2b-256", "BLAKE2b-384", "BLAKE2b-512", "BLAKE3"])]

/-- `definitions/hash-content` of `bom-1.4.schema.json`. -/
def hashContent : Schema :=
  .allOf [.kw (.type .string),
    .kw (.pattern patternHash)]

/-- `definitions/license` of `bom-1.4.schema.json`. -/
def license : Schema :=
  .allOf [.kw (.type .object),
    .kw (.closed ["id", "name", "text", "url"]),
    .properties [("id", .ref "spdx"),
    ("name", .kw (.type .string)),
    ("text", .ref "attachment"),
    ("url", .allOf [.kw (.type .string),
      .kw (.format "iri-reference")])],
    .oneOf [.kw (.required ["id"]),
    .kw (.required ["name"])]]

/-- `definitions/licenseChoice` of `bom-1.4.schema.json`. -/
def licenseChoice : Schema :=
  .allOf [.kw (.type .object),
    .kw (.closed ["license", "expression"]),
    .properties [("license", .ref "license"),
    ("expression", .kw (.type .string))],
    .oneOf [.kw (.required ["license"]),
    .kw (.required ["expression"])]]

/-- `definitions/commit` of `bom-1.4.schema.json`. -/
def commit : Schema :=
  .allOf [.kw (.type .object),
    .kw (.closed ["uid", "url", "author", "committer", "message"]),
    .properties [("uid", .kw (.type .string)),
    ("url", .allOf [.kw (.type .string),
      .kw (.format "iri-reference")]),
    ("author", .ref "identifiableAction"),
    ("committer", .ref "identifiableAction"),
    ("message", .kw (.type .string))]]

/-- `definitions/patch` of `bom-1.4.schema.json`. -/
def patch : Schema :=
  .allOf [.kw (.type .object),
    .kw (.required ["type"]),
    .kw (.closed ["type", "diff", "resolves"]),
    .properties [("type", .allOf [.kw (.type .string),
      .kw (.enum ["unofficial", "monkey", "backport", "cherry-pick"])]),
    ("diff", .ref "diff"),
    ("resolves", .allOf [.kw (.type .array),
      .items (.ref "issue")])]]

/-- `definitions/diff` of `bom-1.4.schema.json`. -/
def diff : Schema :=
  .allOf [.kw (.type .object),
    .kw (.closed ["text", "url"]),
    .properties [("text", .ref "attachment"),
    ("url", .allOf [.kw (.type .string),
      .kw (.format "iri-reference")])]]

/-- `definitions/issue` of `bom-1.4.schema.json`. -/
def issue : Schema :=
  .allOf [.kw (.type .object),
    .kw (.required ["type"]),
    .kw (.closed ["type", "id", "name", "description", "source", "references"]),
    .properties [("type", .allOf [.kw (.type .string),
      .kw (.enum ["defect", "enhancement", "security"])]),
    ("id", .kw (.type .string)),
    ("name", .kw (.type .string)),
    ("description", .kw (.type .string)),
    ("source", .allOf [.kw (.type .object),
      .kw (.closed ["name", "url"]),
      .properties [("name", .kw (.type .string)),
      ("url", .allOf [.kw (.type .string),
        .kw (.format "iri-reference")])]]),
    ("references", .allOf [.kw (.type .array),
      .items (.allOf [.kw (.type .string),
        .kw (.format "iri-reference")])])]]

/-- `definitions/identifiableAction` of `bom-1.4.schema.json`. -/
def identifiableAction : Schema :=
  .allOf [.kw (.type .object),
    .kw (.closed ["timestamp", "name", "email"]),
    .properties [("timestamp", .allOf [.kw (.type .string),
      .kw (.format "date-time")]),
    ("name", .kw (.type .string)),
    ("email", .allOf [.kw (.type .string),
      .kw (.format "idn-email")])]]

/-- `definitions/externalReference` of `bom-1.4.schema.json`. -/
def externalReference : Schema :=
  .allOf [.kw (.type .object),
    .kw (.required ["url", "type"]),
    .kw (.closed ["url", "comment", "type", "hashes"]),
    .properties [("url", .allOf [.kw (.type .string),
      .kw (.format "iri-reference")]),
    ("comment", .kw (.type .string)),
    ("type", .allOf [.kw (.type .string),
      .kw (.enum ["vcs", "issue-tracker", "website", "advisories", "bom", "mailing-list", "social", "chat", "documentation", "support", "distribution", "license", "build-meta", "build-system", "release-notes", "other"])]),
    ("hashes", .allOf [.kw (.type .array),
      .items (.ref "hash")])]]

/-- `definitions/dependency` of `bom-1.4.schema.json`. -/
def dependency : Schema :=
  .allOf [.kw (.type .object),
    .kw (.required ["ref"]),
    .kw (.closed ["ref", "dependsOn"]),
    .properties [("ref", .ref "refType"),
    ("dependsOn", .allOf [.kw (.type .array),
      .kw .uniqueItems,
      .items (.ref "refType")])]]

/-- `definitions/service` of `bom-1.4.schema.json`. -/
def service : Schema :=
  .allOf [.kw (.type .object),
    .kw (.required ["name"]),
    .kw (.closed ["bom-ref", "provider", "group", "name", "version", "description", "endpoints", "authenticated", "x-trust-boundary", "data", "licenses", "externalReferences", "services", "releaseNotes", "properties", "signature"]),
    .properties [("bom-ref", .ref "refType"),
    ("provider", .ref "organizationalEntity"),
    ("group", .kw (.type .string)),
    ("name", .kw (.type .string)),
    ("version", .kw (.type .string)),
    ("description", .kw (.type .string)),
    ("endpoints", .allOf [.kw (.type .array),
      .items (.allOf [.kw (.type .string),
        .kw (.format "iri-reference")])]),
    ("authenticated", .kw (.type .boolean)),
    ("x-trust-boundary", .kw (.type .boolean)),
    ("data", .allOf [.kw (.type .array),
      .items (.ref "dataClassification")]),
    ("licenses", .allOf [.kw (.type .array),
      .items (.ref "licenseChoice")]),
    ("externalReferences", .allOf [.kw (.type .array),
      .items (.ref "externalReference")]),
    ("services", .allOf [.kw (.type .array),
      .kw .uniqueItems,
      .items (.ref "service")]),
    ("releaseNotes", .ref "releaseNotes"),
    ("properties", .allOf [.kw (.type .array),
      .items (.ref "property")]),
    ("signature", .ref "signature")]]

/-- `definitions/dataClassification` of `bom-1.4.schema.json`. -/
def dataClassification : Schema :=
  .allOf [.kw (.type .object),
    .kw (.required ["flow", "classification"]),
    .kw (.closed ["flow", "classification"]),
    .properties [("flow", .ref "dataFlow"),
    ("classification", .kw (.type .string))]]

/-- `definitions/dataFlow` of `bom-1.4.schema.json`. -/
def dataFlow : Schema :=
  .allOf [.kw (.type .string),
    .kw (.enum ["inbound", "outbound", "bi-directional", "unknown"])]

/-- `definitions/copyright` of `bom-1.4.schema.json`. -/
def copyright : Schema :=
  .allOf [.kw (.type .object),
    .kw (.required ["text"]),
    .kw (.closed ["text"]),
    .properties [("text", .kw (.type .string))]]

/-- `definitions/componentEvidence` of `bom-1.4.schema.json`. -/
def componentEvidence : Schema :=
  .allOf [.kw (.type .object),
    .kw (.closed ["licenses", "copyright"]),
    .properties [("licenses", .allOf [.kw (.type .array),
      .items (.ref "licenseChoice")]),
    ("copyright", .allOf [.kw (.type .array),
      .items (.ref "copyright")])]]

/-- `definitions/compositions` of `bom-1.4.schema.json`. -/
def compositions : Schema :=
  .allOf [.kw (.type .object),
    .kw (.required ["aggregate"]),
    .kw (.closed ["aggregate", "assemblies", "dependencies", "signature"]),
    .properties [("aggregate", .ref "aggregateType"),
    ("assemblies", .allOf [.kw (.type .array),
      .kw .uniqueItems,
      .items (.kw (.type .string))]),
    ("dependencies", .allOf [.kw (.type .array),
      .kw .uniqueItems,
      .items (.kw (.type .string))]),
    ("signature", .ref "signature")]]

/-- `definitions/aggregateType` of `bom-1.4.schema.json`. -/
def aggregateType : Schema :=
  .allOf [.kw (.type .string),
    .kw (.enum ["complete", "incomplete", "incomplete_first_party_only", "incomplete_third_party_only", "unknown", "not_specified"])]

/-- `definitions/property` of `bom-1.4.schema.json`. -/
def property : Schema :=
  .allOf [.kw (.type .object),
    .properties [("name", .kw (.type .string)),
    ("value", .kw (.type .string))]]

/-- `definitions/localeType` of `bom-1.4.schema.json`. -/
def localeType : Schema :=
  .allOf [.kw (.type .string),
    .kw (.pattern patternLocale)]

/-- `definitions/releaseType` of `bom-1.4.schema.json`. -/
def releaseType : Schema :=
  .kw (.type .string)

/-- `definitions/note` of `bom-1.4.schema.json`. -/
def note : Schema :=
  .allOf [.kw (.type .object),
    .kw (.required ["text"]),
    .kw (.closed ["locale", "text"]),
    .properties [("locale", .ref "localeType"),
    ("text", .ref "attachment")]]

/-- `definitions/releaseNotes` of `bom-1.4.schema.json`. -/
def releaseNotes : Schema :=
  .allOf [.kw (.type .object),
    .kw (.required ["type"]),
    .kw (.closed ["type", "title", "featuredImage", "socialImage", "description", "timestamp", "aliases", "tags", "resolves", "notes", "properties"]),
    .properties [("type", .ref "releaseType"),
    ("title", .kw (.type .string)),
    ("featuredImage", .allOf [.kw (.type .string),
      .kw (.format "iri-reference")]),
    ("socialImage", .allOf [.kw (.type .string),
      .kw (.format "iri-reference")]),
    ("description", .kw (.type .string)),
    ("timestamp", .allOf [.kw (.type .string),
      .kw (.format "date-time")]),
    ("aliases", .allOf [.kw (.type .array),
      .items (.kw (.type .string))]),
    ("tags", .allOf [.kw (.type .array),
      .items (.kw (.type .string))]),
    ("resolves", .allOf [.kw (.type .array),
      .items (.ref "issue")]),
    ("notes", .allOf [.kw (.type .array),
      .items (.ref "note")]),
    ("properties", .allOf [.kw (.type .array),
      .items (.ref "property")])]]

/-- `definitions/advisory` of `bom-1.4.schema.json`. -/
def advisory : Schema :=
  .allOf [.kw (.type .object),
    .kw (.required ["url"]),
    .kw (.closed ["title", "url"]),
    .properties [("title", .kw (.type .string)),
    ("url", .allOf [.kw (.type .string),
      .kw (.format "iri-reference")])]]

/-- `definitions/cwe` of `bom-1.4.schema.json`. -/
def cwe : Schema :=
  .allOf [.kw (.type .integer),
    .kw (.minimum 1)]

/-- `definitions/severity` of `bom-1.4.schema.json`. -/
def severity : Schema :=
  .allOf [.kw (.type .string),
    .kw (.enum ["critical", "high", "medium", "low", "info", "none", "unknown"])]

/-- `definitions/scoreMethod` of `bom-1.4.schema.json`. -/
def scoreMethod : Schema :=
  .allOf [.kw (.type .string),
    .kw (.enum ["CVSSv2", "CVSSv3", "CVSSv31", "OWASP", "other"])]

/-- `definitions/impactAnalysisState` of `bom-1.4.schema.json`. -/
def impactAnalysisState : Schema :=
  .allOf [.kw (.type .string),
    .kw (.enum ["resolved", "resolved_with_pedigree", "exploitable", "in_triage", "false_positive", "not_affected"])]

/-- `definitions/impactAnalysisJustification` of `bom-1.4.schema.json`. -/
def impactAnalysisJustification : Schema :=
  .allOf [.kw (.type .string),
    .kw (.enum ["code_not_present", "code_not_reachable", "requires_configuration", "requires_dependency", "requires_environment", "protected_by_compiler", "protected_at_runtime", "protected_at_perimeter", "protected_by_mitigating_control"])]

/-- `definitions/rating` of `bom-1.4.schema.json`. -/
def rating : Schema :=
  .allOf [.kw (.type .object),
    .kw (.closed ["source", "score", "severity", "method", "vector", "justification"]),
    .properties [("source", .ref "vulnerabilitySource"),
    ("score", .kw (.type .number)),
    ("severity", .ref "severity"),
    ("method", .ref "scoreMethod"),
    ("vector", .kw (.type .string)),
    ("justification", .kw (.type .string))]]

/-- `definitions/vulnerabilitySource` of `bom-1.4.schema.json`. -/
def vulnerabilitySource : Schema :=
  .allOf [.kw (.type .object),
    .kw (.closed ["url", "name"]),
    .properties [("url", .kw (.type .string)),
    ("name", .kw (.type .string))]]

/-- `definitions/vulnerability` of `bom-1.4.schema.json`. -/
def vulnerability : Schema :=
  .allOf [.kw (.type .object),
    .kw (.closed ["bom-ref", "id", "source", "references", "ratings", "cwes", "description", "detail", "recommendation", "advisories", "created", "published", "updated", "credits", "tools", "analysis", "affects", "properties"]),
    .properties [("bom-ref", .ref "refType"),
    ("id", .kw (.type .string)),
    ("source", .ref "vulnerabilitySource"),
    ("references", .allOf [.kw (.type .array),
      .items (.allOf [.kw (.required ["id", "source"]),
        .kw (.closed ["id", "source"]),
        .properties [("id", .kw (.type .string)),
        ("source", .ref "vulnerabilitySource")]])]),
    ("ratings", .allOf [.kw (.type .array),
      .items (.ref "rating")]),
    ("cwes", .allOf [.kw (.type .array),
      .items (.ref "cwe")]),
    ("description", .kw (.type .string)),
    ("detail", .kw (.type .string)),
    ("recommendation", .kw (.type .string)),
    ("advisories", .allOf [.kw (.type .array),
      .items (.ref "advisory")]),
    ("created", .allOf [.kw (.type .string),
      .kw (.format "date-time")]),
    ("published", .allOf [.kw (.type .string),
      .kw (.format "date-time")]),
    ("updated", .allOf [.kw (.type .string),
      .kw (.format "date-time")]),
    ("credits", .allOf [.kw (.type .object),
      .kw (.closed ["organizations", "individuals"]),
      .properties [("organizations", .allOf [.kw (.type .array),
        .items (.ref "organizationalEntity")]),
      ("individuals", .allOf [.kw (.type .array),
        .items (.ref "organizationalContact")])]]),
    ("tools", .allOf [.kw (.type .array),
      .items (.ref "tool")]),
    ("analysis", .allOf [.kw (.type .object),
      .kw (.closed ["state", "justification", "response", "detail"]),
      .properties [("state", .ref "impactAnalysisState"),
      ("justification", .ref "impactAnalysisJustification"),
      ("response", .allOf [.kw (.type .array),
        .items (.allOf [.kw (.type .string),
          .kw (.enum ["can_not_fix", "will_not_fix", "update", "rollback", "workaround_available"])])]),
      ("detail", .kw (.type .string))]]),
    ("affects", .allOf [.kw (.type .array),
      .kw .uniqueItems,
      .items (.allOf [.kw (.required ["ref"]),
        .kw (.closed ["ref", "versions"]),
        .properties [("ref", .ref "refType"),
        ("versions", .allOf [.kw (.type .array),
          .items (.allOf [.kw (.closed ["version", "range", "status"]),
            .properties [("version", .ref "version"),
            ("range", .ref "range"),
            ("status", .ref "affectedStatus")],
            .oneOf [.kw (.required ["version"]),
            .kw (.required ["range"])]])])]])]),
    ("properties", .allOf [.kw (.type .array),
      .items (.ref "property")])]]

/-- `definitions/affectedStatus` of `bom-1.4.schema.json`. -/
def affectedStatus : Schema :=
  .allOf [.kw (.type .string),
    .kw (.enum ["affected", "unaffected", "unknown"])]

/-- `definitions/version` of `bom-1.4.schema.json`. -/
def version : Schema :=
  .allOf [.kw (.type .string),
    .kw (.minLength 1),
    .kw (.maxLength 1024)]

/-- `definitions/range` of `bom-1.4.schema.json`. -/
def range : Schema :=
  .allOf [.kw (.type .string),
    .kw (.minLength 1),
    .kw (.maxLength 1024)]

/-- `definitions/signature` of `bom-1.4.schema.json`. -/
def signature : Schema :=
  .ref "jsf/signature"

/-- The definitions by name. -/
def defs : List (String × Schema) := [
  ("root", root),
  ("refType", refType),
  ("metadata", metadata),
  ("tool", tool),
  ("organizationalEntity", organizationalEntity),
  ("organizationalContact", organizationalContact),
  ("component", component),
  ("swid", swid),
  ("attachment", attachment),
  ("hash", hash),
  ("hash-alg", hashAlg),
  ("hash-content", hashContent),
  ("license", license),
  ("licenseChoice", licenseChoice),
  ("commit", commit),
  ("patch", patch),
  ("diff", diff),
  ("issue", issue),
  ("identifiableAction", identifiableAction),
  ("externalReference", externalReference),
  ("dependency", dependency),
  ("service", service),
  ("dataClassification", dataClassification),
  ("dataFlow", dataFlow),
  ("copyright", copyright),
  ("componentEvidence", componentEvidence),
  ("compositions", compositions),
  ("aggregateType", aggregateType),
  ("property", property),
  ("localeType", localeType),
  ("releaseType", releaseType),
  ("note", note),
  ("releaseNotes", releaseNotes),
  ("advisory", advisory),
  ("cwe", cwe),
  ("severity", severity),
  ("scoreMethod", scoreMethod),
  ("impactAnalysisState", impactAnalysisState),
  ("impactAnalysisJustification", impactAnalysisJustification),
  ("rating", rating),
  ("vulnerabilitySource", vulnerabilitySource),
  ("vulnerability", vulnerability),
  ("affectedStatus", affectedStatus),
  ("version", version),
  ("range", range),
  ("signature", signature)]

end Cdx.Spec.Schema14
