import Verif.Spec.Schema.Patterns

/-!
# Specification: the schema of CycloneDX 1.3

Written by `scripts/schema.py` from `bom-1.3.schema.json` (in
`cyclonedx-bom/test-utils/schema`).
-/

namespace Cdx.Spec.Schema13

/-- The schema of `bom-1.3.schema.json`. -/
def root : Schema :=
  .allOf [.kw (.type .object),
    .kw (.required ["bomFormat", "specVersion", "version"]),
    .properties [("bomFormat", .allOf [.kw (.type .string),
      .kw (.enum ["CycloneDX"])]),
    ("specVersion", .kw (.type .string)),
    ("serialNumber", .allOf [.kw (.type .string),
      .kw (.pattern patternSerial)]),
    ("version", .kw (.type .integer)),
    ("metadata", .ref "metadata"),
    ("components", .allOf [.kw (.type .array),
      .kw .uniqueItems,
      .items (.ref "component")]),
    ("services", .allOf [.kw (.type .array),
      .kw .uniqueItems,
      .items (.ref "service")]),
    ("externalReferences", .allOf [.kw (.type .array),
      .items (.ref "externalReference")]),
    ("dependencies", .allOf [.kw (.type .array),
      .kw .uniqueItems,
      .items (.ref "dependency")]),
    ("compositions", .allOf [.kw (.type .array),
      .kw .uniqueItems,
      .items (.ref "compositions")])]]

/-- `definitions/refType` of `bom-1.3.schema.json`. -/
def refType : Schema :=
  .kw (.type .string)

/-- `definitions/metadata` of `bom-1.3.schema.json`. -/
def metadata : Schema :=
  .allOf [.kw (.type .object),
    .properties [("timestamp", .allOf [.kw (.type .string),
      .kw (.format "date-time")]),
    ("tools", .allOf [.kw (.type .array),
      .items (.ref "tool")]),
    ("authors", .allOf [.kw (.type .array),
      .items (.ref "organizationalContact")]),
    ("component", .ref "component"),
    ("manufacture", .ref "organizationalEntity"),
    ("supplier", .ref "organizationalEntity"),
    ("licenses", .allOf [.kw (.type .array),
      .items (.ref "licenseChoice")]),
    ("properties", .allOf [.kw (.type .array),
      .items (.ref "property")])]]

/-- `definitions/tool` of `bom-1.3.schema.json`. -/
def tool : Schema :=
  .allOf [.kw (.type .object),
    .properties [("vendor", .kw (.type .string)),
    ("name", .kw (.type .string)),
    ("version", .kw (.type .string)),
    ("hashes", .allOf [.kw (.type .array),
      .items (.ref "hash")])]]

/-- `definitions/organizationalEntity` of `bom-1.3.schema.json`. -/
def organizationalEntity : Schema :=
  .allOf [.kw (.type .object),
    .properties [("name", .kw (.type .string)),
    ("url", .allOf [.kw (.type .array),
      .items (.allOf [.kw (.type .string),
        .kw (.format "iri-reference")])]),
    ("contact", .allOf [.kw (.type .array),
      .items (.ref "organizationalContact")])]]

/-- `definitions/organizationalContact` of `bom-1.3.schema.json`. -/
def organizationalContact : Schema :=
  .allOf [.kw (.type .object),
    .properties [("name", .kw (.type .string)),
    ("email", .kw (.type .string)),
    ("phone", .kw (.type .string))]]

/-- `definitions/component` of `bom-1.3.schema.json`. -/
def component : Schema :=
  .allOf [.kw (.type .object),
    .kw (.required ["type", "name", "version"]),
    .properties [("type", .allOf [.kw (.type .string),
      .kw (.enum ["application", "framework", "library", "container", "operating-system", "device", "firmware", "file"])]),
    ("mime-type", .allOf [.kw (.type .string),
      .kw (.pattern patternMime)]),
    ("bom-ref", .ref "refType"),
    ("supplier", .ref "organizationalEntity"),
    ("author", .kw (.type .string)),
    ("publisher", .kw (.type .string)),
    ("group", .kw (.type .string)),
    ("name", .kw (.type .string)),
    ("version", .kw (.type .string)),
    ("description", .kw (.type .string)),
    ("scope", .allOf [.kw (.type .string),
      .kw (.enum ["required", "optional", "excluded"])]),
    ("hashes", .allOf [.kw (.type .array),
      .items (.ref "hash")]),
    ("licenses", .allOf [.kw (.type .array),
      .items (.ref "licenseChoice")]),
    ("copyright", .kw (.type .string)),
    ("cpe", .kw (.type .string)),
    ("purl", .kw (.type .string)),
    ("swid", .ref "swid"),
    ("modified", .kw (.type .boolean)),
    ("pedigree", .allOf [.kw (.type .object),
      .properties [("ancestors", .allOf [.kw (.type .array),
        .items (.ref "component")]),
      ("descendants", .allOf [.kw (.type .array),
        .items (.ref "component")]),
      ("variants", .allOf [.kw (.type .array),
        .items (.ref "component")]),
      ("commits", .allOf [.kw (.type .array),
        .items (.ref "commit")]),
      ("patches", .allOf [.kw (.type .array),
        .items (.ref "patch")]),
      ("notes", .kw (.type .string))]]),
    ("externalReferences", .allOf [.kw (.type .array),
      .items (.ref "externalReference")]),
    ("components", .allOf [.kw (.type .array),
      .kw .uniqueItems,
      .items (.ref "component")]),
    ("evidence", .ref "componentEvidence"),
    ("properties", .allOf [.kw (.type .array),
      .items (.ref "property")])]]

/-- `definitions/swid` of `bom-1.3.schema.json`. -/
def swid : Schema :=
  .allOf [.kw (.type .object),
    .kw (.required ["tagId", "name"]),
    .properties [("tagId", .kw (.type .string)),
    ("name", .kw (.type .string)),
    ("version", .kw (.type .string)),
    ("tagVersion", .kw (.type .integer)),
    ("patch", .kw (.type .boolean)),
    ("text", .ref "attachment"),
    ("url", .allOf [.kw (.type .string),
      .kw (.format "iri-reference")])]]

/-- `definitions/attachment` of `bom-1.3.schema.json`. -/
def attachment : Schema :=
  .allOf [.kw (.type .object),
    .kw (.required ["content"]),
    .properties [("contentType", .kw (.type .string)),
    ("encoding", .allOf [.kw (.type .string),
      .kw (.enum ["base64"])]),
    ("content", .kw (.type .string))]]

/-- `definitions/hash` of `bom-1.3.schema.json`. -/
def hash : Schema :=
  .allOf [.kw (.type .object),
    .kw (.required ["alg", "content"]),
    .properties [("alg", .ref "hash-alg"),
    ("content", .ref "hash-content")]]

/-- `definitions/hash-alg` of `bom-1.3.schema.json`. -/
def hashAlg : Schema :=
  .allOf [.kw (.type .string),
    .kw (.enum ["MD5", "SHA-1", "SHA-256", "SHA-384", "SHA-512", "SHA3-256", "SHA3-384", "SHA3-512", "BLAKE2b-256", "BLAKE2b-384", "BLAKE2b-512", "BLAKE3"])]

/-- `definitions/hash-content` of `bom-1.3.schema.json`. -/
def hashContent : Schema :=
  .allOf [.kw (.type .string),
    .kw (.pattern patternHash)]

/-- `definitions/license` of `bom-1.3.schema.json`. -/
def license : Schema :=
  .allOf [.kw (.type .object),
    .properties [("id", .ref "spdx"),
    ("name", .kw (.type .string)),
    ("text", .ref "attachment"),
    ("url", .allOf [.kw (.type .string),
      .kw (.format "iri-reference")])],
    .oneOf [.kw (.required ["id"]),
    .kw (.required ["name"])]]

/-- `definitions/licenseChoice` of `bom-1.3.schema.json`. -/
def licenseChoice : Schema :=
  .allOf [.kw (.type .object),
    .properties [("license", .ref "license"),
    ("expression", .kw (.type .string))],
    .oneOf [.kw (.required ["license"]),
    .kw (.required ["expression"])]]

/-- `definitions/commit` of `bom-1.3.schema.json`. -/
def commit : Schema :=
  .allOf [.kw (.type .object),
    .properties [("uid", .kw (.type .string)),
    ("url", .allOf [.kw (.type .string),
      .kw (.format "iri-reference")]),
    ("author", .ref "identifiableAction"),
    ("committer", .ref "identifiableAction"),
    ("message", .kw (.type .string))]]

/-- `definitions/patch` of `bom-1.3.schema.json`. -/
def patch : Schema :=
  .allOf [.kw (.type .object),
    .kw (.required ["type"]),
    .properties [("type", .allOf [.kw (.type .string),
      .kw (.enum ["unofficial", "monkey", "backport", "cherry-pick"])]),
    ("diff", .ref "diff"),
    ("resolves", .allOf [.kw (.type .array),
      .items (.ref "issue")])]]

/-- `definitions/diff` of `bom-1.3.schema.json`. -/
def diff : Schema :=
  .allOf [.kw (.type .object),
    .properties [("text", .ref "attachment"),
    ("url", .allOf [.kw (.type .string),
      .kw (.format "iri-reference")])]]

/-- `definitions/issue` of `bom-1.3.schema.json`. -/
def issue : Schema :=
  .allOf [.kw (.type .object),
    .kw (.required ["type"]),
    .properties [("type", .allOf [.kw (.type .string),
      .kw (.enum ["defect", "enhancement", "security"])]),
    ("id", .kw (.type .string)),
    ("name", .kw (.type .string)),
    ("description", .kw (.type .string)),
    ("source", .allOf [.kw (.type .object),
      .properties [("name", .kw (.type .string)),
      ("url", .allOf [.kw (.type .string),
        .kw (.format "iri-reference")])]]),
    ("references", .allOf [.kw (.type .array),
      .items (.allOf [.kw (.type .string),
        .kw (.format "iri-reference")])])]]

/-- `definitions/identifiableAction` of `bom-1.3.schema.json`. -/
def identifiableAction : Schema :=
  .allOf [.kw (.type .object),
    .properties [("timestamp", .allOf [.kw (.type .string),
      .kw (.format "date-time")]),
    ("name", .kw (.type .string)),
    ("email", .allOf [.kw (.type .string),
      .kw (.format "idn-email")])]]

/-- `definitions/externalReference` of `bom-1.3.schema.json`. -/
def externalReference : Schema :=
  .allOf [.kw (.type .object),
    .kw (.required ["url", "type"]),
    .properties [("url", .allOf [.kw (.type .string),
      .kw (.format "iri-reference")]),
    ("comment", .kw (.type .string)),
    ("type", .allOf [.kw (.type .string),
      .kw (.enum ["vcs", "issue-tracker", "website", "advisories", "bom", "mailing-list", "social", "chat", "documentation", "support", "distribution", "license", "build-meta", "build-system", "other"])]),
    ("hashes", .allOf [.kw (.type .array),
      .items (.ref "hash")])]]

/-- `definitions/dependency` of `bom-1.3.schema.json`. -/
def dependency : Schema :=
  .allOf [.kw (.type .object),
    .kw (.required ["ref"]),
    .properties [("ref", .ref "refType"),
    ("dependsOn", .allOf [.kw (.type .array),
      .kw .uniqueItems,
      .items (.ref "refType")])]]

/-- `definitions/service` of `bom-1.3.schema.json`. -/
def service : Schema :=
  .allOf [.kw (.type .object),
    .kw (.required ["name"]),
    .properties [("bom-ref", .ref "refType"),
    ("provider", .ref "organizationalEntity"),
    ("group", .kw (.type .string)),
    ("name", .kw (.type .string)),
    ("version", .kw (.type .string)),
    ("description", .kw (.type .string)),
    ("endpoints", .allOf [.kw (.type .array),
      .items (.allOf [.kw (.type .string),
        .kw (.format "iri-reference")])]),
    ("authenticated", .kw (.type .boolean)),
    ("x-trust-boundary", .kw (.type .boolean)),
    ("data", .allOf [.kw (.type .array),
      .items (.ref "dataClassification")]),
    ("licenses", .allOf [.kw (.type .array),
      .items (.ref "licenseChoice")]),
    ("externalReferences", .allOf [.kw (.type .array),
      .items (.ref "externalReference")]),
    ("services", .allOf [.kw (.type .array),
      .kw .uniqueItems,
      .items (.ref "service")]),
    ("properties", .allOf [.kw (.type .array),
      .items (.ref "property")])]]

/-- `definitions/dataClassification` of `bom-1.3.schema.json`. -/
def dataClassification : Schema :=
  .allOf [.kw (.type .object),
    .kw (.required ["flow", "classification"]),
    .properties [("flow", .ref "dataFlow"),
    ("classification", .kw (.type .string))]]

/-- `definitions/dataFlow` of `bom-1.3.schema.json`. -/
def dataFlow : Schema :=
  .allOf [.kw (.type .string),
    .kw (.enum ["inbound", "outbound", "bi-directional", "unknown"])]

/-- `definitions/copyright` of `bom-1.3.schema.json`. -/
def copyright : Schema :=
  .allOf [.kw (.type .object),
    .kw (.required ["text"]),
    .properties [("text", .kw (.type .string))]]

/-- `definitions/componentEvidence` of `bom-1.3.schema.json`. -/
def componentEvidence : Schema :=
  .allOf [.kw (.type .object),
    .properties [("licenses", .allOf [.kw (.type .array),
      .items (.ref "licenseChoice")]),
    ("copyright", .allOf [.kw (.type .array),
      .items (.ref "copyright")])]]

/-- `definitions/compositions` of `bom-1.3.schema.json`. -/
def compositions : Schema :=
  .allOf [.kw (.type .object),
    .kw (.required ["aggregate"]),
    .properties [("aggregate", .ref "aggregateType"),
    ("assemblies", .allOf [.kw (.type .array),
      .kw .uniqueItems,
      .items (.kw (.type .string))]),
    ("dependencies", .allOf [.kw (.type .array),
      .kw .uniqueItems,
      .items (.kw (.type .string))])]]

/-- `definitions/aggregateType` of `bom-1.3.schema.json`. -/
def aggregateType : Schema :=
  .allOf [.kw (.type .string),
    .kw (.enum ["complete", "incomplete", "incomplete_first_party_only", "incomplete_third_party_only", "unknown", "not_specified"])]

/-- `definitions/property` of `bom-1.3.schema.json`. -/
def property : Schema :=
  .allOf [.kw (.type .object),
    .properties [("name", .kw (.type .string)),
    ("value", .kw (.type .string))]]

/-- The definitions by name. -/
def defs : List (String × Schema) := [
  ("root", root),
  ("refType", refType),
  ("metadata", metadata),
  ("tool", tool),
  ("organizationalEntity", organizationalEntity),
  ("organizationalContact", organizationalContact),
  ("component", component),
  ("swid", swid),
  ("attachment", attachment),
  ("hash", hash),
  ("hash-alg", hashAlg),
  ("hash-content", hashContent),
  ("license", license),
  ("licenseChoice", licenseChoice),
  ("commit", commit),
  ("patch", patch),
  ("diff", diff),
  ("issue", issue),
  ("identifiableAction", identifiableAction),
  ("externalReference", externalReference),
  ("dependency", dependency),
  ("service", service),
  ("dataClassification", dataClassification),
  ("dataFlow", dataFlow),
  ("copyright", copyright),
  ("componentEvidence", componentEvidence),
  ("compositions", compositions),
  ("aggregateType", aggregateType),
  ("property", property)]

end Cdx.Spec.Schema13
