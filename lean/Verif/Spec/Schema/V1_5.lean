import Verif.Spec.Schema.Patterns

/-!
# Specification: the schema of CycloneDX 1.5

Written by `scripts/schema.py` from `bom-1.5.schema.json` (in
`cyclonedx-bom/test-utils/schema`).
-/

namespace Cdx.Spec.Schema15

/-- The schema of `bom-1.5.schema.json`. -/
def root : Schema :=
  .allOf [.kw (.type .object),
    .kw (.required ["bomFormat", "specVersion"]),
    .kw (.closed ["$schema", "bomFormat", "specVersion", "serialNumber", "version", "metadata", "components", "services", "externalReferences", "dependencies", "compositions", "vulnerabilities", "annotations", "formulation", "properties", "signature"]),
    .properties [("$schema", .allOf [.kw (.type .string),
      .kw (.enum ["http://cyclonedx.org/schema/bom-1.5.schema.json"])]),
    ("bomFormat", .allOf [.kw (.type .string),
      .kw (.enum ["CycloneDX"])]),
    ("specVersion", .kw (.type .string)),
    ("serialNumber", .allOf [.kw (.type .string),
      .kw (.pattern patternSerial)]),
    ("version", .allOf [.kw (.type .integer),
      .kw (.minimum 1)]),
    ("metadata", .ref "metadata"),
    ("components", .allOf [.kw (.type .array),
      .kw .uniqueItems,
      .items (.ref "component")]),
    ("services", .allOf [.kw (.type .array),
      .kw .uniqueItems,
      .items (.ref "service")]),
    ("externalReferences", .allOf [.kw (.type .array),
      .items (.ref "externalReference")]),
    ("dependencies", .allOf [.kw (.type .array),
      .kw .uniqueItems,
      .items (.ref "dependency")]),
    ("compositions", .allOf [.kw (.type .array),
      .kw .uniqueItems,
      .items (.ref "compositions")]),
    ("vulnerabilities", .allOf [.kw (.type .array),
      .kw .uniqueItems,
      .items (.ref "vulnerability")]),
    ("annotations", .allOf [.kw (.type .array),
      .kw .uniqueItems,
      .items (.ref "annotations")]),
    ("formulation", .allOf [.kw (.type .array),
      .kw .uniqueItems,
      .items (.ref "formula")]),
    ("properties", .allOf [.kw (.type .array),
      .items (.ref "property")]),
    ("signature", .ref "signature")]]

/-- `definitions/refType` of `bom-1.5.schema.json`. -/
def refType : Schema :=
  .allOf [.kw (.type .string),
    .kw (.minLength 1)]

/-- `definitions/refLinkType` of `bom-1.5.schema.json`. -/
def refLinkType : Schema :=
  .allOf [.ref "refType"]

/-- `definitions/bomLinkDocumentType` of `bom-1.5.schema.json`. -/
def bomLinkDocumentType : Schema :=
  .allOf [.kw (.type .string),
    .kw (.pattern patternLinkDocument),
    .kw (.format "iri-reference")]

/-- `definitions/bomLinkElementType` of `bom-1.5.schema.json`. -/
def bomLinkElementType : Schema :=
  .allOf [.kw (.type .string),
    .kw (.pattern patternLinkElement),
    .kw (.format "iri-reference")]

/-- `definitions/bomLink` of `bom-1.5.schema.json`. -/
def bomLink : Schema :=
  .anyOf [.ref "bomLinkDocumentType",
    .ref "bomLinkElementType"]

/-- `definitions/metadata` of `bom-1.5.schema.json`. -/
def metadata : Schema :=
  .allOf [.kw (.type .object),
    .kw (.closed ["timestamp", "lifecycles", "tools", "authors", "component", "manufacture", "supplier", "licenses", "properties"]),
    .properties [("timestamp", .allOf [.kw (.type .string),
      .kw (.format "date-time")]),
    ("lifecycles", .allOf [.kw (.type .array),
      .items (.allOf [.kw (.type .object),
        .oneOf [.allOf [.kw (.required ["phase"]),
          .kw (.closed ["phase"]),
          .properties [("phase", .allOf [.kw (.type .string),
            .kw (.enum ["design", "pre-build", "build", "post-build", "operations", "discovery", "decommission"])])]],
        .allOf [.kw (.required ["name"]),
          .kw (.closed ["name", "description"]),
          .properties [("name", .kw (.type .string)),
          ("description", .kw (.type .string))]]]])]),
    ("tools", .oneOf [.allOf [.kw (.type .object),
        .kw (.closed ["components", "services"]),
        .properties [("components", .allOf [.kw (.type .array),
          .kw .uniqueItems,
          .items (.ref "component")]),
        ("services", .allOf [.kw (.type .array),
          .kw .uniqueItems,
          .items (.ref "service")])]],
      .allOf [.kw (.type .array),
        .items (.ref "tool")]]),
    ("authors", .allOf [.kw (.type .array),
      .items (.ref "organizationalContact")]),
    ("component", .ref "component"),
    ("manufacture", .ref "organizationalEntity"),
    ("supplier", .ref "organizationalEntity"),
    ("licenses", .ref "licenseChoice"),
    ("properties", .allOf [.kw (.type .array),
      .items (.ref "property")])]]

/-- `definitions/tool` of `bom-1.5.schema.json`. -/
def tool : Schema :=
  .allOf [.kw (.type .object),
    .kw (.closed ["vendor", "name", "version", "hashes", "externalReferences"]),
    .properties [("vendor", .kw (.type .string)),
    ("name", .kw (.type .string)),
    ("version", .kw (.type .string)),
    ("hashes", .allOf [.kw (.type .array),
      .items (.ref "hash")]),
    ("externalReferences", .allOf [.kw (.type .array),
      .items (.ref "externalReference")])]]

/-- `definitions/organizationalEntity` of `bom-1.5.schema.json`. -/
def organizationalEntity : Schema :=
  .allOf [.kw (.type .object),
    .kw (.closed ["bom-ref", "name", "url", "contact"]),
    .properties [("bom-ref", .ref "refType"),
    ("name", .kw (.type .string)),
    ("url", .allOf [.kw (.type .array),
      .items (.allOf [.kw (.type .string),
        .kw (.format "iri-reference")])]),
    ("contact", .allOf [.kw (.type .array),
      .items (.ref "organizationalContact")])]]

/-- `definitions/organizationalContact` of `bom-1.5.schema.json`. -/
def organizationalContact : Schema :=
  .allOf [.kw (.type .object),
    .kw (.closed ["bom-ref", "name", "email", "phone"]),
    .properties [("bom-ref", .ref "refType"),
    ("name", .kw (.type .string)),
    ("email", .allOf [.kw (.type .string),
      .kw (.format "idn-email")]),
    ("phone", .kw (.type .string))]]

/-- `definitions/component` of `bom-1.5.schema.json`. -/
def component : Schema :=
  .allOf [.kw (.type .object),
    .kw (.required ["type", "name"]),
    .kw (.closed ["type", "mime-type", "bom-ref", "supplier", "author", "publisher", "group", "name", "version", "description", "scope", "hashes", "licenses", "copyright", "cpe", "purl", "swid", "modified", "pedigree", "externalReferences", "components", "evidence", "releaseNotes", "modelCard", "data", "properties", "signature"]),
    .properties [("type", .allOf [.kw (.type .string),
      .kw (.enum ["application", "framework", "library", "container", "platform", "operating-system", "device", "device-driver", "firmware", "file", "machine-learning-model", "data"])]),
    ("mime-type", .allOf [.kw (.type .string),
      .kw (.pattern patternMime)]),
    ("bom-ref", .ref "refType"),
    ("supplier", .ref "organizationalEntity"),
    ("author", .kw (.type .string)),
    ("publisher", .kw (.type .string)),
    ("group", .kw (.type .string)),
    ("name", .kw (.type .string)),
    ("version", .kw (.type .string)),
    ("description", .kw (.type .string)),
    ("scope", .allOf [.kw (.type .string),
      .kw (.enum ["required", "optional", "excluded"])]),
    ("hashes", .allOf [.kw (.type .array),
      .items (.ref "hash")]),
    ("licenses", .ref "licenseChoice"),
    ("copyright", .kw (.type .string)),
    ("cpe", .kw (.type .string)),
    ("purl", .kw (.type .string)),
    ("swid", .ref "swid"),
    ("modified", .kw (.type .boolean)),
    ("pedigree", .allOf [.kw (.type .object),
      .kw (.closed ["ancestors", "descendants", "variants", "commits", "patches", "notes"]),
      .properties [("ancestors", .allOf [.kw (.type .array),
        .items (.ref "component")]),
      ("descendants", .allOf [.kw (.type .array),
        .items (.ref "component")]),
      ("variants", .allOf [.kw (.type .array),
        .items (.ref "component")]),
      ("commits", .allOf [.kw (.type .array),
        .items (.ref "commit")]),
      ("patches", .allOf [.kw (.type .array),
        .items (.ref "patch")]),
      ("notes", .kw (.type .string))]]),
    ("externalReferences", .allOf [.kw (.type .array),
      .items (.ref "externalReference")]),
    ("components", .allOf [.kw (.type .array),
      .kw .uniqueItems,
      .items (.ref "component")]),
    ("evidence", .ref "componentEvidence"),
    ("releaseNotes", .ref "releaseNotes"),
    ("modelCard", .ref "modelCard"),
    ("data", .allOf [.kw (.type .array),
      .items (.ref "componentData")]),
    ("properties", .allOf [.kw (.type .array),
      .items (.ref "property")]),
    ("signature", .ref "signature")]]

/-- `definitions/swid` of `bom-1.5.schema.json`. -/
def swid : Schema :=
  .allOf [.kw (.type .object),
    .kw (.required ["tagId", "name"]),
    .kw (.closed ["tagId", "name", "version", "tagVersion", "patch", "text", "url"]),
    .properties [("tagId", .kw (.type .string)),
    ("name", .kw (.type .string)),
    ("version", .kw (.type .string)),
    ("tagVersion", .kw (.type .integer)),
    ("patch", .kw (.type .boolean)),
    ("text", .ref "attachment"),
    ("url", .allOf [.kw (.type .string),
      .kw (.format "iri-reference")])]]

/-- `definitions/attachment` of `bom-1.5.schema.json`. -/
def attachment : Schema :=
  .allOf [.kw (.type .object),
    .kw (.required ["content"]),
    .kw (.closed ["contentType", "encoding", "content"]),
    .properties [("contentType", .kw (.type .string)),
    ("encoding", .allOf [.kw (.type .string),
      .kw (.enum ["base64"])]),
    ("content", .kw (.type .string))]]

/-- `definitions/hash` of `bom-1.5.schema.json`. -/
def hash : Schema :=
  .allOf [.kw (.type .object),
    .kw (.required ["alg", "content"]),
    .kw (.closed ["alg", "content"]),
    .properties [("alg", .ref "hash-alg"),
    ("content", .ref "hash-content")]]

/-- `definitions/hash-alg` of `bom-1.5.schema.json`. -/
def hashAlg : Schema :=
  .allOf [.kw (.type .string),
    .kw (.enum ["MD5", "SHA-1", "SHA-256", "SHA-384", "SHA-512", "SHA3-256", "SHA3-384", "SHA3-512", "BLAKE2b-256", "BLAKE2b-384", "BLAKE2b-512", "BLAKE3"])]

/-- `definitions/hash-content` of `bom-1.5.schema.json`. -/
def hashContent : Schema :=
  .allOf [.kw (.type .string),
    .kw (.pattern patternHash)]

/-- `definitions/license` of `bom-1.5.schema.json`. -/
def license : Schema :=
  .allOf [.kw (.type .object),
    .kw (.closed ["bom-ref", "id", "name", "text", "url", "licensing", "properties"]),
    .properties [("bom-ref", .ref "refType"),
    ("id", .ref "spdx"),
    ("name", .kw (.type .string)),
    ("text", .ref "attachment"),
    ("url", .allOf [.kw (.type .string),
      .kw (.format "iri-reference")]),
    ("licensing", .allOf [.kw (.type .object),
      .kw (.closed ["altIds", "licensor", "licensee", "purchaser", "purchaseOrder", "licenseTypes", "lastRenewal", "expiration"]),
      .properties [("altIds", .allOf [.kw (.type .array),
        .items (.kw (.type .string))]),
      ("licensor", .allOf [.kw (.type .object),
        .kw (.closed ["organization", "individual"]),
        .properties [("organization", .ref "organizationalEntity"),
        ("individual", .ref "organizationalContact")],
        .oneOf [.kw (.required ["organization"]),
        .kw (.required ["individual"])]]),
      ("licensee", .allOf [.kw (.type .object),
        .kw (.closed ["organization", "individual"]),
        .properties [("organization", .ref "organizationalEntity"),
        ("individual", .ref "organizationalContact")],
        .oneOf [.kw (.required ["organization"]),
        .kw (.required ["individual"])]]),
      ("purchaser", .allOf [.kw (.type .object),
        .kw (.closed ["organization", "individual"]),
        .properties [("organization", .ref "organizationalEntity"),
        ("individual", .ref "organizationalContact")],
        .oneOf [.kw (.required ["organization"]),
        .kw (.required ["individual"])]]),
      ("purchaseOrder", .kw (.type .string)),
      ("licenseTypes", .allOf [.kw (.type .array),
        .items (.allOf [.kw (.type .string),
          .kw (.enum ["academic", "appliance", "client-access", "concurrent-user", "core-points", "custom-metric", "device", "evaluation", "named-user", "node-locked", "oem", "perpetual", "processor-points", "subscription", "user", "other"])])]),
      ("lastRenewal", .allOf [.kw (.type .string),
        .kw (.format "date-time")]),
      ("expiration", .allOf [.kw (.type .string),
        .kw (.format "date-time")])]]),
    ("properties", .allOf [.kw (.type .array),
      .items (.ref "property")])],
    .oneOf [.kw (.required ["id"]),
    .kw (.required ["name"])]]

/-- `definitions/licenseChoice` of `bom-1.5.schema.json`. -/
def licenseChoice : Schema :=
  .allOf [.kw (.type .array),
    .oneOf [.allOf [.kw (.type .array),
      .items (.allOf [.kw (.type .object),
        .kw (.required ["license"]),
        .kw (.closed ["license"]),
        .properties [("license", .ref "license")]])],
    .allOf [.kw (.type .array),
      .kw (.minItems 1),
      .kw (.maxItems 1),
      .itemAt 0 (.allOf [.kw (.type .object),
        .kw (.required ["expression"]),
        .kw (.closed ["expression", "bom-ref"]),
        .properties [("expression", .kw (.type .string)),
        ("bom-ref", .ref "refType")]]),
      .kw (.maxItems 1)]]]

/-- `definitions/commit` of `bom-1.5.schema.json`. -/
def commit : Schema :=
  .allOf [.kw (.type .object),
    .kw (.closed ["uid", "url", "author", "committer", "message"]),
    .properties [("uid", .kw (.type .string)),
    ("url", .allOf [.kw (.type .string),
      .kw (.format "iri-reference")]),
    ("author", .ref "identifiableAction"),
    ("committer", .ref "identifiableAction"),
    ("message", .kw (.type .string))]]

/-- `definitions/patch` of `bom-1.5.schema.json`. -/
def patch : Schema :=
  .allOf [.kw (.type .object),
    .kw (.required ["type"]),
    .kw (.closed ["type", "diff", "resolves"]),
    .properties [("type", .allOf [.kw (.type .string),
      .kw (.enum ["unofficial", "monkey", "backport", "cherry-pick"])]),
    ("diff", .ref "diff"),
    ("resolves", .allOf [.kw (.type .array),
      .items (.ref "issue")])]]

/-- `definitions/diff` of `bom-1.5.schema.json`. -/
def diff : Schema :=
  .allOf [.kw (.type .object),
    .kw (.closed ["text", "url"]),
    .properties [("text", .ref "attachment"),
    ("url", .allOf [.kw (.type .string),
      .kw (.format "iri-reference")])]]

/-- `definitions/issue` of `bom-1.5.schema.json`. -/
def issue : Schema :=
  .allOf [.kw (.type .object),
    .kw (.required ["type"]),
    .kw (.closed ["type", "id", "name", "description", "source", "references"]),
    .properties [("type", .allOf [.kw (.type .string),
      .kw (.enum ["defect", "enhancement", "security"])]),
    ("id", .kw (.type .string)),
    ("name", .kw (.type .string)),
    ("description", .kw (.type .string)),
    ("source", .allOf [.kw (.type .object),
      .kw (.closed ["name", "url"]),
      .properties [("name", .kw (.type .string)),
      ("url", .allOf [.kw (.type .string),
        .kw (.format "iri-reference")])]]),
    ("references", .allOf [.kw (.type .array),
      .items (.allOf [.kw (.type .string),
        .kw (.format "iri-reference")])])]]

/-- `definitions/identifiableAction` of `bom-1.5.schema.json`. -/
def identifiableAction : Schema :=
  .allOf [.kw (.type .object),
    .kw (.closed ["timestamp", "name", "email"]),
    .properties [("timestamp", .allOf [.kw (.type .string),
      .kw (.format "date-time")]),
    ("name", .kw (.type .string)),
    ("email", .allOf [.kw (.type .string),
      .kw (.format "idn-email")])]]

/-- `definitions/externalReference` of `bom-1.5.schema.json`. -/
def externalReference : Schema :=
  .allOf [.kw (.type .object),
    .kw (.required ["url", "type"]),
    .kw (.closed ["url", "comment", "type", "hashes"]),
    .properties [("url", .anyOf [.allOf [.kw (.type .string),
        .kw (.format "iri-reference")],
      .ref "bomLink"]),
    ("comment", .kw (.type .string)),
    ("type", .allOf [.kw (.type .string),
      .kw (.enum ["vcs", "issue-tracker", "website", "advisories", "bom", "mailing-list", "social", "chat", "documentation", "support", "distribution", "distribution-intake", "license", "build-meta", "build-system", "release-notes", "security-contact", "model-card", "log", "configuration", "evidence", "formulation", "attestation", "threat-model", "adversary-model", "risk-assessment", "vulnerability-assertion", "exploitability-statement", "pentest-report", "static-analysis-report", "dynamic-analysis-report", "runtime-analysis-report", "component-analysis-report", "maturity-report", "certification-report", "codified-infrastructure", "quality-metrics", "poam", "other"])]),
    ("hashes", .allOf [.kw (.type .array),
      .items (.ref "hash")])]]

/-- `definitions/dependency` of `bom-1.5.schema.json`. -/
def dependency : Schema :=
  .allOf [.kw (.type .object),
    .kw (.required ["ref"]),
    .kw (.closed ["ref", "dependsOn"]),
    .properties [("ref", .ref "refLinkType"),
    ("dependsOn", .allOf [.kw (.type .array),
      .kw .uniqueItems,
      .items (.ref "refLinkType")])]]

/-- `definitions/service` of `bom-1.5.schema.json`. -/
def service : Schema :=
  .allOf [.kw (.type .object),
    .kw (.required ["name"]),
    .kw (.closed ["bom-ref", "provider", "group", "name", "version", "description", "endpoints", "authenticated", "x-trust-boundary", "trustZone", "data", "licenses", "externalReferences", "services", "releaseNotes", "properties", "signature"]),
    .properties [("bom-ref", .ref "refType"),
    ("provider", .ref "organizationalEntity"),
    ("group", .kw (.type .string)),
    ("name", .kw (.type .string)),
    ("version", .kw (.type .string)),
    ("description", .kw (.type .string)),
    ("endpoints", .allOf [.kw (.type .array),
      .items (.allOf [.kw (.type .string),
        .kw (.format "iri-reference")])]),
    ("authenticated", .kw (.type .boolean)),
    ("x-trust-boundary", .kw (.type .boolean)),
    ("trustZone", .kw (.type .string)),
    ("data", .allOf [.kw (.type .array),
      .items (.ref "serviceData")]),
    ("licenses", .ref "licenseChoice"),
    ("externalReferences", .allOf [.kw (.type .array),
      .items (.ref "externalReference")]),
    ("services", .allOf [.kw (.type .array),
      .kw .uniqueItems,
      .items (.ref "service")]),
    ("releaseNotes", .ref "releaseNotes"),
    ("properties", .allOf [.kw (.type .array),
      .items (.ref "property")]),
    ("signature", .ref "signature")]]

/-- `definitions/serviceData` of `bom-1.5.schema.json`. -/
def serviceData : Schema :=
  .allOf [.kw (.type .object),
    .kw (.required ["flow", "classification"]),
    .kw (.closed ["flow", "classification", "name", "description", "governance", "source", "destination"]),
    .properties [("flow", .ref "dataFlowDirection"),
    ("classification", .ref "dataClassification"),
    ("name", .kw (.type .string)),
    ("description", .kw (.type .string)),
    ("governance", .ref "dataGovernance"),
    ("source", .allOf [.kw (.type .array),
      .items (.anyOf [.allOf [.kw (.type .string),
          .kw (.format "iri-reference")],
        .ref "bomLinkElementType"])]),
    ("destination", .allOf [.kw (.type .array),
      .items (.anyOf [.allOf [.kw (.type .string),
          .kw (.format "iri-reference")],
        .ref "bomLinkElementType"])])]]

/-- `definitions/dataFlowDirection` of `bom-1.5.schema.json`. -/
def dataFlowDirection : Schema :=
  .allOf [.kw (.type .string),
    .kw (.enum ["inbound", "outbound", "bi-directional", "unknown"])]

/-- `definitions/copyright` of `bom-1.5.schema.json`. -/
def copyright : Schema :=
  .allOf [.kw (.type .object),
    .kw (.required ["text"]),
    .kw (.closed ["text"]),
    .properties [("text", .kw (.type .string))]]

/-- `definitions/componentEvidence` of `bom-1.5.schema.json`. -/
def componentEvidence : Schema :=
  .allOf [.kw (.type .object),
    .kw (.closed ["identity", "occurrences", "callstack", "licenses", "copyright"]),
    .properties [("identity", .allOf [.kw (.type .object),
      .kw (.required ["field"]),
      .kw (.closed ["field", "confidence", "methods", "tools"]),
      .properties [("field", .allOf [.kw (.type .string),
        .kw (.enum ["group", "name", "version", "purl", "cpe", "swid", "hash"])]),
      ("confidence", .allOf [.kw (.type .number),
        .kw (.minimum 0),
        .kw (.maximum 1)]),
      ("methods", .allOf [.kw (.type .array),
        .items (.allOf [.kw (.type .object),
          .kw (.required ["technique", "confidence"]),
          .kw (.closed ["technique", "confidence", "value"]),
          .properties [("technique", .allOf [.kw (.type .string),
            .kw (.enum ["source-code-analysis", "binary-analysis", "manifest-analysis", "ast-fingerprint", "hash-comparison", "instrumentation", "dynamic-analysis", "filename", "attestation", "other"])]),
          ("confidence", .allOf [.kw (.type .number),
            .kw (.minimum 0),
            .kw (.maximum 1)]),
          ("value", .kw (.type .string))]])]),
      ("tools", .allOf [.kw (.type .array),
        .kw .uniqueItems,
        .items (.anyOf [.ref "refLinkType",
          .ref "bomLinkElementType"])])]]),
    ("occurrences", .allOf [.kw (.type .array),
      .items (.allOf [.kw (.type .object),
        .kw (.required ["location"]),
        .kw (.closed ["bom-ref", "location"]),
        .properties [("bom-ref", .ref "refType"),
        ("location", .kw (.type .string))]])]),
    ("callstack", .allOf [.kw (.type .object),
      .kw (.closed ["frames"]),
      .properties [("frames", .allOf [.kw (.type .array),
        .items (.allOf [.kw (.type .object),
          .kw (.required ["module"]),
          .kw (.closed ["package", "module", "function", "parameters", "line", "column", "fullFilename"]),
          .properties [("package", .kw (.type .string)),
          ("module", .kw (.type .string)),
          ("function", .kw (.type .string)),
          ("parameters", .allOf [.kw (.type .array),
            .items (.kw (.type .string))]),
          ("line", .kw (.type .integer)),
          ("column", .kw (.type .integer)),
          ("fullFilename", .kw (.type .string))]])])]]),
    ("licenses", .ref "licenseChoice"),
    ("copyright", .allOf [.kw (.type .array),
      .items (.ref "copyright")])]]

/-- `definitions/compositions` of `bom-1.5.schema.json`. -/
def compositions : Schema :=
  .allOf [.kw (.type .object),
    .kw (.required ["aggregate"]),
    .kw (.closed ["bom-ref", "aggregate", "assemblies", "dependencies", "vulnerabilities", "signature"]),
    .properties [("bom-ref", .ref "refType"),
    ("aggregate", .ref "aggregateType"),
    ("assemblies", .allOf [.kw (.type .array),
      .kw .uniqueItems,
      .items (.anyOf [.ref "refLinkType",
        .ref "bomLinkElementType"])]),
    ("dependencies", .allOf [.kw (.type .array),
      .kw .uniqueItems,
      .items (.kw (.type .string))]),
    ("vulnerabilities", .allOf [.kw (.type .array),
      .kw .uniqueItems,
      .items (.kw (.type .string))]),
    ("signature", .ref "signature")]]

/-- `definitions/aggregateType` of `bom-1.5.schema.json`. -/
def aggregateType : Schema :=
  .allOf [.kw (.type .string),
    .kw (.enum ["complete", "incomplete", "incomplete_first_party_only", "incomplete_first_party_proprietary_only", "incomplete_first_party_opensource_only", "incomplete_third_party_only", "incomplete_third_party_proprietary_only", "incomplete_third_party_opensource_only", "unknown", "not_specified"])]

/-- `definitions/property` of `bom-1.5.schema.json`. -/
def property : Schema :=
  .allOf [.kw (.type .object),
    .properties [("name", .kw (.type .string)),
    ("value", .kw (.type .string))]]

/-- `definitions/localeType` of `bom-1.5.schema.json`. -/
def localeType : Schema :=
  .allOf [.kw (.type .string),
    .kw (.pattern patternLocale)]

/-- `definitions/releaseType` of `bom-1.5.schema.json`. -/
def releaseType : Schema :=
  .kw (.type .string)

/-- `definitions/note` of `bom-1.5.schema.json`. -/
def note : Schema :=
  .allOf [.kw (.type .object),
    .kw (.required ["text"]),
    .kw (.closed ["locale", "text"]),
    .properties [("locale", .ref "localeType"),
    ("text", .ref "attachment")]]

/-- `definitions/releaseNotes` of `bom-1.5.schema.json`. -/
def releaseNotes : Schema :=
  .allOf [.kw (.type .object),
    .kw (.required ["type"]),
    .kw (.closed ["type", "title", "featuredImage", "socialImage", "description", "timestamp", "aliases", "tags", "resolves", "notes", "properties"]),
    .properties [("type", .ref "releaseType"),
    ("title", .kw (.type .string)),
    ("featuredImage", .allOf [.kw (.type .string),
      .kw (.format "iri-reference")]),
    ("socialImage", .allOf [.kw (.type .string),
      .kw (.format "iri-reference")]),
    ("description", .kw (.type .string)),
    ("timestamp", .allOf [.kw (.type .string),
      .kw (.format "date-time")]),
    ("aliases", .allOf [.kw (.type .array),
      .items (.kw (.type .string))]),
    ("tags", .allOf [.kw (.type .array),
      .items (.kw (.type .string))]),
    ("resolves", .allOf [.kw (.type .array),
      .items (.ref "issue")]),
    ("notes", .allOf [.kw (.type .array),
      .items (.ref "note")]),
    ("properties", .allOf [.kw (.type .array),
      .items (.ref "property")])]]

/-- `definitions/advisory` of `bom-1.5.schema.json`. -/
def advisory : Schema :=
  .allOf [.kw (.type .object),
    .kw (.required ["url"]),
    .kw (.closed ["title", "url"]),
    .properties [("title", .kw (.type .string)),
    ("url", .allOf [.kw (.type .string),
      .kw (.format "iri-reference")])]]

/-- `definitions/cwe` of `bom-1.5.schema.json`. -/
def cwe : Schema :=
  .allOf [.kw (.type .integer),
    .kw (.minimum 1)]

/-- `definitions/severity` of `bom-1.5.schema.json`. -/
def severity : Schema :=
  .allOf [.kw (.type .string),
    .kw (.enum ["critical", "high", "medium", "low", "info", "none", "unknown"])]

/-- `definitions/scoreMethod` of `bom-1.5.schema.json`. -/
def scoreMethod : Schema :=
  .allOf [.kw (.type .string),
    .kw (.enum ["CVSSv2", "CVSSv3", "CVSSv31", "CVSSv4", "OWASP", "SSVC", "other"])]

/-- `definitions/impactAnalysisState` of `bom-1.5.schema.json`. -/
def impactAnalysisState : Schema :=
  .allOf [.kw (.type .string),
    .kw (.enum ["resolved", "resolved_with_pedigree", "exploitable", "in_triage", "false_positive", "not_affected"])]

/-- `definitions/impactAnalysisJustification` of `bom-1.5.schema.json`. -/
def impactAnalysisJustification : Schema :=
  .allOf [.kw (.type .string),
    .kw (.enum ["code_not_present", "code_not_reachable", "requires_configuration", "requires_dependency", "requires_environment", "protected_by_compiler", "protected_at_runtime", "protected_at_perimeter", "protected_by_mitigating_control"])]

/-- `definitions/rating` of `bom-1.5.schema.json`. -/
def rating : Schema :=
  .allOf [.kw (.type .object),
    .kw (.closed ["source", "score", "severity", "method", "vector", "justification"]),
    .properties [("source", .ref "vulnerabilitySource"),
    ("score", .kw (.type .number)),
    ("severity", .ref "severity"),
    ("method", .ref "scoreMethod"),
    ("vector", .kw (.type .string)),
    ("justification", .kw (.type .string))]]

/-- `definitions/vulnerabilitySource` of `bom-1.5.schema.json`. -/
def vulnerabilitySource : Schema :=
  .allOf [.kw (.type .object),
    .kw (.closed ["url", "name"]),
    .properties [("url", .kw (.type .string)),
    ("name", .kw (.type .string))]]

/-- `definitions/vulnerability` of `bom-1.5.schema.json`. -/
def vulnerability : Schema :=
  .allOf [.kw (.type .object),
    .kw (.closed ["bom-ref", "id", "source", "references", "ratings", "cwes", "description", "detail", "recommendation", "workaround", "proofOfConcept", "advisories", "created", "published", "updated", "rejected", "credits", "tools", "analysis", "affects", "properties"]),
    .properties [("bom-ref", .ref "refType"),
    ("id", .kw (.type .string)),
    ("source", .ref "vulnerabilitySource"),
    ("references", .allOf [.kw (.type .array),
      .items (.allOf [.kw (.type .object),
        .kw (.required ["id", "source"]),
        .kw (.closed ["id", "source"]),
        .properties [("id", .kw (.type .string)),
        ("source", .ref "vulnerabilitySource")]])]),
    ("ratings", .allOf [.kw (.type .array),
      .items (.ref "rating")]),
    ("cwes", .allOf [.kw (.type .array),
      .items (.ref "cwe")]),
    ("description", .kw (.type .string)),
    ("detail", .kw (.type .string)),
    ("recommendation", .kw (.type .string)),
    ("workaround", .kw (.type .string)),
    ("proofOfConcept", .allOf [.kw (.type .object),
      .properties [("reproductionSteps", .kw (.type .string)),
      ("environment", .kw (.type .string)),
      ("supportingMaterial", .allOf [.kw (.type .array),
        .items (.ref "attachment")])]]),
    ("advisories", .allOf [.kw (.type .array),
      .items (.ref "advisory")]),
    ("created", .allOf [.kw (.type .string),
      .kw (.format "date-time")]),
    ("published", .allOf [.kw (.type .string),
      .kw (.format "date-time")]),
    ("updated", .allOf [.kw (.type .string),
      .kw (.format "date-time")]),
    ("rejected", .allOf [.kw (.type .string),
      .kw (.format "date-time")]),
    ("credits", .allOf [.kw (.type .object),
      .kw (.closed ["organizations", "individuals"]),
      .properties [("organizations", .allOf [.kw (.type .array),
        .items (.ref "organizationalEntity")]),
      ("individuals", .allOf [.kw (.type .array),
        .items (.ref "organizationalContact")])]]),
    ("tools", .oneOf [.allOf [.kw (.type .object),
        .kw (.closed ["components", "services"]),
        .properties [("components", .allOf [.kw (.type .array),
          .kw .uniqueItems,
          .items (.ref "component")]),
        ("services", .allOf [.kw (.type .array),
          .kw .uniqueItems,
          .items (.ref "service")])]],
      .allOf [.kw (.type .array),
        .items (.ref "tool")]]),
    ("analysis", .allOf [.kw (.type .object),
      .kw (.closed ["state", "justification", "response", "detail", "firstIssued", "lastUpdated"]),
      .properties [("state", .ref "impactAnalysisState"),
      ("justification", .ref "impactAnalysisJustification"),
      ("response", .allOf [.kw (.type .array),
        .items (.allOf [.kw (.type .string),
          .kw (.enum ["can_not_fix", "will_not_fix", "update", "rollback", "workaround_available"])])]),
      ("detail", .kw (.type .string)),
      ("firstIssued", .allOf [.kw (.type .string),
        .kw (.format "date-time")]),
      ("lastUpdated", .allOf [.kw (.type .string),
        .kw (.format "date-time")])]]),
    ("affects", .allOf [.kw (.type .array),
      .kw .uniqueItems,
      .items (.allOf [.kw (.type .object),
        .kw (.required ["ref"]),
        .kw (.closed ["ref", "versions"]),
        .properties [("ref", .anyOf [.ref "refLinkType",
          .ref "bomLinkElementType"]),
        ("versions", .allOf [.kw (.type .array),
          .items (.allOf [.kw (.type .object),
            .kw (.closed ["version", "range", "status"]),
            .properties [("version", .ref "version"),
            ("range", .ref "range"),
            ("status", .ref "affectedStatus")],
            .oneOf [.kw (.required ["version"]),
            .kw (.required ["range"])]])])]])]),
    ("properties", .allOf [.kw (.type .array),
      .items (.ref "property")])]]

/-- `definitions/affectedStatus` of `bom-1.5.schema.json`. -/
def affectedStatus : Schema :=
  .allOf [.kw (.type .string),
    .kw (.enum ["affected", "unaffected", "unknown"])]

/-- `definitions/version` of `bom-1.5.schema.json`. -/
def version : Schema :=
  .allOf [.kw (.type .string),
    .kw (.minLength 1),
    .kw (.maxLength 1024)]

/-- `definitions/range` of `bom-1.5.schema.json`. -/
def range : Schema :=
  .allOf [.kw (.type .string),
    .kw (.minLength 1),
    .kw (.maxLength 1024)]

/-- `definitions/annotations` of `bom-1.5.schema.json`. -/
def annotations : Schema :=
  .allOf [.kw (.type .object),
    .kw (.required ["subjects", "annotator", "timestamp", "text"]),
    .kw (.closed ["bom-ref", "subjects", "annotator", "timestamp", "text", "signature"]),
    .properties [("bom-ref", .ref "refType"),
    ("subjects", .allOf [.kw (.type .array),
      .kw .uniqueItems,
      .items (.anyOf [.ref "refLinkType",
        .ref "bomLinkElementType"])]),
    ("annotator", .allOf [.kw (.type .object),
      .kw (.closed ["organization", "individual", "component", "service"]),
      .properties [("organization", .ref "organizationalEntity"),
      ("individual", .ref "organizationalContact"),
      ("component", .ref "component"),
      ("service", .ref "service")],
      .oneOf [.kw (.required ["organization"]),
      .kw (.required ["individual"]),
      .kw (.required ["component"]),
      .kw (.required ["service"])]]),
    ("timestamp", .allOf [.kw (.type .string),
      .kw (.format "date-time")]),
    ("text", .kw (.type .string)),
    ("signature", .ref "signature")]]

/-- `definitions/modelCard` of `bom-1.5.schema.json`. -/
def modelCard : Schema :=
  .allOf [.kw (.type .object),
    .kw (.closed ["bom-ref", "modelParameters", "quantitativeAnalysis", "considerations", "properties"]),
    .properties [("bom-ref", .ref "refType"),
    ("modelParameters", .allOf [.kw (.type .object),
      .kw (.closed ["approach", "task", "architectureFamily", "modelArchitecture", "datasets", "inputs", "outputs"]),
      .properties [("approach", .allOf [.kw (.type .object),
        .kw (.closed ["type"]),
        .properties [("type", .allOf [.kw (.type .string),
          .kw (.enum ["supervised", "unsupervised", "reinforcement-learning", "semi-supervised", "self-supervised"])])]]),
      ("task", .kw (.type .string)),
      ("architectureFamily", .kw (.type .string)),
      ("modelArchitecture", .kw (.type .string)),
      ("datasets", .allOf [.kw (.type .array),
        .items (.oneOf [.ref "componentData",
          .allOf [.kw (.type .object),
            .kw (.closed ["ref"]),
            .properties [("ref", .anyOf [.ref "refLinkType",
              .ref "bomLinkElementType"])]]])]),
      ("inputs", .allOf [.kw (.type .array),
        .items (.ref "inputOutputMLParameters")]),
      ("outputs", .allOf [.kw (.type .array),
        .items (.ref "inputOutputMLParameters")])]]),
    ("quantitativeAnalysis", .allOf [.kw (.type .object),
      .kw (.closed ["performanceMetrics", "graphics"]),
      .properties [("performanceMetrics", .allOf [.kw (.type .array),
        .items (.ref "performanceMetric")]),
      ("graphics", .ref "graphicsCollection")]]),
    ("considerations", .allOf [.kw (.type .object),
      .kw (.closed ["users", "useCases", "technicalLimitations", "performanceTradeoffs", "ethicalConsiderations", "fairnessAssessments"]),
      .properties [("users", .allOf [.kw (.type .array),
        .items (.kw (.type .string))]),
      ("useCases", .allOf [.kw (.type .array),
        .items (.kw (.type .string))]),
      ("technicalLimitations", .allOf [.kw (.type .array),
        .items (.kw (.type .string))]),
      ("performanceTradeoffs", .allOf [.kw (.type .array),
        .items (.kw (.type .string))]),
      ("ethicalConsiderations", .allOf [.kw (.type .array),
        .items (.ref "risk")]),
      ("fairnessAssessments", .allOf [.kw (.type .array),
        .items (.ref "fairnessAssessment")])]]),
    ("properties", .allOf [.kw (.type .array),
      .items (.ref "property")])]]

/-- `definitions/inputOutputMLParameters` of `bom-1.5.schema.json`. -/
def inputOutputMLParameters : Schema :=
  .allOf [.kw (.type .object),
    .kw (.closed ["format"]),
    .properties [("format", .kw (.type .string))]]

/-- `definitions/componentData` of `bom-1.5.schema.json`. -/
def componentData : Schema :=
  .allOf [.kw (.type .object),
    .kw (.required ["type"]),
    .kw (.closed ["bom-ref", "type", "name", "contents", "classification", "sensitiveData", "graphics", "description", "governance"]),
    .properties [("bom-ref", .ref "refType"),
    ("type", .allOf [.kw (.type .string),
      .kw (.enum ["source-code", "configuration", "dataset", "definition", "other"])]),
    ("name", .kw (.type .string)),
    ("contents", .allOf [.kw (.type .object),
      .kw (.closed ["attachment", "url", "properties"]),
      .properties [("attachment", .ref "attachment"),
      ("url", .allOf [.kw (.type .string),
        .kw (.format "iri-reference")]),
      ("properties", .allOf [.kw (.type .array),
        .items (.ref "property")])]]),
    ("classification", .ref "dataClassification"),
    ("sensitiveData", .allOf [.kw (.type .array),
      .items (.kw (.type .string))]),
    ("graphics", .ref "graphicsCollection"),
    ("description", .kw (.type .string)),
    ("governance", .ref "dataGovernance")]]

/-- `definitions/dataGovernance` of `bom-1.5.schema.json`. -/
def dataGovernance : Schema :=
  .allOf [.kw (.type .object),
    .kw (.closed ["custodians", "stewards", "owners"]),
    .properties [("custodians", .allOf [.kw (.type .array),
      .items (.ref "dataGovernanceResponsibleParty")]),
    ("stewards", .allOf [.kw (.type .array),
      .items (.ref "dataGovernanceResponsibleParty")]),
    ("owners", .allOf [.kw (.type .array),
      .items (.ref "dataGovernanceResponsibleParty")])]]

/-- `definitions/dataGovernanceResponsibleParty` of `bom-1.5.schema.json`. -/
def dataGovernanceResponsibleParty : Schema :=
  .allOf [.kw (.type .object),
    .kw (.closed ["organization", "contact"]),
    .properties [("organization", .ref "organizationalEntity"),
    ("contact", .ref "organizationalContact")],
    .oneOf [.kw (.required ["organization"]),
    .kw (.required ["contact"])]]

/-- `definitions/graphicsCollection` of `bom-1.5.schema.json`. -/
def graphicsCollection : Schema :=
  .allOf [.kw (.type .object),
    .kw (.closed ["description", "collection"]),
    .properties [("description", .kw (.type .string)),
    ("collection", .allOf [.kw (.type .array),
      .items (.ref "graphic")])]]

/-- `definitions/graphic` of `bom-1.5.schema.json`. -/
def graphic : Schema :=
  .allOf [.kw (.type .object),
    .kw (.closed ["name", "image"]),
    .properties [("name", .kw (.type .string)),
    ("image", .ref "attachment")]]

/-- `definitions/performanceMetric` of `bom-1.5.schema.json`. -/
def performanceMetric : Schema :=
  .allOf [.kw (.type .object),
    .kw (.closed ["type", "value", "slice", "confidenceInterval"]),
    .properties [("type", .kw (.type .string)),
    ("value", .kw (.type .string)),
    ("slice", .kw (.type .string)),
    ("confidenceInterval", .allOf [.kw (.type .object),
      .kw (.closed ["lowerBound", "upperBound"]),
      .properties [("lowerBound", .kw (.type .string)),
      ("upperBound", .kw (.type .string))]])]]

/-- `definitions/risk` of `bom-1.5.schema.json`. -/
def risk : Schema :=
  .allOf [.kw (.type .object),
    .kw (.closed ["name", "mitigationStrategy"]),
    .properties [("name", .kw (.type .string)),
    ("mitigationStrategy", .kw (.type .string))]]

/-- `definitions/fairnessAssessment` of `bom-1.5.schema.json`. -/
def fairnessAssessment : Schema :=
  .allOf [.kw (.type .object),
    .kw (.closed ["groupAtRisk", "benefits", "harms", "mitigationStrategy"]),
    .properties [("groupAtRisk", .kw (.type .string)),
    ("benefits", .kw (.type .string)),
    ("harms", .kw (.type .string)),
    ("mitigationStrategy", .kw (.type .string))]]

/-- `definitions/dataClassification` of `bom-1.5.schema.json`. -/
def dataClassification : Schema :=
  .kw (.type .string)

/-- `definitions/formula` of `bom-1.5.schema.json`. -/
def formula : Schema :=
  .allOf [.kw (.type .object),
    .kw (.closed ["bom-ref", "components", "services", "workflows", "properties"]),
    .properties [("bom-ref", .ref "refType"),
    ("components", .allOf [.kw (.type .array),
      .kw .uniqueItems,
      .items (.ref "component")]),
    ("services", .allOf [.kw (.type .array),
      .kw .uniqueItems,
      .items (.ref "service")]),
    ("workflows", .allOf [.kw (.type .array),
      .kw .uniqueItems,
      .items (.ref "workflow")]),
    ("properties", .allOf [.kw (.type .array),
      .items (.ref "property")])]]

/-- `definitions/workflow` of `bom-1.5.schema.json`. -/
def workflow : Schema :=
  .allOf [.kw (.type .object),
    .kw (.required ["bom-ref", "uid", "taskTypes"]),
    .kw (.closed ["bom-ref", "uid", "name", "description", "resourceReferences", "tasks", "taskDependencies", "taskTypes", "trigger", "steps", "inputs", "outputs", "timeStart", "timeEnd", "workspaces", "runtimeTopology", "properties"]),
    .properties [("bom-ref", .ref "refType"),
    ("uid", .kw (.type .string)),
    ("name", .kw (.type .string)),
    ("description", .kw (.type .string)),
    ("resourceReferences", .allOf [.kw (.type .array),
      .kw .uniqueItems,
      .items (.ref "resourceReferenceChoice")]),
    ("tasks", .allOf [.kw (.type .array),
      .kw .uniqueItems,
      .items (.ref "task")]),
    ("taskDependencies", .allOf [.kw (.type .array),
      .kw .uniqueItems,
      .items (.ref "dependency")]),
    ("taskTypes", .allOf [.kw (.type .array),
      .items (.ref "taskType")]),
    ("trigger", .ref "trigger"),
    ("steps", .allOf [.kw (.type .array),
      .kw .uniqueItems,
      .items (.ref "step")]),
    ("inputs", .allOf [.kw (.type .array),
      .kw .uniqueItems,
      .items (.ref "inputType")]),
    ("outputs", .allOf [.kw (.type .array),
      .kw .uniqueItems,
      .items (.ref "outputType")]),
    ("timeStart", .allOf [.kw (.type .string),
      .kw (.format "date-time")]),
    ("timeEnd", .allOf [.kw (.type .string),
      .kw (.format "date-time")]),
    ("workspaces", .allOf [.kw (.type .array),
      .kw .uniqueItems,
      .items (.ref "workspace")]),
    ("runtimeTopology", .allOf [.kw (.type .array),
      .kw .uniqueItems,
      .items (.ref "dependency")]),
    ("properties", .allOf [.kw (.type .array),
      .items (.ref "property")])]]

/-- `definitions/task` of `bom-1.5.schema.json`. -/
def task : Schema :=
  .allOf [.kw (.type .object),
    .kw (.required ["bom-ref", "uid", "taskTypes"]),
    .kw (.closed ["bom-ref", "uid", "name", "description", "resourceReferences", "taskTypes", "trigger", "steps", "inputs", "outputs", "timeStart", "timeEnd", "workspaces", "runtimeTopology", "properties"]),
    .properties [("bom-ref", .ref "refType"),
    ("uid", .kw (.type .string)),
    ("name", .kw (.type .string)),
    ("description", .kw (.type .string)),
    ("resourceReferences", .allOf [.kw (.type .array),
      .kw .uniqueItems,
      .items (.ref "resourceReferenceChoice")]),
    ("taskTypes", .allOf [.kw (.type .array),
      .items (.ref "taskType")]),
    ("trigger", .ref "trigger"),
    ("steps", .allOf [.kw (.type .array),
      .kw .uniqueItems,
      .items (.ref "step")]),
    ("inputs", .allOf [.kw (.type .array),
      .kw .uniqueItems,
      .items (.ref "inputType")]),
    ("outputs", .allOf [.kw (.type .array),
      .kw .uniqueItems,
      .items (.ref "outputType")]),
    ("timeStart", .allOf [.kw (.type .string),
      .kw (.format "date-time")]),
    ("timeEnd", .allOf [.kw (.type .string),
      .kw (.format "date-time")]),
    ("workspaces", .allOf [.kw (.type .array),
      .kw .uniqueItems,
      .items (.ref "workspace")]),
    ("runtimeTopology", .allOf [.kw (.type .array),
      .kw .uniqueItems,
      .items (.ref "dependency")]),
    ("properties", .allOf [.kw (.type .array),
      .items (.ref "property")])]]

/-- `definitions/step` of `bom-1.5.schema.json`. -/
def step : Schema :=
  .allOf [.kw (.type .object),
    .kw (.closed ["name", "description", "commands", "properties"]),
    .properties [("name", .kw (.type .string)),
    ("description", .kw (.type .string)),
    ("commands", .allOf [.kw (.type .array),
      .items (.ref "command")]),
    ("properties", .allOf [.kw (.type .array),
      .items (.ref "property")])]]

/-- `definitions/command` of `bom-1.5.schema.json`. -/
def command : Schema :=
  .allOf [.kw (.type .object),
    .kw (.closed ["executed", "properties"]),
    .properties [("executed", .kw (.type .string)),
    ("properties", .allOf [.kw (.type .array),
      .items (.ref "property")])]]

/-- `definitions/workspace` of `bom-1.5.schema.json`. -/
def workspace : Schema :=
  .allOf [.kw (.type .object),
    .kw (.required ["bom-ref", "uid"]),
    .kw (.closed ["bom-ref", "uid", "name", "aliases", "description", "resourceReferences", "accessMode", "mountPath", "managedDataType", "volumeRequest", "volume", "properties"]),
    .properties [("bom-ref", .ref "refType"),
    ("uid", .kw (.type .string)),
    ("name", .kw (.type .string)),
    ("aliases", .allOf [.kw (.type .array),
      .items (.kw (.type .string))]),
    ("description", .kw (.type .string)),
    ("resourceReferences", .allOf [.kw (.type .array),
      .kw .uniqueItems,
      .items (.ref "resourceReferenceChoice")]),
    ("accessMode", .allOf [.kw (.type .string),
      .kw (.enum ["read-only", "read-write", "read-write-once", "write-once", "write-only"])]),
    ("mountPath", .kw (.type .string)),
    ("managedDataType", .kw (.type .string)),
    ("volumeRequest", .kw (.type .string)),
    ("volume", .ref "volume"),
    ("properties", .allOf [.kw (.type .array),
      .items (.ref "property")])]]

/-- `definitions/volume` of `bom-1.5.schema.json`. -/
def volume : Schema :=
  .allOf [.kw (.type .object),
    .kw (.closed ["uid", "name", "mode", "path", "sizeAllocated", "persistent", "remote", "properties"]),
    .properties [("uid", .kw (.type .string)),
    ("name", .kw (.type .string)),
    ("mode", .allOf [.kw (.type .string),
      .kw (.enum ["filesystem", "block"])]),
    ("path", .kw (.type .string)),
    ("sizeAllocated", .kw (.type .string)),
    ("persistent", .kw (.type .boolean)),
    ("remote", .kw (.type .boolean)),
    ("properties", .allOf [.kw (.type .array),
      .items (.ref "property")])]]

/-- `definitions/trigger` of `bom-1.5.schema.json`. -/
def trigger : Schema :=
  .allOf [.kw (.type .object),
    .kw (.required ["type", "bom-ref", "uid"]),
    .kw (.closed ["bom-ref", "uid", "name", "description", "resourceReferences", "type", "event", "conditions", "timeActivated", "inputs", "outputs", "properties"]),
    .properties [("bom-ref", .ref "refType"),
    ("uid", .kw (.type .string)),
    ("name", .kw (.type .string)),
    ("description", .kw (.type .string)),
    ("resourceReferences", .allOf [.kw (.type .array),
      .kw .uniqueItems,
      .items (.ref "resourceReferenceChoice")]),
    ("type", .allOf [.kw (.type .string),
      .kw (.enum ["manual", "api", "webhook", "scheduled"])]),
    ("event", .ref "event"),
    ("conditions", .allOf [.kw (.type .array),
      .kw .uniqueItems,
      .items (.ref "condition")]),
    ("timeActivated", .allOf [.kw (.type .string),
      .kw (.format "date-time")]),
    ("inputs", .allOf [.kw (.type .array),
      .kw .uniqueItems,
      .items (.ref "inputType")]),
    ("outputs", .allOf [.kw (.type .array),
      .kw .uniqueItems,
      .items (.ref "outputType")]),
    ("properties", .allOf [.kw (.type .array),
      .items (.ref "property")])]]

/-- `definitions/event` of `bom-1.5.schema.json`. -/
def event : Schema :=
  .allOf [.kw (.type .object),
    .kw (.closed ["uid", "description", "timeReceived", "data", "source", "target", "properties"]),
    .properties [("uid", .kw (.type .string)),
    ("description", .kw (.type .string)),
    ("timeReceived", .allOf [.kw (.type .string),
      .kw (.format "date-time")]),
    ("data", .ref "attachment"),
    ("source", .ref "resourceReferenceChoice"),
    ("target", .ref "resourceReferenceChoice"),
    ("properties", .allOf [.kw (.type .array),
      .items (.ref "property")])]]

/-- `definitions/inputType` of `bom-1.5.schema.json`. -/
def inputType : Schema :=
  .allOf [.kw (.type .object),
    .kw (.closed ["source", "target", "resource", "parameters", "environmentVars", "data", "properties"]),
    .properties [("source", .ref "resourceReferenceChoice"),
    ("target", .ref "resourceReferenceChoice"),
    ("resource", .ref "resourceReferenceChoice"),
    ("parameters", .allOf [.kw (.type .array),
      .kw .uniqueItems,
      .items (.ref "parameter")]),
    ("environmentVars", .allOf [.kw (.type .array),
      .kw .uniqueItems,
      .items (.oneOf [.ref "property",
        .kw (.type .string)])]),
    ("data", .ref "attachment"),
    ("properties", .allOf [.kw (.type .array),
      .items (.ref "property")])],
    .oneOf [.kw (.required ["resource"]),
    .kw (.required ["parameters"]),
    .kw (.required ["environmentVars"]),
    .kw (.required ["data"])]]

/-- `definitions/outputType` of `bom-1.5.schema.json`. -/
def outputType : Schema :=
  .allOf [.kw (.type .object),
    .kw (.closed ["type", "source", "target", "resource", "data", "environmentVars", "properties"]),
    .properties [("type", .allOf [.kw (.type .string),
      .kw (.enum ["artifact", "attestation", "log", "evidence", "metrics", "other"])]),
    ("source", .ref "resourceReferenceChoice"),
    ("target", .ref "resourceReferenceChoice"),
    ("resource", .ref "resourceReferenceChoice"),
    ("data", .ref "attachment"),
    ("environmentVars", .allOf [.kw (.type .array),
      .kw .uniqueItems,
      .items (.oneOf [.ref "property",
        .kw (.type .string)])]),
    ("properties", .allOf [.kw (.type .array),
      .items (.ref "property")])],
    .oneOf [.kw (.required ["resource"]),
    .kw (.required ["environmentVars"]),
    .kw (.required ["data"])]]

/-- `definitions/resourceReferenceChoice` of `bom-1.5.schema.json`. -/
def resourceReferenceChoice : Schema :=
  .allOf [.kw (.type .object),
    .kw (.closed ["ref", "externalReference"]),
    .properties [("ref", .anyOf [.ref "refLinkType",
      .ref "bomLinkElementType"]),
    ("externalReference", .ref "externalReference")],
    .oneOf [.kw (.required ["ref"]),
    .kw (.required ["externalReference"])]]

/-- `definitions/condition` of `bom-1.5.schema.json`. -/
def condition : Schema :=
  .allOf [.kw (.type .object),
    .kw (.closed ["description", "expression", "properties"]),
    .properties [("description", .kw (.type .string)),
    ("expression", .kw (.type .string)),
    ("properties", .allOf [.kw (.type .array),
      .items (.ref "property")])]]

/-- `definitions/taskType` of `bom-1.5.schema.json`. -/
def taskType : Schema :=
  .allOf [.kw (.type .string),
    .kw (.enum ["copy", "clone", "lint", "scan", "merge", "build", "test", "deliver", "deploy", "release", "clean", "other"])]

/-- `definitions/parameter` of `bom-1.5.schema.json`. -/
def parameter : Schema :=
  .allOf [.kw (.type .object),
    .kw (.closed ["name", "value", "dataType"]),
    .properties [("name", .kw (.type .string)),
    ("value", .kw (.type .string)),
    ("dataType", .kw (.type .string))]]

/-- `definitions/signature` of `bom-1.5.schema.json`. -/
def signature : Schema :=
  .ref "jsf/signature"

/-- The definitions by name. -/
def defs : List (String × Schema) := [
  ("root", root),
  ("refType", refType),
  ("refLinkType", refLinkType),
  ("bomLinkDocumentType", bomLinkDocumentType),
  ("bomLinkElementType", bomLinkElementType),
  ("bomLink", bomLink),
  ("metadata", metadata),
  ("tool", tool),
  ("organizationalEntity", organizationalEntity),
  ("organizationalContact", organizationalContact),
  ("component", component),
  ("swid", swid),
  ("attachment", attachment),
  ("hash", hash),
  ("hash-alg", hashAlg),
  ("hash-content", hashContent),
  ("license", license),
  ("licenseChoice", licenseChoice),
  ("commit", commit),
  ("patch", patch),
  ("diff", diff),
  ("issue", issue),
  ("identifiableAction", identifiableAction),
  ("externalReference", externalReference),
  ("dependency", dependency),
  ("service", service),
  ("serviceData", serviceData),
  ("dataFlowDirection", dataFlowDirection),
  ("copyright", copyright),
  ("componentEvidence", componentEvidence),
  ("compositions", compositions),
  ("aggregateType", aggregateType),
  ("property", property),
  ("localeType", localeType),
  ("releaseType", releaseType),
  ("note", note),
  ("releaseNotes", releaseNotes),
  ("advisory", advisory),
  ("cwe", cwe),
  ("severity", severity),
  ("scoreMethod", scoreMethod),
  ("impactAnalysisState", impactAnalysisState),
  ("impactAnalysisJustification", impactAnalysisJustification),
  ("rating", rating),
  ("vulnerabilitySource", vulnerabilitySource),
  ("vulnerability", vulnerability),
  ("affectedStatus", affectedStatus),
  ("version", version),
  ("range", range),
  ("annotations", annotations),
  ("modelCard", modelCard),
  ("inputOutputMLParameters", inputOutputMLParameters),
  ("componentData", componentData),
  ("dataGovernance", dataGovernance),
  ("dataGovernanceResponsibleParty", dataGovernanceResponsibleParty),
  ("graphicsCollection", graphicsCollection),
  ("graphic", graphic),
  ("performanceMetric", performanceMetric),
  ("risk", risk),
  ("fairnessAssessment", fairnessAssessment),
  ("dataClassification", dataClassification),
  ("formula", formula),
  ("workflow", workflow),
  ("task", task),
  ("step", step),
  ("command", command),
  ("workspace", workspace),
  ("volume", volume),
  ("trigger", trigger),
  ("event", event),
  ("inputType", inputType),
  ("outputType", outputType),
  ("resourceReferenceChoice", resourceReferenceChoice),
  ("condition", condition),
  ("taskType", taskType),
  ("parameter", parameter),
  ("signature", signature)]

end Cdx.Spec.Schema15
