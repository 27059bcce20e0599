/-!
# Enumerations of the BOM model

One Lean inductive type per Rust enumeration of `cyclonedx-bom/src/models` that has a
textual form. `display` is the `Display` implementation (derived by `strum` 0.28 from the
variant names unless said otherwise; a variant marked `#[strum(default)]` displays its
payload), `new` is `new_unchecked`. `fallback?` gives the payload of the catch-all variant.
-/

namespace Cdx

/-- `Classification` (`cyclonedx-bom/src/models/component.rs` 195-218). -/
inductive Classification where
  | application
  | framework
  | library
  | container
  | operatingSystem
  | device
  | firmware
  | file
  | platform
  | deviceDriver
  | machineLearningModel
  | data
  | unknownClassification (s : String)
  deriving DecidableEq, Repr

/-- `Display` of `Classification` (`cyclonedx-bom/src/models/component.rs` 195-218). -/
def Classification.display : Classification → String
  | .application => "application"
  | .framework => "framework"
  | .library => "library"
  | .container => "container"
  | .operatingSystem => "operating-system"
  | .device => "device"
  | .firmware => "firmware"
  | .file => "file"
  | .platform => "platform"
  | .deviceDriver => "device-driver"
  | .machineLearningModel => "machine-learning-model"
  | .data => "data"
  | .unknownClassification s => s

/-- `Classification::new_unchecked` (`cyclonedx-bom/src/models/component.rs` 220-238). -/
def Classification.new : String → Classification
  | "application" => .application
  | "framework" => .framework
  | "library" => .library
  | "container" => .container
  | "operating-system" => .operatingSystem
  | "device" => .device
  | "firmware" => .firmware
  | "file" => .file
  | "platform" => .platform
  | "device-driver" => .deviceDriver
  | "machine-learning-model" => .machineLearningModel
  | "data" => .data
  | s => .unknownClassification s

/-- The catch-all variant of `Classification` (`cyclonedx-bom/src/models/component.rs` 195-218). -/
def Classification.fallback? : Classification → Option String
  | .unknownClassification s => some s
  | _ => Option.none

/-- `Scope` (`cyclonedx-bom/src/models/component.rs` 247-256). -/
inductive Scope where
  | required
  | optional
  | excluded
  | unknownScope (s : String)
  deriving DecidableEq, Repr

/-- `Display` of `Scope` (`cyclonedx-bom/src/models/component.rs` 247-256). -/
def Scope.display : Scope → String
  | .required => "required"
  | .optional => "optional"
  | .excluded => "excluded"
  | .unknownScope s => s

/-- `Scope::new_unchecked` (`cyclonedx-bom/src/models/component.rs` 258-267). -/
def Scope.new : String → Scope
  | "required" => .required
  | "optional" => .optional
  | "excluded" => .excluded
  | s => .unknownScope s

/-- The catch-all variant of `Scope` (`cyclonedx-bom/src/models/component.rs` 247-256). -/
def Scope.fallback? : Scope → Option String
  | .unknownScope s => some s
  | _ => Option.none

/-- `IdentityField` (`cyclonedx-bom/src/models/component.rs` 519-531). `Unknown` has no `#[strum(default)]`, so it is displayed by its variant name. -/
inductive IdentityField where
  | group
  | name
  | version
  | purl
  | cpe
  | swid
  | hash
  | unknown (s : String)
  deriving DecidableEq, Repr

/-- `Display` of `IdentityField` (`cyclonedx-bom/src/models/component.rs` 519-531). -/
def IdentityField.display : IdentityField → String
  | .group => "group"
  | .name => "name"
  | .version => "version"
  | .purl => "purl"
  | .cpe => "cpe"
  | .swid => "swid"
  | .hash => "hash"
  | .unknown _ => "unknown"

/-- `IdentityField::new_unchecked` (`cyclonedx-bom/src/models/component.rs` 533-546). -/
def IdentityField.new : String → IdentityField
  | "group" => .group
  | "name" => .name
  | "version" => .version
  | "purl" => .purl
  | "cpe" => .cpe
  | "swid" => .swid
  | "hash" => .hash
  | s => .unknown s

/-- The catch-all variant of `IdentityField` (`cyclonedx-bom/src/models/component.rs` 519-531). -/
def IdentityField.fallback? : IdentityField → Option String
  | .unknown s => some s
  | _ => Option.none

/-- `Encoding` (`cyclonedx-bom/src/models/attached_text.rs` 84-91). -/
inductive Encoding where
  | base64
  | unknownEncoding (s : String)
  deriving DecidableEq, Repr

/-- `Display` of `Encoding` (`cyclonedx-bom/src/models/attached_text.rs` 84-91). -/
def Encoding.display : Encoding → String
  | .base64 => "base64"
  | .unknownEncoding s => s

/-- `Encoding::new_unchecked` (`cyclonedx-bom/src/models/attached_text.rs` 93-100). -/
def Encoding.new : String → Encoding
  | "base64" => .base64
  | s => .unknownEncoding s

/-- The catch-all variant of `Encoding` (`cyclonedx-bom/src/models/attached_text.rs` 84-91). -/
def Encoding.fallback? : Encoding → Option String
  | .unknownEncoding s => some s
  | _ => Option.none

/-- `IssueClassification` (`cyclonedx-bom/src/models/code.rs` 138-147). -/
inductive IssueClassification where
  | defect
  | enhancement
  | security
  | unknownIssueClassification (s : String)
  deriving DecidableEq, Repr

/-- `Display` of `IssueClassification` (`cyclonedx-bom/src/models/code.rs` 138-147). -/
def IssueClassification.display : IssueClassification → String
  | .defect => "defect"
  | .enhancement => "enhancement"
  | .security => "security"
  | .unknownIssueClassification s => s

/-- `IssueClassification::new_unchecked` (`cyclonedx-bom/src/models/code.rs` 149-158). -/
def IssueClassification.new : String → IssueClassification
  | "defect" => .defect
  | "enhancement" => .enhancement
  | "security" => .security
  | s => .unknownIssueClassification s

/-- The catch-all variant of `IssueClassification` (`cyclonedx-bom/src/models/code.rs` 138-147). -/
def IssueClassification.fallback? : IssueClassification → Option String
  | .unknownIssueClassification s => some s
  | _ => Option.none

/-- `PatchClassification` (`cyclonedx-bom/src/models/code.rs` 206-216). -/
inductive PatchClassification where
  | unofficial
  | monkey
  | backport
  | cherryPick
  | unknownPatchClassification (s : String)
  deriving DecidableEq, Repr

/-- `Display` of `PatchClassification` (`cyclonedx-bom/src/models/code.rs` 206-216). -/
def PatchClassification.display : PatchClassification → String
  | .unofficial => "unofficial"
  | .monkey => "monkey"
  | .backport => "backport"
  | .cherryPick => "cherry-pick"
  | .unknownPatchClassification s => s

/-- `PatchClassification::new_unchecked` (`cyclonedx-bom/src/models/code.rs` 218-228). -/
def PatchClassification.new : String → PatchClassification
  | "unofficial" => .unofficial
  | "monkey" => .monkey
  | "backport" => .backport
  | "cherry-pick" => .cherryPick
  | s => .unknownPatchClassification s

/-- The catch-all variant of `PatchClassification` (`cyclonedx-bom/src/models/code.rs` 206-216). -/
def PatchClassification.fallback? : PatchClassification → Option String
  | .unknownPatchClassification s => some s
  | _ => Option.none

/-- `ComponentDataType` (`cyclonedx-bom/src/models/component_data.rs` 65-76). -/
inductive ComponentDataType where
  | sourceCode
  | configuration
  | dataset
  | definition
  | other
  | unknown (s : String)
  deriving DecidableEq, Repr

/-- `Display` of `ComponentDataType` (`cyclonedx-bom/src/models/component_data.rs` 65-76). -/
def ComponentDataType.display : ComponentDataType → String
  | .sourceCode => "source-code"
  | .configuration => "configuration"
  | .dataset => "dataset"
  | .definition => "definition"
  | .other => "other"
  | .unknown s => s

/-- `ComponentDataType::new_unchecked` (`cyclonedx-bom/src/models/component_data.rs` 65, 78-82 (derived `EnumString`)). -/
def ComponentDataType.new : String → ComponentDataType
  | "source-code" => .sourceCode
  | "configuration" => .configuration
  | "dataset" => .dataset
  | "definition" => .definition
  | "other" => .other
  | s => .unknown s

/-- The catch-all variant of `ComponentDataType` (`cyclonedx-bom/src/models/component_data.rs` 65-76). -/
def ComponentDataType.fallback? : ComponentDataType → Option String
  | .unknown s => some s
  | _ => Option.none

/-- `AggregateType` (`cyclonedx-bom/src/models/composition.rs` 77-98). The misspelled string is the one in the code. -/
inductive AggregateType where
  | complete
  | incomplete
  | incompleteFirstPartyOnly
  | incompleteThirdPartyOnly
  | unknown
  | notSpecified
  | incompleteFirstPartyProprietaryOnly
  | incompleteFirstPartyOpensourceOnly
  | incompleteThirdPartyProprietaryOnly
  | incompleteThirdPartyOpensourceOnly
  | unknownAggregateType (s : String)
  deriving DecidableEq, Repr

/-- `Display` of `AggregateType` (`cyclonedx-bom/src/models/composition.rs` 77-98). -/
def AggregateType.display : AggregateType → String
  | .complete => "complete"
  | .incomplete => "incomplete"
  | .incompleteFirstPartyOnly => "incomplete_first_party_only"
  | .incompleteThirdPartyOnly => "incomplete_third_party_only"
  | .unknown => "unknown"
  | .notSpecified => "not_specified"
  | .incompleteFirstPartyProprietaryOnly => "incomplete_first_party_proprietary_only"
  | .incompleteFirstPartyOpensourceOnly => "incomplete_first_party_opensource_only"
  | .incompleteThirdPartyProprietaryOnly => "incomplete_third_party_proprietary_only"
  | .incompleteThirdPartyOpensourceOnly => "incomplete_third_party_opensource_only"
  | .unknownAggregateType s => s

/-- `AggregateType::new_unchecked` (`cyclonedx-bom/src/models/composition.rs` 100-116). -/
def AggregateType.new : String → AggregateType
  | "complete" => .complete
  | "incomplete" => .incomplete
  | "incomplete_first_party_only" => .incompleteFirstPartyOnly
  | "incomplete_third_party_only" => .incompleteThirdPartyOnly
  | "unknown" => .unknown
  | "not_specified" => .notSpecified
  | "incomplete_first_party_propprietary_only" => .incompleteFirstPartyProprietaryOnly
  | "incomplete_first_party_opensource_only" => .incompleteFirstPartyOpensourceOnly
  | "incomplete_third_party_proprietary_only" => .incompleteThirdPartyProprietaryOnly
  | "incomplete_third_party_opensource_only" => .incompleteThirdPartyOpensourceOnly
  | s => .unknownAggregateType s

/-- The catch-all variant of `AggregateType` (`cyclonedx-bom/src/models/composition.rs` 77-98). -/
def AggregateType.fallback? : AggregateType → Option String
  | .unknownAggregateType s => some s
  | _ => Option.none

/-- `ExternalReferenceType` (`cyclonedx-bom/src/models/external_reference.rs` 100-145). `CondifiedInfrastructure` is spelled as in the code. -/
inductive ExternalReferenceType where
  | vcs
  | issueTracker
  | website
  | advisories
  | bom
  | mailingList
  | social
  | chat
  | documentation
  | support
  | distribution
  | distributionIntake
  | license
  | buildMeta
  | buildSystem
  | other
  | releaseNotes
  | securityContact
  | modelCard
  | log
  | configuration
  | evidence
  | formulation
  | attestation
  | threatModel
  | adversaryModel
  | riskAssessment
  | vulnerabilityAssertion
  | exploitabilityStatement
  | pentestReport
  | staticAnalysisReport
  | dynamicAnalysisReport
  | runtimeAnalysisReport
  | componentAnalysisReport
  | maturityReport
  | certificationReport
  | condifiedInfrastructure
  | qualityMetrics
  | poam
  | unknownExternalReferenceType (s : String)
  deriving DecidableEq, Repr

/-- `Display` of `ExternalReferenceType` (`cyclonedx-bom/src/models/external_reference.rs` 100-145). -/
def ExternalReferenceType.display : ExternalReferenceType → String
  | .vcs => "vcs"
  | .issueTracker => "issue-tracker"
  | .website => "website"
  | .advisories => "advisories"
  | .bom => "bom"
  | .mailingList => "mailing-list"
  | .social => "social"
  | .chat => "chat"
  | .documentation => "documentation"
  | .support => "support"
  | .distribution => "distribution"
  | .distributionIntake => "distribution-intake"
  | .license => "license"
  | .buildMeta => "build-meta"
  | .buildSystem => "build-system"
  | .other => "other"
  | .releaseNotes => "release-notes"
  | .securityContact => "security-contact"
  | .modelCard => "model-card"
  | .log => "log"
  | .configuration => "configuration"
  | .evidence => "evidence"
  | .formulation => "formulation"
  | .attestation => "attestation"
  | .threatModel => "threat-model"
  | .adversaryModel => "adversary-model"
  | .riskAssessment => "risk-assessment"
  | .vulnerabilityAssertion => "vulnerability-assertion"
  | .exploitabilityStatement => "exploitability-statement"
  | .pentestReport => "pentest-report"
  | .staticAnalysisReport => "static-analysis-report"
  | .dynamicAnalysisReport => "dynamic-analysis-report"
  | .runtimeAnalysisReport => "runtime-analysis-report"
  | .componentAnalysisReport => "component-analysis-report"
  | .maturityReport => "maturity-report"
  | .certificationReport => "certification-report"
  | .condifiedInfrastructure => "condified-infrastructure"
  | .qualityMetrics => "quality-metrics"
  | .poam => "poam"
  | .unknownExternalReferenceType s => s

/-- `ExternalReferenceType::new_unchecked` (`cyclonedx-bom/src/models/external_reference.rs` 147-192). -/
def ExternalReferenceType.new : String → ExternalReferenceType
  | "vcs" => .vcs
  | "issue-tracker" => .issueTracker
  | "website" => .website
  | "advisories" => .advisories
  | "bom" => .bom
  | "mailing-list" => .mailingList
  | "social" => .social
  | "chat" => .chat
  | "documentation" => .documentation
  | "support" => .support
  | "distribution" => .distribution
  | "distribution-intake" => .distributionIntake
  | "license" => .license
  | "build-meta" => .buildMeta
  | "build-system" => .buildSystem
  | "other" => .other
  | "release-notes" => .releaseNotes
  | "security-contact" => .securityContact
  | "model-card" => .modelCard
  | "log" => .log
  | "configuration" => .configuration
  | "evidence" => .evidence
  | "formulation" => .formulation
  | "attestation" => .attestation
  | "threat-model" => .threatModel
  | "adversary-model" => .adversaryModel
  | "risk-assessment" => .riskAssessment
  | "vulnerability-assertion" => .vulnerabilityAssertion
  | "exploitability-statement" => .exploitabilityStatement
  | "pentest-report" => .pentestReport
  | "static-analysis-report" => .staticAnalysisReport
  | "dynamic-analysis-report" => .dynamicAnalysisReport
  | "runtime-analysis-report" => .runtimeAnalysisReport
  | "component-analysis-report" => .componentAnalysisReport
  | "maturity-report" => .maturityReport
  | "certification-report" => .certificationReport
  | "codified-infrastructure" => .condifiedInfrastructure
  | "quality-metrics" => .qualityMetrics
  | "poam" => .poam
  | s => .unknownExternalReferenceType s

/-- The catch-all variant of `ExternalReferenceType` (`cyclonedx-bom/src/models/external_reference.rs` 100-145). -/
def ExternalReferenceType.fallback? : ExternalReferenceType → Option String
  | .unknownExternalReferenceType s => some s
  | _ => Option.none

/-- `HashAlgorithm` (`cyclonedx-bom/src/models/hash.rs` 65-88). -/
inductive HashAlgorithm where
  | md5
  | sha1
  | sha256
  | sha384
  | sha512
  | sha3_256
  | sha3_384
  | sha3_512
  | blake2b256
  | blake2b384
  | blake2b512
  | blake3
  | unknownHashAlgorithm (s : String)
  deriving DecidableEq, Repr

/-- `Display` of `HashAlgorithm` (`cyclonedx-bom/src/models/hash.rs` 65-88). -/
def HashAlgorithm.display : HashAlgorithm → String
  | .md5 => "MD5"
  | .sha1 => "SHA-1"
  | .sha256 => "SHA-256"
  | .sha384 => "SHA-384"
  | .sha512 => "SHA-512"
  | .sha3_256 => "SHA3-256"
  | .sha3_384 => "SHA3-384"
  | .sha3_512 => "SHA3-512"
  | .blake2b256 => "BLAKE2b-256"
  | .blake2b384 => "BLAKE2b-384"
  | .blake2b512 => "BLAKE2b-512"
  | .blake3 => "BLAKE3"
  | .unknownHashAlgorithm s => s

/-- `HashAlgorithm::new_unchecked` (`cyclonedx-bom/src/models/hash.rs` 89-107). -/
def HashAlgorithm.new : String → HashAlgorithm
  | "MD5" => .md5
  | "SHA-1" => .sha1
  | "SHA-256" => .sha256
  | "SHA-384" => .sha384
  | "SHA-512" => .sha512
  | "SHA3-256" => .sha3_256
  | "SHA3-384" => .sha3_384
  | "SHA3-512" => .sha3_512
  | "BLAKE2b-256" => .blake2b256
  | "BLAKE2b-384" => .blake2b384
  | "BLAKE2b-512" => .blake2b512
  | "BLAKE3" => .blake3
  | s => .unknownHashAlgorithm s

/-- The catch-all variant of `HashAlgorithm` (`cyclonedx-bom/src/models/hash.rs` 65-88). -/
def HashAlgorithm.fallback? : HashAlgorithm → Option String
  | .unknownHashAlgorithm s => some s
  | _ => Option.none

/-- `LicenseType` (`cyclonedx-bom/src/models/license.rs` 263-286). -/
inductive LicenseType where
  | academic
  | appliance
  | clientAccess
  | concurrentUser
  | corePoints
  | customMetric
  | device
  | evaluation
  | namedUser
  | nodeLocked
  | oem
  | perpetual
  | processorPoints
  | subscription
  | user
  | other
  | unknown (s : String)
  deriving DecidableEq, Repr

/-- `Display` of `LicenseType` (`cyclonedx-bom/src/models/license.rs` 263-286). -/
def LicenseType.display : LicenseType → String
  | .academic => "academic"
  | .appliance => "appliance"
  | .clientAccess => "client-access"
  | .concurrentUser => "concurrent-user"
  | .corePoints => "core-points"
  | .customMetric => "custom-metric"
  | .device => "device"
  | .evaluation => "evaluation"
  | .namedUser => "named-user"
  | .nodeLocked => "node-locked"
  | .oem => "oem"
  | .perpetual => "perpetual"
  | .processorPoints => "processor-points"
  | .subscription => "subscription"
  | .user => "user"
  | .other => "other"
  | .unknown s => s

/-- `LicenseType::new_unchecked` (`cyclonedx-bom/src/models/license.rs` 288-310). -/
def LicenseType.new : String → LicenseType
  | "academic" => .academic
  | "appliance" => .appliance
  | "client-access" => .clientAccess
  | "concurrent-user" => .concurrentUser
  | "core-points" => .corePoints
  | "custom-metric" => .customMetric
  | "device" => .device
  | "evaluation" => .evaluation
  | "named-user" => .namedUser
  | "node-locked" => .nodeLocked
  | "oem" => .oem
  | "perpetual" => .perpetual
  | "processor-points" => .processorPoints
  | "subscription" => .subscription
  | "user" => .user
  | "other" => .other
  | s => .unknown s

/-- The catch-all variant of `LicenseType` (`cyclonedx-bom/src/models/license.rs` 263-286). -/
def LicenseType.fallback? : LicenseType → Option String
  | .unknown s => some s
  | _ => Option.none

/-- `Phase` (`cyclonedx-bom/src/models/lifecycle.rs` 30-41). -/
inductive Phase where
  | design
  | preBuild
  | build
  | postBuild
  | operations
  | discovery
  | decommission
  | unknown (s : String)
  deriving DecidableEq, Repr

/-- `Display` of `Phase` (`cyclonedx-bom/src/models/lifecycle.rs` 43-57). -/
def Phase.display : Phase → String
  | .design => "design"
  | .preBuild => "pre-build"
  | .build => "build"
  | .postBuild => "post-build"
  | .operations => "operations"
  | .discovery => "discovery"
  | .decommission => "decommission"
  | .unknown s => s

/-- `Phase::new_unchecked` (`cyclonedx-bom/src/models/lifecycle.rs` 59-72). -/
def Phase.new : String → Phase
  | "design" => .design
  | "pre-build" => .preBuild
  | "build" => .build
  | "post-build" => .postBuild
  | "operations" => .operations
  | "discovery" => .discovery
  | "decommission" => .decommission
  | s => .unknown s

/-- The catch-all variant of `Phase` (`cyclonedx-bom/src/models/lifecycle.rs` 30-41). -/
def Phase.fallback? : Phase → Option String
  | .unknown s => some s
  | _ => Option.none

/-- `ApproachType` (`cyclonedx-bom/src/models/modelcard.rs` 111-120). -/
inductive ApproachType where
  | supervised
  | unsupervised
  | reinforcementLearning
  | semiSupervised
  | selfSupervised
  | unknown (s : String)
  deriving DecidableEq, Repr

/-- `Display` of `ApproachType` (`cyclonedx-bom/src/models/modelcard.rs` 135-147). -/
def ApproachType.display : ApproachType → String
  | .supervised => "supervised"
  | .unsupervised => "unsupervised"
  | .reinforcementLearning => "reinforcement-learning"
  | .semiSupervised => "semi-supervised"
  | .selfSupervised => "self-supervised"
  | .unknown s => s

/-- `ApproachType::new_unchecked` (`cyclonedx-bom/src/models/modelcard.rs` 122-133). -/
def ApproachType.new : String → ApproachType
  | "supervised" => .supervised
  | "unsupervised" => .unsupervised
  | "reinforcement-learning" => .reinforcementLearning
  | "semi-supervised" => .semiSupervised
  | "self-supervised" => .selfSupervised
  | s => .unknown s

/-- The catch-all variant of `ApproachType` (`cyclonedx-bom/src/models/modelcard.rs` 111-120). -/
def ApproachType.fallback? : ApproachType → Option String
  | .unknown s => some s
  | _ => Option.none

/-- `DataFlowType` (`cyclonedx-bom/src/models/service.rs` 208-218). -/
inductive DataFlowType where
  | inbound
  | outbound
  | biDirectional
  | unknown
  | unknownDataFlow (s : String)
  deriving DecidableEq, Repr

/-- `Display` of `DataFlowType` (`cyclonedx-bom/src/models/service.rs` 208-218). -/
def DataFlowType.display : DataFlowType → String
  | .inbound => "inbound"
  | .outbound => "outbound"
  | .biDirectional => "bi-directional"
  | .unknown => "unknown"
  | .unknownDataFlow s => s

/-- `DataFlowType::new_unchecked` (`cyclonedx-bom/src/models/service.rs` 220-230). -/
def DataFlowType.new : String → DataFlowType
  | "inbound" => .inbound
  | "outbound" => .outbound
  | "bi-directional" => .biDirectional
  | "unknown" => .unknown
  | s => .unknownDataFlow s

/-- The catch-all variant of `DataFlowType` (`cyclonedx-bom/src/models/service.rs` 208-218). -/
def DataFlowType.fallback? : DataFlowType → Option String
  | .unknownDataFlow s => some s
  | _ => Option.none

/-- `Algorithm` (`cyclonedx-bom/src/models/signature.rs` 106-123). `Unknown` has no `#[strum(default)]`, so it is displayed by its variant name. -/
inductive Algorithm where
  | rs256
  | rs384
  | rs512
  | ps256
  | ps384
  | ps512
  | es256
  | es384
  | es512
  | ed25519
  | ed448
  | hs256
  | hs384
  | hs512
  | unknown (s : String)
  deriving DecidableEq, Repr

/-- `Display` of `Algorithm` (`cyclonedx-bom/src/models/signature.rs` 106-123). -/
def Algorithm.display : Algorithm → String
  | .rs256 => "RS256"
  | .rs384 => "RS384"
  | .rs512 => "RS512"
  | .ps256 => "PS256"
  | .ps384 => "PS384"
  | .ps512 => "PS512"
  | .es256 => "ES256"
  | .es384 => "ES384"
  | .es512 => "ES512"
  | .ed25519 => "Ed25519"
  | .ed448 => "Ed448"
  | .hs256 => "HS256"
  | .hs384 => "HS384"
  | .hs512 => "HS512"
  | .unknown _ => "Unknown"

/-- `Algorithm::new_unchecked` (`cyclonedx-bom/src/models/signature.rs` 132-153). -/
def Algorithm.new : String → Algorithm
  | "RS256" => .rs256
  | "RS384" => .rs384
  | "RS512" => .rs512
  | "PS256" => .ps256
  | "PS384" => .ps384
  | "PS512" => .ps512
  | "ES256" => .es256
  | "ES384" => .es384
  | "ES512" => .es512
  | "Ed25519" => .ed25519
  | "Ed448" => .ed448
  | "HS256" => .hs256
  | "HS384" => .hs384
  | "HS512" => .hs512
  | s => .unknown s

/-- The catch-all variant of `Algorithm` (`cyclonedx-bom/src/models/signature.rs` 106-123). -/
def Algorithm.fallback? : Algorithm → Option String
  | .unknown s => some s
  | _ => Option.none

/-- `ImpactAnalysisState` (`cyclonedx-bom/src/models/vulnerability_analysis.rs` 105-117). -/
inductive ImpactAnalysisState where
  | resolved
  | resolvedWithPedigree
  | exploitable
  | inTriage
  | falsePositive
  | notAffected
  | undefinedImpactAnalysisState (s : String)
  deriving DecidableEq, Repr

/-- `Display` of `ImpactAnalysisState` (`cyclonedx-bom/src/models/vulnerability_analysis.rs` 105-117). -/
def ImpactAnalysisState.display : ImpactAnalysisState → String
  | .resolved => "resolved"
  | .resolvedWithPedigree => "resolved_with_pedigree"
  | .exploitable => "exploitable"
  | .inTriage => "in_triage"
  | .falsePositive => "false_positive"
  | .notAffected => "not_affected"
  | .undefinedImpactAnalysisState s => s

/-- `ImpactAnalysisState::new_unchecked` (`cyclonedx-bom/src/models/vulnerability_analysis.rs` 119-131). -/
def ImpactAnalysisState.new : String → ImpactAnalysisState
  | "resolved" => .resolved
  | "resolved_with_pedigree" => .resolvedWithPedigree
  | "exploitable" => .exploitable
  | "in_triage" => .inTriage
  | "false_positive" => .falsePositive
  | "not_affected" => .notAffected
  | s => .undefinedImpactAnalysisState s

/-- The catch-all variant of `ImpactAnalysisState` (`cyclonedx-bom/src/models/vulnerability_analysis.rs` 105-117). -/
def ImpactAnalysisState.fallback? : ImpactAnalysisState → Option String
  | .undefinedImpactAnalysisState s => some s
  | _ => Option.none

/-- `ImpactAnalysisJustification` (`cyclonedx-bom/src/models/vulnerability_analysis.rs` 148-163). -/
inductive ImpactAnalysisJustification where
  | codeNotPresent
  | codeNotReachable
  | requiresConfiguration
  | requiresDependency
  | requiresEnvironment
  | protectedByCompiler
  | protectedAtRuntime
  | protectedAtPerimeter
  | protectedByMitigatingControl
  | undefinedImpactAnalysisJustification (s : String)
  deriving DecidableEq, Repr

/-- `Display` of `ImpactAnalysisJustification` (`cyclonedx-bom/src/models/vulnerability_analysis.rs` 148-163). -/
def ImpactAnalysisJustification.display : ImpactAnalysisJustification → String
  | .codeNotPresent => "code_not_present"
  | .codeNotReachable => "code_not_reachable"
  | .requiresConfiguration => "requires_configuration"
  | .requiresDependency => "requires_dependency"
  | .requiresEnvironment => "requires_environment"
  | .protectedByCompiler => "protected_by_compiler"
  | .protectedAtRuntime => "protected_at_runtime"
  | .protectedAtPerimeter => "protected_at_perimeter"
  | .protectedByMitigatingControl => "protected_by_mitigating_control"
  | .undefinedImpactAnalysisJustification s => s

/-- `ImpactAnalysisJustification::new_unchecked` (`cyclonedx-bom/src/models/vulnerability_analysis.rs` 165-180). -/
def ImpactAnalysisJustification.new : String → ImpactAnalysisJustification
  | "code_not_present" => .codeNotPresent
  | "code_not_reachable" => .codeNotReachable
  | "requires_configuration" => .requiresConfiguration
  | "requires_dependency" => .requiresDependency
  | "requires_environment" => .requiresEnvironment
  | "protected_by_compiler" => .protectedByCompiler
  | "protected_at_runtime" => .protectedAtRuntime
  | "protected_at_perimeter" => .protectedAtPerimeter
  | "protected_by_mitigating_control" => .protectedByMitigatingControl
  | s => .undefinedImpactAnalysisJustification s

/-- The catch-all variant of `ImpactAnalysisJustification` (`cyclonedx-bom/src/models/vulnerability_analysis.rs` 148-163). -/
def ImpactAnalysisJustification.fallback? : ImpactAnalysisJustification → Option String
  | .undefinedImpactAnalysisJustification s => some s
  | _ => Option.none

/-- `ImpactAnalysisResponse` (`cyclonedx-bom/src/models/vulnerability_analysis.rs` 194-205). -/
inductive ImpactAnalysisResponse where
  | canNotFix
  | willNotFix
  | update
  | rollback
  | workaroundAvailable
  | undefinedResponse (s : String)
  deriving DecidableEq, Repr

/-- `Display` of `ImpactAnalysisResponse` (`cyclonedx-bom/src/models/vulnerability_analysis.rs` 194-205). -/
def ImpactAnalysisResponse.display : ImpactAnalysisResponse → String
  | .canNotFix => "can_not_fix"
  | .willNotFix => "will_not_fix"
  | .update => "update"
  | .rollback => "rollback"
  | .workaroundAvailable => "workaround_available"
  | .undefinedResponse s => s

/-- `ImpactAnalysisResponse::new_unchecked` (`cyclonedx-bom/src/models/vulnerability_analysis.rs` 207-218). -/
def ImpactAnalysisResponse.new : String → ImpactAnalysisResponse
  | "can_not_fix" => .canNotFix
  | "will_not_fix" => .willNotFix
  | "update" => .update
  | "rollback" => .rollback
  | "workaround_available" => .workaroundAvailable
  | s => .undefinedResponse s

/-- The catch-all variant of `ImpactAnalysisResponse` (`cyclonedx-bom/src/models/vulnerability_analysis.rs` 194-205). -/
def ImpactAnalysisResponse.fallback? : ImpactAnalysisResponse → Option String
  | .undefinedResponse s => some s
  | _ => Option.none

/-- `Severity` (`cyclonedx-bom/src/models/vulnerability_rating.rs` 138-151). -/
inductive Severity where
  | critical
  | high
  | medium
  | low
  | info
  | none
  | unknown
  | undefinedSeverity (s : String)
  deriving DecidableEq, Repr

/-- `Display` of `Severity` (`cyclonedx-bom/src/models/vulnerability_rating.rs` 138-151). -/
def Severity.display : Severity → String
  | .critical => "critical"
  | .high => "high"
  | .medium => "medium"
  | .low => "low"
  | .info => "info"
  | .none => "none"
  | .unknown => "unknown"
  | .undefinedSeverity s => s

/-- `Severity::new_unchecked` (`cyclonedx-bom/src/models/vulnerability_rating.rs` 153-166). -/
def Severity.new : String → Severity
  | "critical" => .critical
  | "high" => .high
  | "medium" => .medium
  | "low" => .low
  | "info" => .info
  | "none" => .none
  | "unknown" => .unknown
  | s => .undefinedSeverity s

/-- The catch-all variant of `Severity` (`cyclonedx-bom/src/models/vulnerability_rating.rs` 138-151). -/
def Severity.fallback? : Severity → Option String
  | .undefinedSeverity s => some s
  | _ => Option.none

/-- `ScoreMethod` (`cyclonedx-bom/src/models/vulnerability_rating.rs` 187-200). -/
inductive ScoreMethod where
  | cvssv2
  | cvssv3
  | cvssv31
  | owasp
  | cvssv4
  | ssvc
  | unknown (s : String)
  deriving DecidableEq, Repr

/-- `Display` of `ScoreMethod` (`cyclonedx-bom/src/models/vulnerability_rating.rs` 187-200). -/
def ScoreMethod.display : ScoreMethod → String
  | .cvssv2 => "CVSSv2"
  | .cvssv3 => "CVSSv3"
  | .cvssv31 => "CVSSv31"
  | .owasp => "OWASP"
  | .cvssv4 => "CVSSv4"
  | .ssvc => "SSVC"
  | .unknown s => s

/-- `ScoreMethod::new_unchecked` (`cyclonedx-bom/src/models/vulnerability_rating.rs` 202-214). -/
def ScoreMethod.new : String → ScoreMethod
  | "CVSSv2" => .cvssv2
  | "CVSSv3" => .cvssv3
  | "CVSSv31" => .cvssv31
  | "OWASP" => .owasp
  | "CVSSv4" => .cvssv4
  | "SSVC" => .ssvc
  | s => .unknown s

/-- The catch-all variant of `ScoreMethod` (`cyclonedx-bom/src/models/vulnerability_rating.rs` 187-200). -/
def ScoreMethod.fallback? : ScoreMethod → Option String
  | .unknown s => some s
  | _ => Option.none

/-- `Status` (`cyclonedx-bom/src/models/vulnerability_target.rs` 159-168). -/
inductive Status where
  | affected
  | unaffected
  | unknown
  | undefinedStatus (s : String)
  deriving DecidableEq, Repr

/-- `Display` of `Status` (`cyclonedx-bom/src/models/vulnerability_target.rs` 159-168). -/
def Status.display : Status → String
  | .affected => "affected"
  | .unaffected => "unaffected"
  | .unknown => "unknown"
  | .undefinedStatus s => s

/-- `Status::new_unchecked` (`cyclonedx-bom/src/models/vulnerability_target.rs` 170-179). -/
def Status.new : String → Status
  | "affected" => .affected
  | "unaffected" => .unaffected
  | "unknown" => .unknown
  | s => .undefinedStatus s

/-- The catch-all variant of `Status` (`cyclonedx-bom/src/models/vulnerability_target.rs` 159-168). -/
def Status.fallback? : Status → Option String
  | .undefinedStatus s => some s
  | _ => Option.none

/-- `TaskType` (`cyclonedx-bom/src/models/formulation/workflow/mod.rs` 138-155). -/
inductive TaskType where
  | copy
  | clone
  | lint
  | scan
  | merge
  | build
  | test
  | deliver
  | deploy
  | release
  | clean
  | other
  | unknown (s : String)
  deriving DecidableEq, Repr

/-- `Display` of `TaskType` (`cyclonedx-bom/src/models/formulation/workflow/mod.rs` 138-155). -/
def TaskType.display : TaskType → String
  | .copy => "copy"
  | .clone => "clone"
  | .lint => "lint"
  | .scan => "scan"
  | .merge => "merge"
  | .build => "build"
  | .test => "test"
  | .deliver => "deliver"
  | .deploy => "deploy"
  | .release => "release"
  | .clean => "clean"
  | .other => "other"
  | .unknown s => s

/-- `TaskType::new_unchecked` (`cyclonedx-bom/src/models/formulation/workflow/mod.rs` 157-175). -/
def TaskType.new : String → TaskType
  | "copy" => .copy
  | "clone" => .clone
  | "lint" => .lint
  | "scan" => .scan
  | "merge" => .merge
  | "build" => .build
  | "test" => .test
  | "deliver" => .deliver
  | "deploy" => .deploy
  | "release" => .release
  | "clean" => .clean
  | "other" => .other
  | s => .unknown s

/-- The catch-all variant of `TaskType` (`cyclonedx-bom/src/models/formulation/workflow/mod.rs` 138-155). -/
def TaskType.fallback? : TaskType → Option String
  | .unknown s => some s
  | _ => Option.none

/-- `OutputType` (`cyclonedx-bom/src/models/formulation/workflow/output.rs` 50-62). (`output::Type`) -/
inductive OutputType where
  | artifact
  | attestation
  | log
  | evidence
  | metrics
  | other
  | unknown (s : String)
  deriving DecidableEq, Repr

/-- `Display` of `OutputType` (`cyclonedx-bom/src/models/formulation/workflow/output.rs` 50-62). -/
def OutputType.display : OutputType → String
  | .artifact => "artifact"
  | .attestation => "attestation"
  | .log => "log"
  | .evidence => "evidence"
  | .metrics => "metrics"
  | .other => "other"
  | .unknown s => s

/-- `OutputType::new_unchecked` (`cyclonedx-bom/src/models/formulation/workflow/output.rs` 64-76). -/
def OutputType.new : String → OutputType
  | "artifact" => .artifact
  | "attestation" => .attestation
  | "log" => .log
  | "evidence" => .evidence
  | "metrics" => .metrics
  | "other" => .other
  | s => .unknown s

/-- The catch-all variant of `OutputType` (`cyclonedx-bom/src/models/formulation/workflow/output.rs` 50-62). -/
def OutputType.fallback? : OutputType → Option String
  | .unknown s => some s
  | _ => Option.none

/-- `TriggerType` (`cyclonedx-bom/src/models/formulation/workflow/trigger.rs` 65-75). (`trigger::Type`) -/
inductive TriggerType where
  | manual
  | api
  | webhook
  | scheduled
  | unknownType (s : String)
  deriving DecidableEq, Repr

/-- `Display` of `TriggerType` (`cyclonedx-bom/src/models/formulation/workflow/trigger.rs` 65-75). -/
def TriggerType.display : TriggerType → String
  | .manual => "manual"
  | .api => "api"
  | .webhook => "webhook"
  | .scheduled => "scheduled"
  | .unknownType s => s

/-- `TriggerType::new_unchecked` (`cyclonedx-bom/src/models/formulation/workflow/trigger.rs` 77-87). -/
def TriggerType.new : String → TriggerType
  | "manual" => .manual
  | "api" => .api
  | "webhook" => .webhook
  | "scheduled" => .scheduled
  | s => .unknownType s

/-- The catch-all variant of `TriggerType` (`cyclonedx-bom/src/models/formulation/workflow/trigger.rs` 65-75). -/
def TriggerType.fallback? : TriggerType → Option String
  | .unknownType s => some s
  | _ => Option.none

/-- `AccessMode` (`cyclonedx-bom/src/models/formulation/workflow/workspace.rs` 42-53). -/
inductive AccessMode where
  | readOnly
  | readWrite
  | readWriteOnce
  | writeOnce
  | writeOnly
  | unknownAccessMode (s : String)
  deriving DecidableEq, Repr

/-- `Display` of `AccessMode` (`cyclonedx-bom/src/models/formulation/workflow/workspace.rs` 42-53). -/
def AccessMode.display : AccessMode → String
  | .readOnly => "read-only"
  | .readWrite => "read-write"
  | .readWriteOnce => "read-write-once"
  | .writeOnce => "write-once"
  | .writeOnly => "write-only"
  | .unknownAccessMode s => s

/-- `AccessMode::new_unchecked` (`cyclonedx-bom/src/models/formulation/workflow/workspace.rs` 55-66). -/
def AccessMode.new : String → AccessMode
  | "read-only" => .readOnly
  | "read-write" => .readWrite
  | "read-write-once" => .readWriteOnce
  | "write-once" => .writeOnce
  | "write-only" => .writeOnly
  | s => .unknownAccessMode s

/-- The catch-all variant of `AccessMode` (`cyclonedx-bom/src/models/formulation/workflow/workspace.rs` 42-53). -/
def AccessMode.fallback? : AccessMode → Option String
  | .unknownAccessMode s => some s
  | _ => Option.none

/-- `VolumeMode` (`cyclonedx-bom/src/models/formulation/workflow/workspace.rs` 95-104). (`workspace::Mode`) -/
inductive VolumeMode where
  | filesystem
  | block
  | unknownMode (s : String)
  deriving DecidableEq, Repr

/-- `Display` of `VolumeMode` (`cyclonedx-bom/src/models/formulation/workflow/workspace.rs` 95-104). -/
def VolumeMode.display : VolumeMode → String
  | .filesystem => "filesystem"
  | .block => "block"
  | .unknownMode s => s

/-- `VolumeMode::new_unchecked` (`cyclonedx-bom/src/models/formulation/workflow/workspace.rs` 106-114). -/
def VolumeMode.new : String → VolumeMode
  | "filesystem" => .filesystem
  | "block" => .block
  | s => .unknownMode s

/-- The catch-all variant of `VolumeMode` (`cyclonedx-bom/src/models/formulation/workflow/workspace.rs` 95-104). -/
def VolumeMode.fallback? : VolumeMode → Option String
  | .unknownMode s => some s
  | _ => Option.none

/-- Position in the derived `PartialOrd` of `Classification` (`component.rs` 195-218:
`#[repr(u16)]`, explicit discriminants; the catch-all variant comes last). -/
def Classification.rank : Classification → Nat
  | .application => 1
  | .framework => 2
  | .library => 3
  | .container => 4
  | .operatingSystem => 5
  | .device => 6
  | .firmware => 7
  | .file => 8
  | .platform => 9
  | .deviceDriver => 10
  | .machineLearningModel => 11
  | .data => 12
  | .unknownClassification _ => 13

/-- Position in the derived `PartialOrd` of `AggregateType` (`composition.rs` 77-98). -/
def AggregateType.rank : AggregateType → Nat
  | .complete => 1
  | .incomplete => 2
  | .incompleteFirstPartyOnly => 3
  | .incompleteThirdPartyOnly => 4
  | .unknown => 5
  | .notSpecified => 6
  | .incompleteFirstPartyProprietaryOnly => 7
  | .incompleteFirstPartyOpensourceOnly => 8
  | .incompleteThirdPartyProprietaryOnly => 9
  | .incompleteThirdPartyOpensourceOnly => 10
  | .unknownAggregateType _ => 11

/-- Position in the derived `PartialOrd` of `ScoreMethod` (`vulnerability_rating.rs` 187-200). -/
def ScoreMethod.rank : ScoreMethod → Nat
  | .cvssv2 => 1
  | .cvssv3 => 2
  | .cvssv31 => 3
  | .owasp => 4
  | .cvssv4 => 5
  | .ssvc => 6
  | .unknown _ => 7

end Cdx
