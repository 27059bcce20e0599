import Verif.Spec.Xml
import Verif.Model.Format.Bom

/-!
# Specification: which XML documents conform to the format

The XML schema of the versions 1.3, 1.4 and 1.5 of the format as a table: for each type of element its
attributes and its content, which is a text or child elements in a given order, each with a type and a
number of occurrences.  The table is written from the published format, and is checked with
`scripts/xsd/check.py` against the XML documents under `cyclonedx-bom/tests/spec`: every valid document
follows it.

What the table leaves out, so that more documents conform: the allowed values of texts other than
booleans and numbers, uniqueness of identifiers, and the namespaces of the elements below the root.
What it leaves out, so that fewer conform: elements of other namespaces, which the format allows at the
end of many elements. White space around texts and between elements is not there: the XML library is
configured to drop it before this library sees it; white space around numbers in attributes, which the
format allows, is not covered.
-/

namespace Cdx.Spec

/-- The types of texts: any text, or a text that has the form of a boolean, an integer or a decimal
number. -/
inductive TextType where
  | string | boolean | integer | decimal
  deriving DecidableEq, Repr

/-- The sign of a number: none, plus or minus. -/
def IsSign (l : List Char) : Prop := l = [] ∨ l = ['+'] ∨ l = ['-']

/-- Decimal digits. -/
def AreDigits (l : List Char) : Prop := ∀ c ∈ l, c.isDigit = true

/-- The texts of a type. -/
def TextType.Admits : TextType → String → Prop
  | .string, _ => True
  | .boolean, s => s = "true" ∨ s = "false" ∨ s = "1" ∨ s = "0"
  | .integer, s => ∃ sign digits, IsSign sign ∧ digits ≠ [] ∧ AreDigits digits ∧
      s.toList = sign ++ digits
  | .decimal, s => ∃ sign whole part, IsSign sign ∧ AreDigits whole ∧ AreDigits part ∧
      (whole ≠ [] ∧ s.toList = sign ++ whole ∨
        (whole ≠ [] ∨ part ≠ []) ∧ s.toList = sign ++ whole ++ '.' :: part)


/-- The types of elements. -/
inductive ElementType where
  | string | boolean | integer | decimal | bom | metadata | lifecycles | lifecycle | tools | tool
  | authors | organizationalContact | organizationalEntity | components | component | hashes |
  hash | licenses | expression | licenseId | licenseName | license | licensing | altIds |
  licenseTypes | licenseContact | attachedText | attachment | swid | pedigree | commits | commit |
  identifiableAction | patches | patch | diff | resolves | issue | namedUrl | urls |
  externalReferences | externalReference | properties | property | evidence | copyrights |
  identity | methods | method | toolRefs | reference | occurrences | occurrence | callstack |
  frames | frame | frameParameters | modelCard | modelParameters | approach | datasets | mlInputs
  | mlOutputs | mlParameter | componentData | dataContents | graphics | graphicCollection |
  graphic | governance | custodians | stewards | owners | responsibleParty | quantitativeAnalysis
  | performanceMetrics | performanceMetric | confidenceInterval | considerations | users |
  useCases | technicalLimitations | performanceTradeoffs | ethicalConsiderations |
  ethicalConsideration | fairnessAssessments | fairnessAssessment | services | service | endpoints
  | serviceData | classification | dataflow | dependencies | dependency | subDependency |
  compositions | composition | assemblies | referencedDependencies | referencedVulnerabilities |
  vulnerabilities | vulnerability | vulnerabilityReferences | vulnerabilityReference | ratings |
  rating | cwes | advisories | advisory | credits | organizations | individuals | analysis |
  responses | affects | target | versions | affectedVersion | proofOfConcept | supportingMaterial
  | annotations | annotation | subjects | annotator | formulation | formula | workflows | workflow
  | tasks | task | taskTypes | resourceReferences | resourceReference | trigger | event |
  conditions | condition | inputs | input | outputs | output | parameters | parameter |
  environmentVars | steps | step | commands | command | workspaces | workspace | aliases | volume
  | releaseNotes | tags | notes | note | noteText
  deriving DecidableEq, Repr

/-- An attribute: its name, the type of its value, whether it is required, and since which version it
exists. -/
structure AttributeRule where
  name : String
  type : TextType
  required : Bool
  since : SpecVersion := .v1_3

/-- A part of a sequence of child elements: the elements that can be there, with their types, the least
and the greatest number of them, and the versions that have it. -/
structure Particle where
  items : List (String × ElementType)
  least : Nat
  most : Option Nat
  since : SpecVersion := .v1_3
  last : SpecVersion := .v1_5

/-- The content of an element: a text, or child elements that follow one of several sequences. -/
inductive Content where
  | text (type : TextType)
  | children (choices : List (List Particle))

/-- What the format says about a type of element. -/
structure TypeRule where
  attributes : List AttributeRule
  content : Content

/-- An optional attribute. -/
abbrev has (name : String) (type : TextType) : AttributeRule := ⟨name, type, false, .v1_3⟩

/-- A required attribute. -/
abbrev needs (name : String) (type : TextType) : AttributeRule := ⟨name, type, true, .v1_3⟩

/-- An attribute that exists since a version. -/
abbrev AttributeRule.from (a : AttributeRule) (v : SpecVersion) : AttributeRule := { a with since := v }

/-- An optional element. -/
abbrev mayHave (name : String) (type : ElementType) : Particle := { items := [(name, type)], least := 0, most := some 1 }

/-- An element that is there once. -/
abbrev mustHave (name : String) (type : ElementType) : Particle := { items := [(name, type)], least := 1, most := some 1 }

/-- An element that is there any number of times. -/
abbrev anyNumber (name : String) (type : ElementType) : Particle := { items := [(name, type)], least := 0, most := none }

/-- An element that is there at least once. -/
abbrev atLeastOne (name : String) (type : ElementType) : Particle := { items := [(name, type)], least := 1, most := none }

/-- One of several elements. -/
abbrev oneOf (items : List (String × ElementType)) : Particle := { items, least := 1, most := some 1 }

/-- Any number of several elements, in any order. -/
abbrev anyOf (items : List (String × ElementType)) : Particle := { items, least := 0, most := none }

/-- Something that exists since a version. -/
abbrev Particle.from (p : Particle) (v : SpecVersion) : Particle := { p with since := v }

/-- Something that exists up to a version. -/
abbrev Particle.upTo (p : Particle) (v : SpecVersion) : Particle := { p with last := v }

/-- The number of a version. -/
def minor : SpecVersion → Nat
  | .v1_3 => 3
  | .v1_4 => 4
  | .v1_5 => 5

/-- The types of elements of the format.  Where several types have the same rule, they differ in what
this library accepts. -/
def ElementType.rule : ElementType → TypeRule

  | .string => ⟨[], .text .string⟩
  | .boolean => ⟨[], .text .boolean⟩
  | .integer => ⟨[], .text .integer⟩
  | .decimal => ⟨[], .text .decimal⟩
  | .bom => ⟨[has "serialNumber" .string, has "version" .integer], .children [[mayHave "metadata"
      .metadata, mayHave "components" .components, mayHave "services" .services, mayHave
      "externalReferences" .externalReferences, mayHave "dependencies" .dependencies, mayHave
      "compositions" .compositions, (mayHave "properties" .properties).from .v1_5, (mayHave
      "vulnerabilities" .vulnerabilities).from .v1_4, (mayHave "annotations" .annotations).from
      .v1_5, (mayHave "formulation" .formulation).from .v1_5]]⟩
  | .metadata => ⟨[], .children [[mayHave "timestamp" .string, (mayHave "lifecycles"
      .lifecycles).from .v1_5, mayHave "tools" .tools, mayHave "authors" .authors, mayHave
      "component" .component, mayHave "manufacture" .organizationalEntity, mayHave "supplier"
      .organizationalEntity, mayHave "licenses" .licenses, mayHave "properties" .properties]]⟩
  | .lifecycles => ⟨[], .children [[anyNumber "lifecycle" .lifecycle]]⟩
  | .lifecycle => ⟨[], .children [[mustHave "phase" .string], [mustHave "name" .string, mayHave
      "description" .string]]⟩
  | .tools => ⟨[], .children [[anyNumber "tool" .tool], [(mayHave "components" .components).from
      .v1_5, (mayHave "services" .services).from .v1_5]]⟩
  | .tool => ⟨[], .children [[mayHave "vendor" .string, mayHave "name" .string, mayHave "version"
      .string, mayHave "hashes" .hashes, (mayHave "externalReferences" .externalReferences).from
      .v1_4]]⟩
  | .authors => ⟨[], .children [[anyNumber "author" .organizationalContact]]⟩
  | .organizationalContact => ⟨[(has "bom-ref" .string).from .v1_5], .children [[mayHave "name"
      .string, mayHave "email" .string, mayHave "phone" .string]]⟩
  | .organizationalEntity => ⟨[(has "bom-ref" .string).from .v1_5], .children [[mayHave "name"
      .string, anyNumber "url" .string, anyNumber "contact" .organizationalContact]]⟩
  | .components => ⟨[], .children [[anyNumber "component" .component]]⟩
  | .component => ⟨[needs "type" .string, has "mime-type" .string, has "bom-ref" .string], .children
      [[mayHave "supplier" .organizationalEntity, mayHave "author" .string, mayHave "publisher"
      .string, mayHave "group" .string, mustHave "name" .string, (mustHave "version" .string).upTo
      .v1_3, (mayHave "version" .string).from .v1_4, mayHave "description" .string, mayHave "scope"
      .string, mayHave "hashes" .hashes, mayHave "licenses" .licenses, mayHave "copyright" .string,
      mayHave "cpe" .string, mayHave "purl" .string, mayHave "swid" .swid, mayHave "modified"
      .boolean, mayHave "pedigree" .pedigree, mayHave "externalReferences" .externalReferences,
      mayHave "properties" .properties, mayHave "components" .components, mayHave "evidence"
      .evidence, (mayHave "releaseNotes" .releaseNotes).from .v1_4, (mayHave "modelCard"
      .modelCard).from .v1_5, (anyNumber "data" .componentData).from .v1_5]]⟩
  | .hashes => ⟨[], .children [[anyNumber "hash" .hash]]⟩
  | .hash => ⟨[needs "alg" .string], .text .string⟩
  | .licenses => ⟨[], .children [[anyNumber "license" .license], [mayHave "expression"
      .expression]]⟩
  | .expression => ⟨[(has "bom-ref" .string).from .v1_5], .text .string⟩
  | .licenseId => ⟨[], .text .string⟩
  | .licenseName => ⟨[], .text .string⟩
  | .license => ⟨[(has "bom-ref" .string).from .v1_5], .children [[oneOf [("id", .licenseId),
      ("name", .licenseName)], mayHave "text" .attachedText, mayHave "url" .string, (mayHave
      "licensing" .licensing).from .v1_5, (mayHave "properties" .properties).from .v1_5]]⟩
  | .licensing => ⟨[], .children [[mayHave "altIds" .altIds, mayHave "licensor" .licenseContact,
      mayHave "licensee" .licenseContact, mayHave "purchaser" .licenseContact, mayHave
      "purchaseOrder" .string, mayHave "licenseTypes" .licenseTypes, mayHave "lastRenewal" .string,
      mayHave "expiration" .string]]⟩
  | .altIds => ⟨[], .children [[anyNumber "altId" .string]]⟩
  | .licenseTypes => ⟨[], .children [[anyNumber "licenseType" .string]]⟩
  | .licenseContact => ⟨[], .children [[oneOf [("organization", .organizationalEntity),
      ("individual", .organizationalContact)]]]⟩
  | .attachedText => ⟨[has "content-type" .string, has "encoding" .string], .text .string⟩
  | .attachment => ⟨[has "content-type" .string, has "encoding" .string], .text .string⟩
  | .swid => ⟨[needs "tagId" .string, needs "name" .string, has "version" .string, has "tagVersion"
      .integer, has "patch" .boolean], .children [[mayHave "text" .attachedText, mayHave "url"
      .string]]⟩
  | .pedigree => ⟨[], .children [[mayHave "ancestors" .components, mayHave "descendants"
      .components, mayHave "variants" .components, mayHave "commits" .commits, mayHave "patches"
      .patches, mayHave "notes" .string]]⟩
  | .commits => ⟨[], .children [[anyNumber "commit" .commit]]⟩
  | .commit => ⟨[], .children [[mayHave "uid" .string, mayHave "url" .string, mayHave "author"
      .identifiableAction, mayHave "committer" .identifiableAction, mayHave "message" .string]]⟩
  | .identifiableAction => ⟨[], .children [[mayHave "timestamp" .string, mayHave "name" .string,
      mayHave "email" .string]]⟩
  | .patches => ⟨[], .children [[anyNumber "patch" .patch]]⟩
  | .patch => ⟨[needs "type" .string], .children [[mayHave "diff" .diff, mayHave "resolves"
      .resolves]]⟩
  | .diff => ⟨[], .children [[mayHave "text" .attachedText, mayHave "url" .string]]⟩
  | .resolves => ⟨[], .children [[anyNumber "issue" .issue]]⟩
  | .issue => ⟨[needs "type" .string], .children [[mayHave "id" .string, mayHave "name" .string,
      mayHave "description" .string, mayHave "source" .namedUrl, mayHave "references" .urls]]⟩
  | .namedUrl => ⟨[], .children [[mayHave "name" .string, mayHave "url" .string]]⟩
  | .urls => ⟨[], .children [[anyNumber "url" .string]]⟩
  | .externalReferences => ⟨[], .children [[anyNumber "reference" .externalReference]]⟩
  | .externalReference => ⟨[needs "type" .string], .children [[mustHave "url" .string, mayHave
      "comment" .string, mayHave "hashes" .hashes]]⟩
  | .properties => ⟨[], .children [[anyNumber "property" .property]]⟩
  | .property => ⟨[needs "name" .string], .text .string⟩
  | .evidence => ⟨[], .children [[(mayHave "identity" .identity).from .v1_5, (mayHave "occurrences"
      .occurrences).from .v1_5, (mayHave "callstack" .callstack).from .v1_5, mayHave "licenses"
      .licenses, mayHave "copyright" .copyrights]]⟩
  | .copyrights => ⟨[], .children [[anyNumber "text" .string]]⟩
  | .identity => ⟨[], .children [[mustHave "field" .string, mayHave "confidence" .decimal, mayHave
      "methods" .methods, mayHave "tools" .toolRefs]]⟩
  | .methods => ⟨[], .children [[anyNumber "method" .method]]⟩
  | .method => ⟨[], .children [[mustHave "technique" .string, mustHave "confidence" .decimal,
      mayHave "value" .string]]⟩
  | .toolRefs => ⟨[], .children [[anyNumber "tool" .reference]]⟩
  | .reference => ⟨[needs "ref" .string], .children [[]]⟩
  | .occurrences => ⟨[], .children [[anyNumber "occurrence" .occurrence]]⟩
  | .occurrence => ⟨[has "bom-ref" .string], .children [[mustHave "location" .string]]⟩
  | .callstack => ⟨[], .children [[mayHave "frames" .frames]]⟩
  | .frames => ⟨[], .children [[anyNumber "frame" .frame]]⟩
  | .frame => ⟨[], .children [[mayHave "package" .string, mustHave "module" .string, mayHave
      "function" .string, mayHave "parameters" .frameParameters, mayHave "line" .integer, mayHave
      "column" .integer, mayHave "fullFilename" .string]]⟩
  | .frameParameters => ⟨[], .children [[anyNumber "parameter" .string]]⟩
  | .modelCard => ⟨[has "bom-ref" .string], .children [[mayHave "modelParameters" .modelParameters,
      mayHave "quantitativeAnalysis" .quantitativeAnalysis, mayHave "considerations"
      .considerations, mayHave "properties" .properties]]⟩
  | .modelParameters => ⟨[], .children [[mayHave "approach" .approach, mayHave "task" .string,
      mayHave "architectureFamily" .string, mayHave "modelArchitecture" .string, mayHave "datasets"
      .datasets, mayHave "inputs" .mlInputs, mayHave "outputs" .mlOutputs]]⟩
  | .approach => ⟨[], .children [[mayHave "type" .string]]⟩
  | .datasets => ⟨[], .children [[anyOf [("dataset", .componentData), ("ref", .string)]]]⟩
  | .mlInputs => ⟨[], .children [[anyNumber "input" .mlParameter]]⟩
  | .mlOutputs => ⟨[], .children [[anyNumber "output" .mlParameter]]⟩
  | .mlParameter => ⟨[], .children [[mayHave "format" .string]]⟩
  | .componentData => ⟨[has "bom-ref" .string], .children [[mustHave "type" .string, mayHave "name"
      .string, mayHave "contents" .dataContents, mayHave "classification" .string, anyNumber
      "sensitiveData" .string, mayHave "graphics" .graphics, mayHave "description" .string, mayHave
      "governance" .governance]]⟩
  | .dataContents => ⟨[], .children [[mayHave "attachment" .attachment, mayHave "url" .string,
      mayHave "properties" .properties]]⟩
  | .graphics => ⟨[], .children [[mayHave "description" .string, mayHave "collection"
      .graphicCollection]]⟩
  | .graphicCollection => ⟨[], .children [[anyNumber "graphic" .graphic]]⟩
  | .graphic => ⟨[], .children [[mayHave "name" .string, mayHave "image" .attachment]]⟩
  | .governance => ⟨[], .children [[anyOf [("custodians", .custodians), ("stewards", .stewards),
      ("owners", .owners)]]]⟩
  | .custodians => ⟨[], .children [[anyNumber "custodian" .responsibleParty]]⟩
  | .stewards => ⟨[], .children [[anyNumber "steward" .responsibleParty]]⟩
  | .owners => ⟨[], .children [[anyNumber "owner" .responsibleParty]]⟩
  | .responsibleParty => ⟨[], .children [[oneOf [("organization", .organizationalEntity),
      ("contact", .organizationalContact)]]]⟩
  | .quantitativeAnalysis => ⟨[], .children [[mayHave "performanceMetrics" .performanceMetrics,
      mayHave "graphics" .graphics]]⟩
  | .performanceMetrics => ⟨[], .children [[anyNumber "performanceMetric" .performanceMetric]]⟩
  | .performanceMetric => ⟨[], .children [[mayHave "type" .string, mayHave "value" .string, mayHave
      "slice" .string, mayHave "confidenceInterval" .confidenceInterval]]⟩
  | .confidenceInterval => ⟨[], .children [[mayHave "lowerBound" .string, mayHave "upperBound"
      .string]]⟩
  | .considerations => ⟨[], .children [[mayHave "users" .users, mayHave "useCases" .useCases,
      mayHave "technicalLimitations" .technicalLimitations, mayHave "performanceTradeoffs"
      .performanceTradeoffs, mayHave "ethicalConsiderations" .ethicalConsiderations, mayHave
      "fairnessAssessments" .fairnessAssessments]]⟩
  | .users => ⟨[], .children [[anyNumber "user" .string]]⟩
  | .useCases => ⟨[], .children [[anyNumber "useCase" .string]]⟩
  | .technicalLimitations => ⟨[], .children [[anyNumber "technicalLimitation" .string]]⟩
  | .performanceTradeoffs => ⟨[], .children [[anyNumber "performanceTradeoff" .string]]⟩
  | .ethicalConsiderations => ⟨[], .children [[anyNumber "ethicalConsideration"
      .ethicalConsideration]]⟩
  | .ethicalConsideration => ⟨[], .children [[mayHave "name" .string, mayHave "mitigationStrategy"
      .string]]⟩
  | .fairnessAssessments => ⟨[], .children [[anyNumber "fairnessAssessment" .fairnessAssessment]]⟩
  | .fairnessAssessment => ⟨[], .children [[mayHave "groupAtRisk" .string, mayHave "benefits"
      .string, mayHave "harms" .string, mayHave "mitigationStrategy" .string]]⟩
  | .services => ⟨[], .children [[anyNumber "service" .service]]⟩
  | .service => ⟨[has "bom-ref" .string], .children [[mayHave "provider" .organizationalEntity,
      mayHave "group" .string, mustHave "name" .string, mayHave "version" .string, mayHave
      "description" .string, mayHave "endpoints" .endpoints, mayHave "authenticated" .boolean,
      mayHave "x-trust-boundary" .boolean, (mayHave "trustZone" .string).from .v1_5, mayHave "data"
      .serviceData, mayHave "licenses" .licenses, mayHave "externalReferences" .externalReferences,
      mayHave "properties" .properties, mayHave "services" .services, (mayHave "releaseNotes"
      .releaseNotes).from .v1_4]]⟩
  | .endpoints => ⟨[], .children [[anyNumber "endpoint" .string]]⟩
  | .serviceData => ⟨[], .children [[anyNumber "classification" .classification], [(anyNumber
      "dataflow" .dataflow).from .v1_5]]⟩
  | .classification => ⟨[needs "flow" .string], .text .string⟩
  | .dataflow => ⟨[has "name" .string, has "description" .string], .children [[mustHave
      "classification" .classification, mayHave "governance" .governance, mayHave "source" .urls,
      mayHave "destination" .urls]]⟩
  | .dependencies => ⟨[], .children [[anyNumber "dependency" .dependency]]⟩
  | .dependency => ⟨[needs "ref" .string], .children [[anyNumber "dependency" .subDependency]]⟩
  | .subDependency => ⟨[needs "ref" .string], .children [[anyNumber "dependency" .subDependency]]⟩
  | .compositions => ⟨[], .children [[anyNumber "composition" .composition]]⟩
  | .composition => ⟨[(has "bom-ref" .string).from .v1_5], .children [[mustHave "aggregate" .string,
      mayHave "assemblies" .assemblies, mayHave "dependencies" .referencedDependencies, (mayHave
      "vulnerabilities" .referencedVulnerabilities).from .v1_5]]⟩
  | .assemblies => ⟨[], .children [[anyNumber "assembly" .reference]]⟩
  | .referencedDependencies => ⟨[], .children [[anyNumber "dependency" .reference]]⟩
  | .referencedVulnerabilities => ⟨[], .children [[anyNumber "vulnerability" .reference]]⟩
  | .vulnerabilities => ⟨[], .children [[anyNumber "vulnerability" .vulnerability]]⟩
  | .vulnerability => ⟨[has "bom-ref" .string], .children [[mayHave "id" .string, mayHave "source"
      .namedUrl, mayHave "references" .vulnerabilityReferences, mayHave "ratings" .ratings, mayHave
      "cwes" .cwes, mayHave "description" .string, mayHave "detail" .string, mayHave
      "recommendation" .string, (mayHave "workaround" .string).from .v1_5, (mayHave "proofOfConcept"
      .proofOfConcept).from .v1_5, mayHave "advisories" .advisories, mayHave "created" .string,
      mayHave "published" .string, mayHave "updated" .string, (mayHave "rejected" .string).from
      .v1_5, mayHave "credits" .credits, mayHave "tools" .tools, mayHave "analysis" .analysis,
      mayHave "affects" .affects, mayHave "properties" .properties]]⟩
  | .vulnerabilityReferences => ⟨[], .children [[anyNumber "reference" .vulnerabilityReference]]⟩
  | .vulnerabilityReference => ⟨[], .children [[mustHave "id" .string, mustHave "source"
      .namedUrl]]⟩
  | .ratings => ⟨[], .children [[anyNumber "rating" .rating]]⟩
  | .rating => ⟨[], .children [[mayHave "source" .namedUrl, mayHave "score" .decimal, mayHave
      "severity" .string, mayHave "method" .string, mayHave "vector" .string, mayHave
      "justification" .string]]⟩
  | .cwes => ⟨[], .children [[anyNumber "cwe" .integer]]⟩
  | .advisories => ⟨[], .children [[anyNumber "advisory" .advisory]]⟩
  | .advisory => ⟨[], .children [[mayHave "title" .string, mustHave "url" .string]]⟩
  | .credits => ⟨[], .children [[mayHave "organizations" .organizations, mayHave "individuals"
      .individuals]]⟩
  | .organizations => ⟨[], .children [[anyNumber "organization" .organizationalEntity]]⟩
  | .individuals => ⟨[], .children [[anyNumber "individual" .organizationalContact]]⟩
  | .analysis => ⟨[], .children [[mayHave "state" .string, mayHave "justification" .string, mayHave
      "responses" .responses, mayHave "detail" .string, (mayHave "firstIssued" .string).from .v1_5,
      (mayHave "lastUpdated" .string).from .v1_5]]⟩
  | .responses => ⟨[], .children [[anyNumber "response" .string]]⟩
  | .affects => ⟨[], .children [[anyNumber "target" .target]]⟩
  | .target => ⟨[], .children [[mustHave "ref" .string, mayHave "versions" .versions]]⟩
  | .versions => ⟨[], .children [[anyNumber "version" .affectedVersion]]⟩
  | .affectedVersion => ⟨[], .children [[oneOf [("version", .string), ("range", .string)], mayHave
      "status" .string]]⟩
  | .proofOfConcept => ⟨[], .children [[mayHave "reproductionSteps" .string, mayHave "environment"
      .string, mayHave "supportingMaterial" .supportingMaterial]]⟩
  | .supportingMaterial => ⟨[], .children [[anyNumber "attachment" .attachment]]⟩
  | .annotations => ⟨[], .children [[anyNumber "annotation" .annotation]]⟩
  | .annotation => ⟨[has "bom-ref" .string], .children [[mustHave "subjects" .subjects, mustHave
      "annotator" .annotator, mustHave "timestamp" .string, mustHave "text" .string]]⟩
  | .subjects => ⟨[], .children [[anyNumber "subject" .reference]]⟩
  | .annotator => ⟨[], .children [[oneOf [("organization", .organizationalEntity), ("individual",
      .organizationalContact), ("component", .component), ("service", .service)]]]⟩
  | .formulation => ⟨[], .children [[anyNumber "formula" .formula]]⟩
  | .formula => ⟨[has "bom-ref" .string], .children [[mayHave "components" .components, mayHave
      "services" .services, mayHave "workflows" .workflows, mayHave "properties" .properties]]⟩
  | .workflows => ⟨[], .children [[anyNumber "workflow" .workflow]]⟩
  | .workflow => ⟨[needs "bom-ref" .string], .children [[mustHave "uid" .string, mayHave "name"
      .string, mayHave "description" .string, mayHave "resourceReferences" .resourceReferences,
      mayHave "tasks" .tasks, mayHave "taskDependencies" .dependencies, mustHave "taskTypes"
      .taskTypes, mayHave "trigger" .trigger, mayHave "steps" .steps, mayHave "inputs" .inputs,
      mayHave "outputs" .outputs, mayHave "timeStart" .string, mayHave "timeEnd" .string, mayHave
      "workspaces" .workspaces, mayHave "runtimeTopology" .dependencies, mayHave "properties"
      .properties]]⟩
  | .tasks => ⟨[], .children [[anyNumber "task" .task]]⟩
  | .task => ⟨[needs "bom-ref" .string], .children [[mustHave "uid" .string, mayHave "name" .string,
      mayHave "description" .string, mayHave "resourceReferences" .resourceReferences, mustHave
      "taskTypes" .taskTypes, mayHave "trigger" .trigger, mayHave "steps" .steps, mayHave "inputs"
      .inputs, mayHave "outputs" .outputs, mayHave "timeStart" .string, mayHave "timeEnd" .string,
      mayHave "workspaces" .workspaces, mayHave "runtimeTopology" .dependencies, mayHave
      "properties" .properties]]⟩
  | .taskTypes => ⟨[], .children [[atLeastOne "taskType" .string]]⟩
  | .resourceReferences => ⟨[], .children [[anyNumber "resourceReference" .resourceReference]]⟩
  | .resourceReference => ⟨[], .children [[oneOf [("ref", .string), ("externalReference",
      .externalReference)]]]⟩
  | .trigger => ⟨[needs "bom-ref" .string], .children [[mustHave "uid" .string, mayHave "name"
      .string, mayHave "description" .string, mayHave "resourceReferences" .resourceReferences,
      mustHave "type" .string, mayHave "event" .event, mayHave "conditions" .conditions, mayHave
      "timeActivated" .string, mayHave "inputs" .inputs, mayHave "outputs" .outputs, mayHave
      "properties" .properties]]⟩
  | .event => ⟨[], .children [[mayHave "uid" .string, mayHave "description" .string, mayHave
      "timeReceived" .string, mayHave "data" .attachment, mayHave "source" .resourceReference,
      mayHave "target" .resourceReference, mayHave "properties" .properties]]⟩
  | .conditions => ⟨[], .children [[anyNumber "condition" .condition]]⟩
  | .condition => ⟨[], .children [[mayHave "description" .string, mayHave "expression" .string,
      mayHave "properties" .properties]]⟩
  | .inputs => ⟨[], .children [[anyNumber "input" .input]]⟩
  | .input => ⟨[], .children [[oneOf [("resource", .resourceReference), ("parameters", .parameters),
      ("environmentVars", .environmentVars), ("data", .attachment)], mayHave "source"
      .resourceReference, mayHave "target" .resourceReference, mayHave "properties" .properties]]⟩
  | .outputs => ⟨[], .children [[anyNumber "output" .output]]⟩
  | .output => ⟨[], .children [[oneOf [("resource", .resourceReference), ("environmentVars",
      .environmentVars), ("data", .attachment)], mayHave "type" .string, mayHave "source"
      .resourceReference, mayHave "target" .resourceReference, mayHave "properties" .properties]]⟩
  | .parameters => ⟨[], .children [[anyNumber "parameter" .parameter]]⟩
  | .parameter => ⟨[], .children [[mayHave "name" .string, mayHave "value" .string, mayHave
      "dataType" .string]]⟩
  | .environmentVars => ⟨[], .children [[anyOf [("environmentVar", .property), ("value",
      .string)]]]⟩
  | .steps => ⟨[], .children [[anyNumber "step" .step]]⟩
  | .step => ⟨[], .children [[mayHave "name" .string, mayHave "description" .string, mayHave
      "commands" .commands, mayHave "properties" .properties]]⟩
  | .commands => ⟨[], .children [[anyNumber "command" .command]]⟩
  | .command => ⟨[], .children [[mayHave "executed" .string, mayHave "properties" .properties]]⟩
  | .workspaces => ⟨[], .children [[anyNumber "workspace" .workspace]]⟩
  | .workspace => ⟨[needs "bom-ref" .string], .children [[mustHave "uid" .string, mayHave "name"
      .string, mayHave "aliases" .aliases, mayHave "description" .string, mayHave
      "resourceReferences" .resourceReferences, mayHave "accessMode" .string, mayHave "mountPath"
      .string, mayHave "managedDataType" .string, mayHave "volumeRequest" .string, mayHave "volume"
      .volume, mayHave "properties" .properties]]⟩
  | .aliases => ⟨[], .children [[anyNumber "alias" .string]]⟩
  | .volume => ⟨[], .children [[mayHave "uid" .string, mayHave "name" .string, mayHave "mode"
      .string, mayHave "path" .string, mayHave "sizeAllocated" .string, mayHave "persistent"
      .boolean, mayHave "remote" .boolean, mayHave "properties" .properties]]⟩
  | .releaseNotes => ⟨[], .children [[mustHave "type" .string, mayHave "title" .string, mayHave
      "featuredImage" .string, mayHave "socialImage" .string, mayHave "description" .string, mayHave
      "timestamp" .string, mayHave "aliases" .aliases, mayHave "tags" .tags, mayHave "resolves"
      .resolves, mayHave "notes" .notes, mayHave "properties" .properties]]⟩
  | .tags => ⟨[], .children [[anyNumber "tag" .string]]⟩
  | .notes => ⟨[], .children [[anyNumber "note" .note]]⟩
  | .note => ⟨[], .children [[mayHave "locale" .string, mustHave "text" .noteText]]⟩
  | .noteText => ⟨[has "content-type" .string, has "encoding" .string], .text .string⟩

/-- The attributes of a type of element in a version. -/
def ElementType.attributes (v : SpecVersion) (t : ElementType) : List AttributeRule :=
  t.rule.attributes.filter fun a => minor a.since ≤ minor v

/-- What a version has of a sequence. -/
def present (v : SpecVersion) (l : List Particle) : List Particle :=
  l.filter fun p => minor p.since ≤ minor v && minor v ≤ minor p.last

/-- The sequences of child elements of a type of element in a version. -/
def ElementType.choices (v : SpecVersion) (t : ElementType) : List (List Particle) :=
  match t.rule.content with
  | .text _ => []
  | .children l => l.map (present v)

/-- The child elements of a type of element in a version, with their types. -/
def ElementType.items (v : SpecVersion) (t : ElementType) : List (String × ElementType) :=
  (t.choices v).flatten.flatMap (·.items)

/-- The type of the child elements with a given name. -/
def ElementType.child (v : SpecVersion) (t : ElementType) (name : String) : Option ElementType :=
  (t.items v).lookup name

/-- A list of names follows a sequence: it consists of one piece for each part of the sequence, with
as many names as the part allows. -/
def Follows : List Particle → List String → Prop
  | [], names => names = []
  | p :: l, names => ∃ piece rest, names = piece ++ rest ∧
      (∀ n ∈ piece, n ∈ p.items.map (·.1)) ∧ p.least ≤ piece.length ∧
      (∀ m, p.most = some m → piece.length ≤ m) ∧ Follows l rest

/-- The local name of an element. -/
def nameOf : XNode → Option String
  | .elem n _ _ _ => some n.localName
  | _ => none

/-- The text of a node that is no element. -/
def textOf : XNode → Option String
  | .chars s => some s
  | .cdata s => some s
  | _ => none

/-- Not a processing instruction. -/
def isContent : XNode → Bool
  | .other => false
  | _ => true

/-- The attributes of an element have the types that the rules say, and the required ones are there. -/
def AttributesConform (rules : List AttributeRule) (attrs : List (String × String)) : Prop :=
  ∀ a ∈ rules, (a.required = true → ∃ s, attrs.lookup a.name = some s) ∧
    ∀ s, attrs.lookup a.name = some s → a.type.Admits s

/-- The content of an element is as the format says: a text of the right type, or child elements that
follow one of the sequences; unless `ordered`, the child elements may be in any order. -/
def ContentConforms (ordered : Bool) (v : SpecVersion) (t : ElementType) (content : List XNode) : Prop :=
  match t.rule.content with
  | .text type => ∃ texts, content.map textOf = texts.map some ∧ type.Admits (String.join texts)
  | .children _ => ∃ names, content.map nameOf = names.map some ∧ ∃ l ∈ t.choices v,
      if ordered then Follows l names else ∃ names', names'.Perm names ∧ Follows l names'

/-- An element, without its child elements, conforms to its type. -/
def LocallyConforms (ordered : Bool) (v : SpecVersion) (t : ElementType)
    (attrs : List (String × String)) (content : List XNode) : Prop :=
  AttributesConform (t.attributes v) attrs ∧ ContentConforms ordered v t (content.filter isContent)

mutual
/-- Something holds of an element and of all elements in it, each with its type. -/
def Throughout (P : ElementType → List (String × String) → List XNode → Prop) (v : SpecVersion)
    (t : ElementType) : XNode → Prop
  | .elem _ attrs _ content => P t attrs content ∧ ThroughoutAll P v t content
  | .chars _ => True
  | .cdata _ => True
  | .other => True

/-- Something holds of all elements in the content of an element of the given type. -/
def ThroughoutAll (P : ElementType → List (String × String) → List XNode → Prop) (v : SpecVersion)
    (t : ElementType) : List XNode → Prop
  | [] => True
  | x :: l => (∀ n ∈ nameOf x, ∀ t' ∈ t.child v n, Throughout P v t' x) ∧ ThroughoutAll P v t l
end

/-- An element conforms to a type of the format. -/
def ConformsXml (v : SpecVersion) (t : ElementType) (x : XNode) : Prop :=
  Throughout (LocallyConforms true v) v t x

/-- An element conforms to a type of the format, except that child elements may be in any order. -/
def ConformsUnordered (v : SpecVersion) (t : ElementType) (x : XNode) : Prop :=
  Throughout (LocallyConforms false v) v t x

/-- An integer that this library accepts: not negative and less than 2³². -/
def FitsInteger (s : String) : Prop :=
  ∀ digits, s.toList = digits ∨ s.toList = '+' :: digits ∨ s.toList = '-' :: digits → AreDigits digits →
    s.toList ≠ '-' :: digits ∧ Nat.ofDigitChars 10 digits 0 < 2 ^ 32

/-- Integers fit. -/
def TextType.Fits (t : TextType) (s : String) : Prop := t = .integer → FitsInteger s

/-- What this library needs of an element beyond what the format says:

* no processing instructions;
* a text comes in one piece, not as a mixture of text and CDATA sections;
* integers are not negative and less than 2³²;
* the name or identifier of a license, the text of a license, of a patch or of a SWID tag are not
  empty, and neither are attachments, which also must not be in CDATA sections;
* a dependency in a dependency has no dependencies itself;
* inputs of workflows have no parameters, and datasets of models are no references. -/
def Supported (v : SpecVersion) (t : ElementType) (attrs : List (String × String)) (content : List XNode) :
    Prop :=
  (∀ x ∈ content, isContent x = true) ∧
  (∀ a ∈ t.attributes v, ∀ s, attrs.lookup a.name = some s → a.type.Fits s) ∧
  (∀ type, t.rule.content = .text type → content.length ≤ 1 ∧
    ∀ x ∈ content, ∀ s ∈ textOf x, type.Fits s) ∧
  (t ∈ [.licenseId, .licenseName, .attachedText] → content ≠ []) ∧
  (t = .attachment → ∃ s, content = [.chars s]) ∧
  (t = .subDependency → content = []) ∧
  (t = .input → ∀ x ∈ content, nameOf x ≠ some "parameters") ∧
  (t = .datasets → ∀ x ∈ content, nameOf x ≠ some "ref")

/-- How deep elements are nested. -/
def depth : XNode → Nat
  | .elem _ _ _ content => 1 + depthAll content
  | .chars _ => 0
  | .cdata _ => 0
  | .other => 0
where
  /-- How deep elements are nested in some content. -/
  depthAll : List XNode → Nat
  | [] => 0
  | x :: l => max (depth x) (depthAll l)

/-- The events of a document with the given root element. -/
def documentOf (root : XNode) : List XEvent := .startDocument :: (root.events ++ [.endDocument])

/-- The root of a document of a version: an element `bom` in the namespace of the version. -/
def IsRoot (v : SpecVersion) (root : XNode) : Prop :=
  ∃ n attrs content, root = .elem n attrs (some v.namespace) content ∧ n.localName = "bom"

end Cdx.Spec
