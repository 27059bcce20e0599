import Verif.Spec.Format.Bom
import Verif.Lemmas.Xml

/-!
# A concrete document

Used beside the theorems on files to show that their hypotheses are met by a non-trivial case.
-/

namespace Cdx.Example

/-- Numbers printed by their bits. It only shows that what is assumed about printing numbers can be
met. -/
@[instance_reducible] def f32 : F32Format where
  display x := showNat x.toNat
  parse s := (parseU32 s).map (BitVec.ofNat 32)
  ofNat n := BitVec.ofNat 32 n
  parse_display x _ := by
    rw [parseU32_show x.isLt]
    simp
  no_space x c hc := digit_whitespace (showNat_digit hc)
  nonempty x := showNat_ne _

/-- The depth that `serde_json` allows. -/
@[instance_reducible] def limit : ReadLimit := ⟨127⟩

/-- A signature. -/
def signature : Signature := .single { algorithm := .hs512, value := "abc=" }

/-- An organization with a contact. -/
def organization : OrganizationalEntity where
  bomRef := some "o1"
  name := some "ACME"
  url := some ["https://acme.example"]
  contact := some [{ name := some "Jo", email := some "jo@acme.example" }]

/-- Two licenses. -/
def licenses : Licenses :=
  [.license { licenseIdentifier := .spdxId "MIT", url := some "https://mit.example",
              text := some { content := "text", contentType := some "text/plain", encoding := some .base64 } },
   .license { licenseIdentifier := .name "Own terms" }]

/-- A component with another one inside, and a third in its pedigree. -/
def component : Component where
  componentType := .library
  bomRef := some "c1"
  supplier := some organization
  group := some "org.acme"
  name := "widget"
  version := some "1.2.3"
  description := some "A widget"
  scope := some .required
  hashes := some [{ alg := .sha256, content := "00ff" }]
  licenses := some licenses
  cpe := some "cpe:2.3:a:acme:widget:1.2.3:*:*:*:*:*:*:*"
  purl := some "pkg:cargo/widget@1.2.3"
  swid := some { tagId := "t", name := "widget", tagVersion := some 7, patch := some true }
  modified := some false
  pedigree := some
    { ancestors := some [{ componentType := .framework, name := "old", version := some "0" }],
      commits := some [{ uid := some "c0ffee", author := some { name := some "Jo" } }],
      patches := some [{ patchType := .backport, diff := some { url := some "https://d.example" } }],
      notes := some "forked" }
  externalReferences := some [{ externalReferenceType := .vcs, url := .url "https://git.example" }]
  properties := some [{ name := "k", value := "v" }]
  components := some [{ componentType := .file, name := "part", version := some "1" }]
  signature := some signature

/-- A service with another one inside. -/
def service : Service where
  bomRef := some "s1"
  provider := some organization
  name := "api"
  endpoints := some ["https://api.example"]
  authenticated := some true
  data := some (.classification [{ flow := .inbound, classification := "public" }])
  services := some [{ name := "inner" }]
  trustZone := some "dmz"

/-- A vulnerability of the component. -/
def vulnerability : Vulnerability where
  bomRef := some "v1"
  id := some "CVE-0000-0001"
  vulnerabilitySource := some { name := some "db", url := some "https://db.example" }
  vulnerabilityRatings := some [{ score := some 0x40000000, severity := some .high, scoreMethod := some .cvssv31 }]
  cwes := some [79, 80]
  description := some "bad"
  workaround := some "none known"
  advisories := some [{ url := "https://adv.example" }]
  vulnerabilityCredits := some { organizations := some [organization] }
  tools := some (.list [{ vendor := some "ACME", name := some "scan", version := some "1" }])
  vulnerabilityAnalysis := some { state := some .exploitable, responses := some [.update], detail := some "see" }
  vulnerabilityTargets := some [{ bomRef := "c1", versions := some [{ versionRange := .version "1.2.3", status := .affected }] }]

/-- A workflow. -/
def workflow : Workflow where
  bomRef := "w1"
  uid := "u"
  name := some "build"
  taskTypes := [.build]
  steps := some [{ commands := some [{ executed := some "make" }] }]
  inputs := some [{ required := .environmentVars [.property "A" "1", .value "B"] }]

/-- A document that has something of nearly everything. -/
def bom : Bom where
  version := 3
  serialNumber := some "urn:uuid:3e671687-395b-41f5-a30f-a58921a69b79"
  metadata := some
    { timestamp := some "2024-01-01T00:00:00Z",
      tools := some (.list [{ vendor := some "ACME", name := some "gen", version := some "1" }]),
      authors := some [{ name := some "Jo", phone := some "1" }],
      component := some component,
      manufacture := some organization,
      licenses := some licenses,
      lifecycles := some [.phase .build] }
  components := some [component]
  services := some [service]
  externalReferences := some
    [{ externalReferenceType := .website, url := .url "https://acme.example",
       comment := some "home", hashes := some [{ alg := .md5, content := "00" }] }]
  dependencies := some [{ dependencyRef := "c1", dependencies := ["s1"] }]
  compositions := some [{ aggregate := .incomplete, assemblies := some ["c1"] }]
  properties := some [{ name := "a", value := "b" }]
  vulnerabilities := some [vulnerability]
  formulation := some [{ bomRef := some "f1", components := some [component], workflows := some [workflow] }]
  specVersion := .v1_5

theorem of_some {α : Type} {P : α → Prop} {x : α} (h : P x) : ∀ y, some x = some y → P y := by
  intro y e
  cases e
  exact h

theorem of_none {α : Type} {P : α → Prop} : ∀ y, (none : Option α) = some y → P y := by
  intro y e
  cases e

theorem trimmed {s : String} (h : xmlTrim s = s) : Trimmed s := h

theorem stable {α : Type} {display : α → String} {new : String → α} {x : α} (h : new (display x) = x) :
    Stable display new x := h

theorem below {a b : Nat} (h : decide (a < b) = true) : a < b := of_decide_eq_true h

/-- Goes through the conditions on the parts of a concrete value. -/
syntax "kept" : tactic
macro_rules
  | `(tactic| kept) => `(tactic| repeat' (first
      | assumption
      | (with_reducible refine trimmed ?_; decide +kernel)
      | (with_reducible refine stable ?_; decide +kernel)
      | (with_reducible refine below ?_; decide +kernel)
      | with_reducible exact True.intro
      | with_reducible refine And.intro ?_ ?_
      | exact of_none
      | refine of_some ?_
      | exact List.forall_mem_nil _
      | refine List.forall_mem_cons.2 ⟨?_, ?_⟩
      | constructor
      | decide +kernel
      | (intro _)
      | (conv => whnf)))

attribute [local instance] f32 limit

theorem organization_xmlOk : OrganizationalEntity.XmlOk organization := by
  kept

theorem licenses_jsonOk (v : SpecVersion) : Licenses.JsonOk v licenses := by
  kept

theorem licenses_xmlOk (v : SpecVersion) : Licenses.XmlOk v licenses := by
  kept

theorem component_jsonOk (v : SpecVersion) : Component.JsonOk v component := by
  have := licenses_jsonOk v
  kept

theorem component_xmlOk (v : SpecVersion) : Component.XmlOk v component := by
  have := licenses_xmlOk v
  have := organization_xmlOk
  kept

theorem service_jsonOk (v : SpecVersion) : Service.JsonOk v service := by
  kept

theorem service_xmlOk (v : SpecVersion) : Service.XmlOk v service := by
  have := organization_xmlOk
  kept

theorem vulnerability_jsonOk (v : SpecVersion) : Vulnerability.JsonOk v vulnerability := by
  kept

theorem vulnerability_xmlOk (v : SpecVersion) : Vulnerability.XmlOk v vulnerability := by
  have := organization_xmlOk
  kept

theorem workflow_jsonOk : Workflow.JsonOk workflow := by
  kept

theorem workflow_xmlOk : Workflow.XmlOk workflow := by
  kept

theorem bom_jsonOk (v : SpecVersion) : Bom.JsonOk v bom := by
  have := licenses_jsonOk v
  have := component_jsonOk v
  have := service_jsonOk v
  have := vulnerability_jsonOk v
  have := workflow_jsonOk
  kept

theorem bom_xmlOk (v : SpecVersion) : Bom.XmlOk v bom := by
  have := organization_xmlOk
  have := licenses_xmlOk v
  have := component_xmlOk v
  have := service_xmlOk v
  have := vulnerability_xmlOk v
  have := workflow_xmlOk
  kept

end Cdx.Example
