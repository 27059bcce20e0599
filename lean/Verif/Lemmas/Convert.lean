import Verif.Spec.Convert
import Verif.Spec.Format.Bom
import Verif.Lemmas.ElemEqs

/-!
# What XML keeps is kept by JSON

For each type: a value that satisfies the condition of XML satisfies that of JSON, if the parts inside
it are kept by JSON as well where the two formats differ.
-/

set_option linter.unusedSectionVars false
set_option linter.unusedVariables false

namespace Cdx

section
variable [F32Format]

theorem AttachedText.json_of_xml {x : AttachedText} (h : AttachedText.XmlOk x) :
    AttachedText.JsonOk x where
  encoding := fun y0 h0 => h.encoding y0 h0

theorem Hash.json_of_xml {x : Hash} (h : Hash.XmlOk x) : Hash.JsonOk x where
  alg := h.alg

theorem ExternalReference.json_of_xml {x : ExternalReference} (h : ExternalReference.XmlOk x) :
    ExternalReference.JsonOk x where
  externalReferenceType := h.externalReferenceType
  url := (h.url).1
  hashes := fun y0 h0 y1 h1 => Hash.json_of_xml (h.hashes y0 h0 y1 h1)

theorem License.json_of_xml {v : SpecVersion} {x : License} (h : License.XmlOk v x) :
    License.JsonOk v x where
  text := fun y hy => AttachedText.json_of_xml (h.text y hy)
  licensing := fun hv y hy => absurd ((h.licensing hv).symm.trans hy) nofun

theorem Licenses.json_of_xml {v : SpecVersion} {x : Licenses} (h : Licenses.XmlOk v x) :
    Licenses.JsonOk v x := by
  intro y hy
  have := h y hy
  cases y with
  | license l => exact License.json_of_xml (x := l) this
  | expression _ => trivial

theorem Diff.json_of_xml {x : Diff} (h : Diff.XmlOk x) : Diff.JsonOk x where
  text := fun y0 h0 => AttachedText.json_of_xml (h.text y0 h0)

theorem Issue.json_of_xml {x : Issue} (h : Issue.XmlOk x) : Issue.JsonOk x where
  issueType := h.issueType

theorem Patch.json_of_xml {x : Patch} (h : Patch.XmlOk x) : Patch.JsonOk x where
  patchType := h.patchType
  diff := fun y0 h0 => Diff.json_of_xml (h.diff y0 h0).1
  resolves := fun y0 h0 y1 h1 => Issue.json_of_xml (h.resolves y0 h0 y1 h1)

theorem VulnerabilityAnalysis.json_of_xml {v : SpecVersion} {x : VulnerabilityAnalysis} (h : VulnerabilityAnalysis.XmlOk v x) :
    VulnerabilityAnalysis.JsonOk x where
  state := fun y0 h0 => (h.state y0 h0).1
  justification := fun y0 h0 => (h.justification y0 h0).1
  responses := fun y0 h0 y1 h1 => (h.responses y0 h0 y1 h1).1

theorem TargetVersion.json_of_xml {x : TargetVersion} (h : TargetVersion.XmlOk x) :
    TargetVersion.JsonOk x where
  status := (h.status).1

theorem VulnerabilityTarget.json_of_xml {x : VulnerabilityTarget} (h : VulnerabilityTarget.XmlOk x) :
    VulnerabilityTarget.JsonOk x where
  versions := fun y0 h0 y1 h1 => TargetVersion.json_of_xml (h.versions y0 h0 y1 h1)

theorem ComponentData.json_of_xml {x : ComponentData} (h : ComponentData.XmlOk x) :
    ComponentData.JsonOk x where
  dataType := (h.dataType).1

theorem ModelParametersApproach.json_of_xml {x : ModelParametersApproach} (h : ModelParametersApproach.XmlOk x) :
    ModelParametersApproach.JsonOk x where
  approachType := fun y0 h0 => (h.approachType y0 h0).1

theorem Dataset.json_of_xml {x : Dataset} (h : Dataset.XmlOk x) : Dataset.JsonOk x := by
  cases x with
  | component y => exact ComponentData.json_of_xml (x := y) h
  | reference _ => trivial

theorem ModelParameters.json_of_xml {x : ModelParameters} (h : ModelParameters.XmlOk x) :
    ModelParameters.JsonOk x where
  approach := fun y0 h0 => ModelParametersApproach.json_of_xml (h.approach y0 h0)
  datasets := fun y0 h0 y1 h1 => Dataset.json_of_xml (h.datasets y0 h0 y1 h1)

theorem ModelCard.json_of_xml {x : ModelCard} (h : ModelCard.XmlOk x) : ModelCard.JsonOk x where
  modelParameters := fun y0 h0 => ModelParameters.json_of_xml (h.modelParameters y0 h0)

theorem DataClassification.json_of_xml {x : DataClassification} (h : DataClassification.XmlOk x) :
    DataClassification.JsonOk x where
  flow := h.flow

theorem Swid.json_of_xml {x : Swid} (h : Swid.XmlOk x) : Swid.JsonOk x where
  tagVersion := fun y0 h0 => h.tagVersion y0 h0
  text := fun y0 h0 => AttachedText.json_of_xml (h.text y0 h0)

theorem Lifecycle.json_of_xml {x : Lifecycle} (h : Lifecycle.XmlOk x) : Lifecycle.JsonOk x := by
  cases x with
  | phase _ => exact h.1
  | description _ => trivial

theorem ComponentEvidence.json_of_xml {v : SpecVersion} {x : ComponentEvidence}
    (h : ComponentEvidence.XmlOk v x) : ComponentEvidence.JsonOk v x where
  licenses := fun y hy => Licenses.json_of_xml (h.licenses y hy)
  callstack := fun hv y hy => absurd ((h.callstack hv).symm.trans hy) nofun
  identity := fun hv y hy => absurd ((h.identity hv).symm.trans hy) nofun

theorem Tool.json_of_xml {v : SpecVersion} {x : Tool} (h : Tool.XmlOk v x) : Tool.JsonOk v x where
  hashes := fun y0 h0 y1 h1 => Hash.json_of_xml (h.hashes y0 h0 y1 h1)
  externalReferences := fun h0 y1 h1 y2 h2 =>
    ExternalReference.json_of_xml (h.externalReferences h0 y1 h1 y2 h2)

theorem ResourceReference.json_of_xml {x : ResourceReference} (h : ResourceReference.XmlOk x) :
    ResourceReference.JsonOk x := by
  cases x with
  | ref _ => trivial
  | externalReference _ => exact absurd h id

theorem RequiredInputField.json_of_xml {x : RequiredInputField} (h : RequiredInputField.XmlOk x) :
    RequiredInputField.JsonOk x := by
  cases x with
  | resource y => exact ResourceReference.json_of_xml (x := y) h
  | _ => trivial

theorem RequiredOutputField.json_of_xml {x : RequiredOutputField}
    (h : RequiredOutputField.XmlOk x) : RequiredOutputField.JsonOk x := by
  cases x with
  | resource y => exact ResourceReference.json_of_xml (x := y) h
  | _ => trivial

theorem Input.json_of_xml {x : Input} (h : Input.XmlOk x) : Input.JsonOk x where
  required := RequiredInputField.json_of_xml (h.required)
  source := fun y0 h0 => ResourceReference.json_of_xml (h.source y0 h0)
  target := fun y0 h0 => ResourceReference.json_of_xml (h.target y0 h0)

theorem Output.json_of_xml {x : Output} (h : Output.XmlOk x) : Output.JsonOk x where
  required := RequiredOutputField.json_of_xml (h.required)
  type := fun y0 h0 => (h.type y0 h0).1
  source := fun y0 h0 => ResourceReference.json_of_xml (h.source y0 h0)
  target := fun y0 h0 => ResourceReference.json_of_xml (h.target y0 h0)

theorem TriggerEvent.json_of_xml {x : TriggerEvent} (h : TriggerEvent.XmlOk x) :
    TriggerEvent.JsonOk x where
  source := fun y0 h0 => ResourceReference.json_of_xml (h.source y0 h0)
  target := fun y0 h0 => ResourceReference.json_of_xml (h.target y0 h0)

theorem Trigger.json_of_xml {x : Trigger} (h : Trigger.XmlOk x) : Trigger.JsonOk x where
  resourceReferences := fun y0 h0 y1 h1 =>
    ResourceReference.json_of_xml (h.resourceReferences y0 h0 y1 h1)
  type := (h.type).1
  event := fun y0 h0 => TriggerEvent.json_of_xml (h.event y0 h0)
  inputs := fun y0 h0 y1 h1 => Input.json_of_xml (h.inputs y0 h0 y1 h1)
  outputs := fun y0 h0 y1 h1 => Output.json_of_xml (h.outputs y0 h0 y1 h1)

theorem Volume.json_of_xml {x : Volume} (h : Volume.XmlOk x) : Volume.JsonOk x where
  mode := (h.mode).1

theorem Workspace.json_of_xml {x : Workspace} (h : Workspace.XmlOk x) : Workspace.JsonOk x where
  resourceReferences := fun y0 h0 y1 h1 =>
    ResourceReference.json_of_xml (h.resourceReferences y0 h0 y1 h1)
  accessMode := fun y0 h0 => (h.accessMode y0 h0).1
  volume := fun y0 h0 => Volume.json_of_xml (h.volume y0 h0)

theorem WorkflowTask.json_of_xml {x : WorkflowTask} (h : WorkflowTask.XmlOk x) :
    WorkflowTask.JsonOk x := h.taskTypes.elim

theorem Workflow.json_of_xml {x : Workflow} (h : Workflow.XmlOk x) : Workflow.JsonOk x where
  resourceReferences := fun y0 h0 y1 h1 =>
    ResourceReference.json_of_xml (h.resourceReferences y0 h0 y1 h1)
  tasks := fun y0 h0 y1 h1 => WorkflowTask.json_of_xml (h.tasks y0 h0 y1 h1)
  taskTypes := fun y0 h0 => (h.taskTypes y0 h0).1
  trigger := fun y0 h0 => Trigger.json_of_xml (h.trigger y0 h0)
  inputs := fun y0 h0 y1 h1 => Input.json_of_xml (h.inputs y0 h0 y1 h1)
  outputs := fun y0 h0 y1 h1 => Output.json_of_xml (h.outputs y0 h0 y1 h1)
  workspaces := fun y0 h0 y1 h1 => Workspace.json_of_xml (h.workspaces y0 h0 y1 h1)

end

/-! ### Parts on which the formats differ -/

namespace Convert
open Spec

/-- All parts of an element are kept by JSON. -/
def All (v : SpecVersion) (e : Elem) : Prop := ∀ p, Inside Elem.parts e p → JsonKeeps v p

theorem All.here {v : SpecVersion} {e : Elem} (h : All v e) : JsonKeeps v e := h e (.refl e)

theorem All.part {v : SpecVersion} {e p : Elem} (h : All v e) (hp : p ∈ e.parts) : All v p :=
  fun q hq => h q (.step hp hq)

theorem All.checked {v : SpecVersion} {e p : Elem} (h : All v e) (hp : p ∈ e.checked) : All v p :=
  h.part (List.mem_append_left _ hp)

theorem All.unchecked {v : SpecVersion} {e p : Elem} (h : All v e) (hp : p ∈ e.unchecked) :
    All v p := h.part (List.mem_append_right _ hp)

theorem mem_opt {α : Type} {f : α → Elem} {x : Option α} {y : α} (h : x = some y) :
    f y ∈ opt f x := by
  subst h
  exact List.mem_singleton.mpr rfl

theorem mem_many {α : Type} {f : α → Elem} {x : Option (List α)} {y : List α} {z : α}
    (h : x = some y) (hz : z ∈ y) : f z ∈ many f x := by
  subst h
  exact List.mem_map_of_mem hz


theorem signer {x : Signer} (h : Signer.XmlOk x) : Signer.JsonOk x where
  algorithm := by
    have h := h.algorithm.1
    revert h
    generalize x.algorithm = a
    cases a with
    | unknown s =>
      intro h
      have : Algorithm.unknown "Unknown" = Algorithm.unknown s := h
      cases this
      rfl
    | _ => intro _; rfl

theorem signature {v : SpecVersion} {x : Signature} (ha : All v (.signature x))
    (h : Signature.XmlOk x) : Signature.JsonOk x := by
  cases x with
  | signers l => exact fun y hy => signer (h y hy)
  | chain l => exact absurd rfl (ha.here l)
  | single s => exact signer (x := s) h

section
variable [F32Format]

theorem rating {v : SpecVersion} {x : VulnerabilityRating} (ha : All v (.vulnerabilityRating x))
    (h : VulnerabilityRating.XmlOk x) : VulnerabilityRating.JsonOk x where
  score := ha.here
  severity := fun y hy => (h.severity y hy).1
  scoreMethod := fun y hy => (h.scoreMethod y hy).1

theorem composition {v : SpecVersion} {x : Composition} (ha : All v (.composition x))
    (h : Composition.XmlOk v x) : Composition.JsonOk v x where
  aggregate := h.aggregate.1
  signature := fun hv y hy => signature (ha.checked (by
    rw [checked_composition]
    exact List.mem_append_right _ (mem_opt hy))) (h.signature hv y hy)

theorem data {v : SpecVersion} {x : ServiceDataChoice} (ha : All v (.serviceDataChoice x))
    (h : ServiceDataChoice.XmlOk v x) : ServiceDataChoice.JsonOk v x := by
  cases x with
  | classification l => exact fun y hy => DataClassification.json_of_xml (h y hy)
  | serviceData l =>
    have hv : v ≠ .v1_5 := fun hv => ha.here hv l rfl
    exact ⟨hv, fun y hy => DataClassification.json_of_xml (h.2 hv y hy)⟩

theorem componentN {v : SpecVersion} : ∀ (n : Nat) {x : Component}, All v (.component x) →
    Component.XmlOkN v n x → Component.JsonOkN v n x
  | 0, _, _, h => h
  | n + 1, x, ha, h =>
    { version := h.version_some
      componentType := h.componentType
      scope := fun y hy => (h.scope y hy).1
      hashes := fun y hy z hz => Hash.json_of_xml (h.hashes y hy z hz)
      licenses := fun y hy => Licenses.json_of_xml (h.licenses y hy)
      swid := fun y hy => Swid.json_of_xml (h.swid y hy)
      pedigree := fun y hy => by
        have hp : All v (.pedigree y) := ha.checked (by
          rw [checked_component]
          simp only [List.mem_append, mem_opt hy, true_or, or_true])
        have h := h.pedigree y hy
        exact
          { ancestors := fun z hz c hc => componentN n (hp.checked (by
              rw [checked_pedigree]
              simp only [List.mem_append, mem_many hz hc, true_or, or_true]))
              (h.ancestors z hz c hc)
            descendants := fun z hz c hc => componentN n (hp.checked (by
              rw [checked_pedigree]
              simp only [List.mem_append, mem_many hz hc, true_or, or_true]))
              (h.descendants z hz c hc)
            variants := fun z hz c hc => componentN n (hp.checked (by
              rw [checked_pedigree]
              simp only [List.mem_append, mem_many hz hc, true_or, or_true]))
              (h.variants z hz c hc)
            patches := fun z hz c hc => Patch.json_of_xml (h.patches z hz c hc) }
      externalReferences := fun y hy z hz =>
        ExternalReference.json_of_xml (h.externalReferences y hy z hz)
      components := fun y hy z hz => componentN n (ha.checked (by
        rw [checked_component]
        simp only [List.mem_append, mem_many hy hz, true_or, or_true])) (h.components y hy z hz)
      evidence := fun y hy => ComponentEvidence.json_of_xml (h.evidence y hy).1
      signature := fun hv y hy => signature (ha.unchecked (by
        show _ ∈ opt _ _ ++ opt _ _ ++ opt _ _
        simp only [List.mem_append, mem_opt hy, true_or, or_true])) (h.signature hv y hy)
      modelCard := fun hv y hy => ModelCard.json_of_xml (h.modelCard hv y hy)
      data := fun hv y hy => ComponentData.json_of_xml (h.data hv y hy) }

theorem serviceN {v : SpecVersion} : ∀ (n : Nat) {x : Service}, All v (.service x) →
    Service.XmlOkN v n x → Service.JsonOkN v n x
  | 0, _, _, h => h
  | n + 1, x, ha, h =>
    { data := fun y hy => data (ha.checked (by
        rw [checked_service]
        simp only [List.mem_append, mem_opt hy, true_or, or_true])) (h.data y hy)
      licenses := fun y hy => Licenses.json_of_xml (h.licenses y hy)
      externalReferences := fun y hy z hz =>
        ExternalReference.json_of_xml (h.externalReferences y hy z hz)
      services := fun y hy z hz => serviceN n (ha.checked (by
        rw [checked_service]
        simp only [List.mem_append, mem_many hy hz, true_or, or_true])) (h.services y hy z hz)
      signature := fun hv y hy => signature (ha.unchecked (mem_opt hy)) (h.signature hv y hy) }

variable [ReadLimit]

theorem tools {v : SpecVersion} {x : Tools} (ha : All v (.tools x)) (h : Tools.XmlOk v x) :
    Tools.JsonOk v x := by
  cases x with
  | list l => exact fun y hy => Tool.json_of_xml (h.2 y hy)
  | object s c =>
    intro hv
    exact ⟨fun l hl y hy => serviceN _ (ha.checked (List.mem_append_left _ (mem_many hl hy)))
        ((h hv).1 l hl y hy),
      fun l hl y hy => componentN _ (ha.checked (List.mem_append_right _ (mem_many hl hy)))
        ((h hv).2 l hl y hy)⟩

theorem metadata {v : SpecVersion} {x : Metadata} (ha : All v (.metadata x))
    (h : Metadata.XmlOk v x) : Metadata.JsonOk v x where
  tools := fun y hy => tools (ha.checked (by
    rw [checked_metadata]
    simp only [List.mem_append, mem_opt hy, true_or, or_true])) (h.tools y hy)
  component := fun y hy => componentN _ (ha.checked (by
    rw [checked_metadata]
    simp only [List.mem_append, mem_opt hy, true_or, or_true])) (h.component y hy)
  licenses := fun y hy => Licenses.json_of_xml (h.licenses y hy)
  lifecycles := fun hv y hy z hz => Lifecycle.json_of_xml (h.lifecycles hv y hy z hz)

theorem vulnerability {v : SpecVersion} {x : Vulnerability} (ha : All v (.vulnerability x))
    (h : Vulnerability.XmlOk v x) : Vulnerability.JsonOk v x where
  vulnerabilityRatings := fun y hy z hz => rating (ha.checked (by
    rw [checked_vulnerability]
    simp only [List.mem_append, mem_many hy hz, true_or, or_true]))
    (h.vulnerabilityRatings y hy z hz)
  cwes := h.cwes
  tools := fun y hy => tools (ha.checked (by
    rw [checked_vulnerability]
    simp only [List.mem_append, mem_opt hy, true_or, or_true])) (h.tools y hy)
  vulnerabilityAnalysis := fun y hy =>
    VulnerabilityAnalysis.json_of_xml (h.vulnerabilityAnalysis y hy)
  vulnerabilityTargets := fun y hy z hz =>
    VulnerabilityTarget.json_of_xml (h.vulnerabilityTargets y hy z hz)

theorem formula {v : SpecVersion} {x : Formula} (ha : All v (.formula x))
    (h : Formula.XmlOk v x) : Formula.JsonOk v x where
  components := fun y hy z hz => componentN _ (ha.checked (by
    rw [checked_formula]
    simp only [List.mem_append, mem_many hy hz, true_or, or_true])) (h.components y hy z hz)
  services := fun y hy z hz => serviceN _ (ha.checked (by
    rw [checked_formula]
    simp only [List.mem_append, mem_many hy hz, true_or, or_true])) (h.services y hy z hz)
  workflows := fun y hy z hz => Workflow.json_of_xml (h.workflows y hy z hz)

/-- What XML keeps of a document is kept by JSON, if the parts on which they differ are. -/
theorem bom {v : SpecVersion} {x : Bom} (ha : All v (.bom x)) (h : Bom.XmlOk v x) :
    Bom.JsonOk v x where
  version := h.version
  metadata := fun y hy => metadata (ha.checked (by
    rw [checked_bom]
    simp only [List.mem_append, mem_opt hy, true_or, or_true])) (h.metadata y hy)
  components := fun y hy z hz => componentN _ (ha.checked (by
    rw [checked_bom]
    simp only [List.mem_append, mem_many hy hz, true_or, or_true])) (h.components y hy z hz)
  services := fun y hy z hz => serviceN _ (ha.checked (by
    rw [checked_bom]
    simp only [List.mem_append, mem_many hy hz, true_or, or_true])) (h.services y hy z hz)
  externalReferences := fun y hy z hz =>
    ExternalReference.json_of_xml (h.externalReferences y hy z hz)
  compositions := fun y hy z hz => composition (ha.checked (by
    rw [checked_bom]
    simp only [List.mem_append, mem_many hy hz, true_or, or_true])) (h.compositions y hy z hz)
  vulnerabilities := fun hv y hy z hz => vulnerability (ha.checked (by
    rw [checked_bom]
    simp only [List.mem_append, mem_many hy hz, true_or, or_true])) (h.vulnerabilities hv y hy z hz)
  signature := fun hv y hy => absurd ((h.signature hv).symm.trans hy) nofun
  annotations := fun hv y hy => absurd ((h.annotations hv).symm.trans hy) nofun
  formulation := fun hv y hy z hz => formula (ha.unchecked (by
    show _ ∈ opt _ _ ++ many _ _ ++ many _ _
    simp only [List.mem_append, mem_many hy hz, true_or, or_true])) (h.formulation hv y hy z hz)

end

end Convert

end Cdx
