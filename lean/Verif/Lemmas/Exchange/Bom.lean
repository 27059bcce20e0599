import Verif.Lemmas.Exchange.Component

set_option linter.unusedSectionVars false
set_option linter.unusedVariables false

/-!
# The order of child elements: formulation and documents

Generated by a script from the arms of the readers and the table of the format.
-/

namespace Cdx.Exchange

open Cdx.Spec

variable {v : SpecVersion} {d : Nat} [F32Format] [ReadLimit]

theorem ResourceReference.stable (H : DecimalsParse) : Stable v d ResourceReference.readXml .resourceReference :=
  stable_struct ["ref", "externalReference"] rfl
    (.cons .string (by cases v <;> decide +kernel) (armHas (takes_simple rfl) (stable_text rfl)) <|
      .cons .externalReference (by cases v <;> decide +kernel) (armHas (ExternalReference.takes H) (ExternalReference.stable H)) <|
      .nil)
    rfl (.inr (by cases v <;> decide +kernel))
    (by all_comm)

theorem Parameter.stable (H : DecimalsParse) : Stable v d Parameter.readXml .parameter :=
  stable_struct ["name", "value", "dataType"] rfl
    (.cons .string (by cases v <;> decide +kernel) (armHas (takes_simple rfl) (stable_text rfl)) <|
      .cons .string (by cases v <;> decide +kernel) (armHas (takes_simple rfl) (stable_text rfl)) <|
      .cons .string (by cases v <;> decide +kernel) (armHas (takes_simple rfl) (stable_text rfl)) <|
      .nil)
    rfl (.inr (by cases v <;> decide +kernel))
    (by all_comm)

theorem EnvironmentVar.stable : Stable v d EnvironmentVar.readAll .environmentVars :=
  stable_struct ["environmentVar", "value"] rfl
    (.cons .property (by cases v <;> decide +kernel) (armHas EnvironmentVar.takesProperty (stable_text rfl)) <|
      .cons .string (by cases v <;> decide +kernel) (armHas (takes_simple rfl) (stable_text rfl)) .nil)
    rfl (.inr (by cases v <;> decide +kernel)) (by all_comm)

theorem Input.miss (attrs) (content : List XNode) (hok : OkAt v .input attrs content) (x) (hx : x ∈ content)
    (name) (hn : nameOf x = some name) : Unknown.fail = .skip ∨ name ∈ Input.arms.map (·.1) := by
  have := hok.items x hx name hn
  have e1 : (ElementType.input.items v).map (·.1) =
      ["resource", "parameters", "environmentVars", "data", "source", "target", "properties"] := by cases v <;> rfl
  rw [e1] at this
  refine .inr ?_
  have h1 : name ≠ "parameters" := by
    rintro rfl
    exact hok.2.2.2.2.2.2.2.1 rfl x hx hn
  simp only [List.mem_cons, List.not_mem_nil, or_false] at this
  simp only [Input.arms, List.map_cons, List.map_nil, List.mem_cons, List.not_mem_nil, or_false]
  rcases this with h | h | h | h | h | h | h
  · exact .inl h
  · exact absurd h h1
  · exact .inr (.inl h)
  · exact .inr (.inr (.inl h))
  · exact .inr (.inr (.inr (.inl h)))
  · exact .inr (.inr (.inr (.inr (.inl h))))
  · exact .inr (.inr (.inr (.inr (.inr h))))

theorem Input.stable (H : DecimalsParse) : Stable v d Input.readXml .input :=
  (stable_struct_miss rfl
    (.cons .resourceReference (by cases v <;> decide +kernel) (armHas (ResourceReference.takes H) (ResourceReference.stable H)) <|
      .cons .environmentVars (by cases v <;> decide +kernel) (armHas (EnvironmentVar.takes) (EnvironmentVar.stable)) <|
      .cons .attachment (by cases v <;> decide +kernel) (armHas (Attachment.takes H) (stable_text rfl)) <|
      .cons .resourceReference (by cases v <;> decide +kernel) (armHas (ResourceReference.takes H) (ResourceReference.stable H)) <|
      .cons .resourceReference (by cases v <;> decide +kernel) (armHas (ResourceReference.takes H) (ResourceReference.stable H)) <|
      .cons .properties (by cases v <;> decide +kernel) (armHas (takes_list (t' := .property) rfl (by cases v <;> rfl) (Property.takes H)) (stable_list (t' := .property) rfl (by cases v <;> rfl) (Property.takes H) (stable_text rfl))) <|
      .nil)
    Input.miss
    (by all_comm)).mono (Nat.le_succ d)

theorem Output.stable (H : DecimalsParse) : Stable v d Output.readXml .output :=
  stable_struct ["resource", "environmentVars", "data", "type", "source", "target", "properties"] rfl
    (.cons .resourceReference (by cases v <;> decide +kernel) (armHas (ResourceReference.takes H) (ResourceReference.stable H)) <|
      .cons .environmentVars (by cases v <;> decide +kernel) (armHas (EnvironmentVar.takes) (EnvironmentVar.stable)) <|
      .cons .attachment (by cases v <;> decide +kernel) (armHas (Attachment.takes H) (stable_text rfl)) <|
      .cons .string (by cases v <;> decide +kernel) (armHas (takes_map (takes_simple rfl) _) (stable_text rfl)) <|
      .cons .resourceReference (by cases v <;> decide +kernel) (armHas (ResourceReference.takes H) (ResourceReference.stable H)) <|
      .cons .resourceReference (by cases v <;> decide +kernel) (armHas (ResourceReference.takes H) (ResourceReference.stable H)) <|
      .cons .properties (by cases v <;> decide +kernel) (armHas (takes_list (t' := .property) rfl (by cases v <;> rfl) (Property.takes H)) (stable_list (t' := .property) rfl (by cases v <;> rfl) (Property.takes H) (stable_text rfl))) <|
      .nil)
    rfl (.inr (by cases v <;> decide +kernel))
    (by all_comm)

theorem Command.stable (H : DecimalsParse) : Stable v d Command.readXml .command :=
  stable_struct ["executed", "properties"] rfl
    (.cons .string (by cases v <;> decide +kernel) (armHas (takes_simple rfl) (stable_text rfl)) <|
      .cons .properties (by cases v <;> decide +kernel) (armHas (takes_list (t' := .property) rfl (by cases v <;> rfl) (Property.takes H)) (stable_list (t' := .property) rfl (by cases v <;> rfl) (Property.takes H) (stable_text rfl))) <|
      .nil)
    rfl (.inr (by cases v <;> decide +kernel))
    (by all_comm)

theorem Step.stable (H : DecimalsParse) : Stable v d Step.readXml .step :=
  stable_struct ["commands", "description", "name", "properties"] rfl
    (.cons .commands (by cases v <;> decide +kernel) (armHas (takes_list (t' := .command) rfl (by cases v <;> rfl) (Command.takes H)) (stable_list (t' := .command) rfl (by cases v <;> rfl) (Command.takes H) (Command.stable H))) <|
      .cons .string (by cases v <;> decide +kernel) (armHas (takes_simple rfl) (stable_text rfl)) <|
      .cons .string (by cases v <;> decide +kernel) (armHas (takes_simple rfl) (stable_text rfl)) <|
      .cons .properties (by cases v <;> decide +kernel) (armHas (takes_list (t' := .property) rfl (by cases v <;> rfl) (Property.takes H)) (stable_list (t' := .property) rfl (by cases v <;> rfl) (Property.takes H) (stable_text rfl))) <|
      .nil)
    rfl (.inl rfl)
    (by all_comm)

theorem TriggerEvent.stable (H : DecimalsParse) : Stable v d TriggerEvent.readXml .event :=
  stable_struct ["uid", "description", "timeReceived", "data", "source", "target", "properties"] rfl
    (.cons .string (by cases v <;> decide +kernel) (armHas (takes_simple rfl) (stable_text rfl)) <|
      .cons .string (by cases v <;> decide +kernel) (armHas (takes_simple rfl) (stable_text rfl)) <|
      .cons .string (by cases v <;> decide +kernel) (armHas (takes_simple rfl) (stable_text rfl)) <|
      .cons .attachment (by cases v <;> decide +kernel) (armHas (Attachment.takes H) (stable_text rfl)) <|
      .cons .resourceReference (by cases v <;> decide +kernel) (armHas (ResourceReference.takes H) (ResourceReference.stable H)) <|
      .cons .resourceReference (by cases v <;> decide +kernel) (armHas (ResourceReference.takes H) (ResourceReference.stable H)) <|
      .cons .properties (by cases v <;> decide +kernel) (armHas (takes_list (t' := .property) rfl (by cases v <;> rfl) (Property.takes H)) (stable_list (t' := .property) rfl (by cases v <;> rfl) (Property.takes H) (stable_text rfl))) <|
      .nil)
    rfl (.inl rfl)
    (by all_comm)

theorem Condition.stable (H : DecimalsParse) : Stable v d Condition.readXml .condition :=
  stable_struct ["description", "expression", "properties"] rfl
    (.cons .string (by cases v <;> decide +kernel) (armHas (takes_simple rfl) (stable_text rfl)) <|
      .cons .string (by cases v <;> decide +kernel) (armHas (takes_simple rfl) (stable_text rfl)) <|
      .cons .properties (by cases v <;> decide +kernel) (armHas (takes_list (t' := .property) rfl (by cases v <;> rfl) (Property.takes H)) (stable_list (t' := .property) rfl (by cases v <;> rfl) (Property.takes H) (stable_text rfl))) <|
      .nil)
    rfl (.inr (by cases v <;> decide +kernel))
    (by all_comm)

theorem Trigger.stable (H : DecimalsParse) : Stable v d Trigger.readXml .trigger :=
  stable_struct ["uid", "name", "description", "resourceReferences", "type", "event", "conditions", "timeActivated", "inputs", "outputs", "properties"] rfl
    (.cons .string (by cases v <;> decide +kernel) (armHas (takes_simple rfl) (stable_text rfl)) <|
      .cons .string (by cases v <;> decide +kernel) (armHas (takes_simple rfl) (stable_text rfl)) <|
      .cons .string (by cases v <;> decide +kernel) (armHas (takes_simple rfl) (stable_text rfl)) <|
      .cons .resourceReferences (by cases v <;> decide +kernel) (armHas (takes_list (t' := .resourceReference) rfl (by cases v <;> rfl) (ResourceReference.takes H)) (stable_list (t' := .resourceReference) rfl (by cases v <;> rfl) (ResourceReference.takes H) (ResourceReference.stable H))) <|
      .cons .string (by cases v <;> decide +kernel) (armHas (takes_map (takes_simple rfl) _) (stable_text rfl)) <|
      .cons .event (by cases v <;> decide +kernel) (armHas (TriggerEvent.takes H) (TriggerEvent.stable H)) <|
      .cons .conditions (by cases v <;> decide +kernel) (armHas (takes_list (t' := .condition) rfl (by cases v <;> rfl) (Condition.takes H)) (stable_list (t' := .condition) rfl (by cases v <;> rfl) (Condition.takes H) (Condition.stable H))) <|
      .cons .string (by cases v <;> decide +kernel) (armHas (takes_simple rfl) (stable_text rfl)) <|
      .cons .inputs (by cases v <;> decide +kernel) (armHas (takes_list (t' := .input) rfl (by cases v <;> rfl) (Input.takes H)) (stable_list (t' := .input) rfl (by cases v <;> rfl) (Input.takes H) (Input.stable H))) <|
      .cons .outputs (by cases v <;> decide +kernel) (armHas (takes_list (t' := .output) rfl (by cases v <;> rfl) (Output.takes H)) (stable_list (t' := .output) rfl (by cases v <;> rfl) (Output.takes H) (Output.stable H))) <|
      .cons .properties (by cases v <;> decide +kernel) (armHas (takes_list (t' := .property) rfl (by cases v <;> rfl) (Property.takes H)) (stable_list (t' := .property) rfl (by cases v <;> rfl) (Property.takes H) (stable_text rfl))) <|
      .nil)
    rfl (.inl rfl)
    (by all_comm)

theorem Volume.stable (H : DecimalsParse) : Stable v d Volume.readXml .volume :=
  stable_struct ["uid", "name", "mode", "path", "sizeAllocated", "persistent", "remote", "properties"] rfl
    (.cons .string (by cases v <;> decide +kernel) (armHas (takes_simple rfl) (stable_text rfl)) <|
      .cons .string (by cases v <;> decide +kernel) (armHas (takes_simple rfl) (stable_text rfl)) <|
      .cons .string (by cases v <;> decide +kernel) (armHas (takes_map (takes_simple rfl) _) (stable_text rfl)) <|
      .cons .string (by cases v <;> decide +kernel) (armHas (takes_simple rfl) (stable_text rfl)) <|
      .cons .string (by cases v <;> decide +kernel) (armHas (takes_simple rfl) (stable_text rfl)) <|
      .cons .boolean (by cases v <;> decide +kernel) (armHas (takes_bool rfl) (stable_text rfl)) <|
      .cons .boolean (by cases v <;> decide +kernel) (armHas (takes_bool rfl) (stable_text rfl)) <|
      .cons .properties (by cases v <;> decide +kernel) (armHas (takes_list (t' := .property) rfl (by cases v <;> rfl) (Property.takes H)) (stable_list (t' := .property) rfl (by cases v <;> rfl) (Property.takes H) (stable_text rfl))) <|
      .nil)
    rfl (.inl rfl)
    (by all_comm)

theorem Workspace.stable (H : DecimalsParse) : Stable v d Workspace.readXml .workspace :=
  stable_struct ["uid", "name", "aliases", "description", "resourceReferences", "accessMode", "mountPath", "managedDataType", "volumeRequest", "volume", "properties"] rfl
    (.cons .string (by cases v <;> decide +kernel) (armHas (takes_simple rfl) (stable_text rfl)) <|
      .cons .string (by cases v <;> decide +kernel) (armHas (takes_simple rfl) (stable_text rfl)) <|
      .cons .aliases (by cases v <;> decide +kernel) (armHas (takes_list (t' := .string) rfl (by cases v <;> rfl) (takes_simple rfl)) (stable_list (t' := .string) rfl (by cases v <;> rfl) (takes_simple rfl) (stable_text rfl))) <|
      .cons .string (by cases v <;> decide +kernel) (armHas (takes_simple rfl) (stable_text rfl)) <|
      .cons .resourceReferences (by cases v <;> decide +kernel) (armHas (takes_list (t' := .resourceReference) rfl (by cases v <;> rfl) (ResourceReference.takes H)) (stable_list (t' := .resourceReference) rfl (by cases v <;> rfl) (ResourceReference.takes H) (ResourceReference.stable H))) <|
      .cons .string (by cases v <;> decide +kernel) (armHas (takes_map (takes_simple rfl) _) (stable_text rfl)) <|
      .cons .string (by cases v <;> decide +kernel) (armHas (takes_simple rfl) (stable_text rfl)) <|
      .cons .string (by cases v <;> decide +kernel) (armHas (takes_simple rfl) (stable_text rfl)) <|
      .cons .string (by cases v <;> decide +kernel) (armHas (takes_simple rfl) (stable_text rfl)) <|
      .cons .volume (by cases v <;> decide +kernel) (armHas (Volume.takes H) (Volume.stable H)) <|
      .cons .properties (by cases v <;> decide +kernel) (armHas (takes_list (t' := .property) rfl (by cases v <;> rfl) (Property.takes H)) (stable_list (t' := .property) rfl (by cases v <;> rfl) (Property.takes H) (stable_text rfl))) <|
      .nil)
    rfl (.inl rfl)
    (by all_comm)

theorem WorkflowTask.stable (H : DecimalsParse) : Stable v d WorkflowTask.readXml .task :=
  stable_struct ["uid", "name", "description", "resourceReferences", "taskTypes", "trigger", "steps", "inputs", "outputs", "timeStart", "timeEnd", "workspaces", "runtimeTopology", "properties"] rfl
    (.cons .string (by cases v <;> decide +kernel) (armHas (takes_simple rfl) (stable_text rfl)) <|
      .cons .string (by cases v <;> decide +kernel) (armHas (takes_simple rfl) (stable_text rfl)) <|
      .cons .string (by cases v <;> decide +kernel) (armHas (takes_simple rfl) (stable_text rfl)) <|
      .cons .resourceReferences (by cases v <;> decide +kernel) (armHas (takes_list (t' := .resourceReference) rfl (by cases v <;> rfl) (ResourceReference.takes H)) (stable_list (t' := .resourceReference) rfl (by cases v <;> rfl) (ResourceReference.takes H) (ResourceReference.stable H))) <|
      .cons .taskTypes (by cases v <;> decide +kernel) (armHas (takes_list (t' := .string) rfl (by cases v <;> rfl) (takes_map (takes_simple rfl) _)) (stable_list (t' := .string) rfl (by cases v <;> rfl) (takes_map (takes_simple rfl) _) (stable_text rfl))) <|
      .cons .trigger (by cases v <;> decide +kernel) (armHas (Trigger.takes H) (Trigger.stable H)) <|
      .cons .steps (by cases v <;> decide +kernel) (armHas (takes_list (t' := .step) rfl (by cases v <;> rfl) (Step.takes H)) (stable_list (t' := .step) rfl (by cases v <;> rfl) (Step.takes H) (Step.stable H))) <|
      .cons .inputs (by cases v <;> decide +kernel) (armHas (takes_list (t' := .input) rfl (by cases v <;> rfl) (Input.takes H)) (stable_list (t' := .input) rfl (by cases v <;> rfl) (Input.takes H) (Input.stable H))) <|
      .cons .outputs (by cases v <;> decide +kernel) (armHas (takes_list (t' := .output) rfl (by cases v <;> rfl) (Output.takes H)) (stable_list (t' := .output) rfl (by cases v <;> rfl) (Output.takes H) (Output.stable H))) <|
      .cons .string (by cases v <;> decide +kernel) (armHas (takes_simple rfl) (stable_text rfl)) <|
      .cons .string (by cases v <;> decide +kernel) (armHas (takes_simple rfl) (stable_text rfl)) <|
      .cons .workspaces (by cases v <;> decide +kernel) (armHas (takes_list (t' := .workspace) rfl (by cases v <;> rfl) (Workspace.takes H)) (stable_list (t' := .workspace) rfl (by cases v <;> rfl) (Workspace.takes H) (Workspace.stable H))) <|
      .cons .dependencies (by cases v <;> decide +kernel) (armHas (takes_list (t' := .dependency) rfl (by cases v <;> rfl) (Dependency.takes H)) (stable_list (t' := .dependency) rfl (by cases v <;> rfl) (Dependency.takes H) (Dependency.stable H))) <|
      .cons .properties (by cases v <;> decide +kernel) (armHas (takes_list (t' := .property) rfl (by cases v <;> rfl) (Property.takes H)) (stable_list (t' := .property) rfl (by cases v <;> rfl) (Property.takes H) (stable_text rfl))) <|
      .nil)
    rfl (.inl rfl)
    (by all_comm)

theorem Workflow.stable (H : DecimalsParse) : Stable v d Workflow.readXml .workflow :=
  stable_struct ["uid", "name", "description", "resourceReferences", "tasks", "taskDependencies", "taskTypes", "trigger", "steps", "inputs", "outputs", "timeStart", "timeEnd", "workspaces", "runtimeTopology", "properties"] rfl
    (.cons .string (by cases v <;> decide +kernel) (armHas (takes_simple rfl) (stable_text rfl)) <|
      .cons .string (by cases v <;> decide +kernel) (armHas (takes_simple rfl) (stable_text rfl)) <|
      .cons .string (by cases v <;> decide +kernel) (armHas (takes_simple rfl) (stable_text rfl)) <|
      .cons .resourceReferences (by cases v <;> decide +kernel) (armHas (takes_list (t' := .resourceReference) rfl (by cases v <;> rfl) (ResourceReference.takes H)) (stable_list (t' := .resourceReference) rfl (by cases v <;> rfl) (ResourceReference.takes H) (ResourceReference.stable H))) <|
      .cons .tasks (by cases v <;> decide +kernel) (armHas (takes_list (t' := .task) rfl (by cases v <;> rfl) (WorkflowTask.takes H)) (stable_list (t' := .task) rfl (by cases v <;> rfl) (WorkflowTask.takes H) (WorkflowTask.stable H))) <|
      .cons .dependencies (by cases v <;> decide +kernel) (armHas (takes_list (t' := .dependency) rfl (by cases v <;> rfl) (Dependency.takes H)) (stable_list (t' := .dependency) rfl (by cases v <;> rfl) (Dependency.takes H) (Dependency.stable H))) <|
      .cons .taskTypes (by cases v <;> decide +kernel) (armHas (takes_list (t' := .string) rfl (by cases v <;> rfl) (takes_map (takes_simple rfl) _)) (stable_list (t' := .string) rfl (by cases v <;> rfl) (takes_map (takes_simple rfl) _) (stable_text rfl))) <|
      .cons .trigger (by cases v <;> decide +kernel) (armHas (Trigger.takes H) (Trigger.stable H)) <|
      .cons .steps (by cases v <;> decide +kernel) (armHas (takes_list (t' := .step) rfl (by cases v <;> rfl) (Step.takes H)) (stable_list (t' := .step) rfl (by cases v <;> rfl) (Step.takes H) (Step.stable H))) <|
      .cons .inputs (by cases v <;> decide +kernel) (armHas (takes_list (t' := .input) rfl (by cases v <;> rfl) (Input.takes H)) (stable_list (t' := .input) rfl (by cases v <;> rfl) (Input.takes H) (Input.stable H))) <|
      .cons .outputs (by cases v <;> decide +kernel) (armHas (takes_list (t' := .output) rfl (by cases v <;> rfl) (Output.takes H)) (stable_list (t' := .output) rfl (by cases v <;> rfl) (Output.takes H) (Output.stable H))) <|
      .cons .string (by cases v <;> decide +kernel) (armHas (takes_simple rfl) (stable_text rfl)) <|
      .cons .string (by cases v <;> decide +kernel) (armHas (takes_simple rfl) (stable_text rfl)) <|
      .cons .workspaces (by cases v <;> decide +kernel) (armHas (takes_list (t' := .workspace) rfl (by cases v <;> rfl) (Workspace.takes H)) (stable_list (t' := .workspace) rfl (by cases v <;> rfl) (Workspace.takes H) (Workspace.stable H))) <|
      .cons .dependencies (by cases v <;> decide +kernel) (armHas (takes_list (t' := .dependency) rfl (by cases v <;> rfl) (Dependency.takes H)) (stable_list (t' := .dependency) rfl (by cases v <;> rfl) (Dependency.takes H) (Dependency.stable H))) <|
      .cons .properties (by cases v <;> decide +kernel) (armHas (takes_list (t' := .property) rfl (by cases v <;> rfl) (Property.takes H)) (stable_list (t' := .property) rfl (by cases v <;> rfl) (Property.takes H) (stable_text rfl))) <|
      .nil)
    rfl (.inl rfl)
    (by all_comm)

theorem Formula.stable (H : DecimalsParse) (hd : d ≤ ReadLimit.limit) : Stable v d (Formula.readXml v) .formula :=
  stable_struct ["components", "services", "workflows", "properties"] rfl
    (.cons .components (by cases v <;> decide +kernel) (armHas (takes_list (t' := .component) rfl (by cases v <;> rfl) (Component.takes H hd)) (stable_list (t' := .component) rfl (by cases v <;> rfl) (Component.takes H hd) (Component.stable H hd))) <|
      .cons .services (by cases v <;> decide +kernel) (armHas (takes_list (t' := .service) rfl (by cases v <;> rfl) (Service.takes H hd)) (stable_list (t' := .service) rfl (by cases v <;> rfl) (Service.takes H hd) (Service.stable H hd))) <|
      .cons .workflows (by cases v <;> decide +kernel) (armHas (takes_list (t' := .workflow) rfl (by cases v <;> rfl) (Workflow.takes H)) (stable_list (t' := .workflow) rfl (by cases v <;> rfl) (Workflow.takes H) (Workflow.stable H))) <|
      .cons .properties (by cases v <;> decide +kernel) (armHas (takes_list (t' := .property) rfl (by cases v <;> rfl) (Property.takes H)) (stable_list (t' := .property) rfl (by cases v <;> rfl) (Property.takes H) (stable_text rfl))) <|
      .nil)
    rfl (.inr (by cases v <;> decide +kernel))
    (by all_comm)

theorem Bom.stableParts (H : DecimalsParse) (hd : d ≤ ReadLimit.limit) :
    Stable v d (readStruct .skip (fun _ attrs => Bom.versionOfAttrs attrs) ({} : Bom.Vars) (Bom.arms v)
      fun _ n vars => .ok (n, vars)) .bom :=
  (stable_struct_miss rfl
    (.append (.append (.cons .metadata (by cases v <;> decide +kernel) (armHas (Metadata.takes H hd) (Metadata.stable H hd)) <|
      .cons .components (by cases v <;> decide +kernel) (armHas (takes_list (t' := .component) rfl (by cases v <;> rfl) (Component.takes H hd)) (stable_list (t' := .component) rfl (by cases v <;> rfl) (Component.takes H hd) (Component.stable H hd))) <|
      .cons .services (by cases v <;> decide +kernel) (armHas (takes_list (t' := .service) rfl (by cases v <;> rfl) (Service.takes H hd)) (stable_list (t' := .service) rfl (by cases v <;> rfl) (Service.takes H hd) (Service.stable H hd))) <|
      .cons .externalReferences (by cases v <;> decide +kernel) (armHas (takes_list (t' := .externalReference) rfl (by cases v <;> rfl) (ExternalReference.takes H)) (stable_list (t' := .externalReference) rfl (by cases v <;> rfl) (ExternalReference.takes H) (ExternalReference.stable H))) <|
      .cons .dependencies (by cases v <;> decide +kernel) (armHas (takes_list (t' := .dependency) rfl (by cases v <;> rfl) (Dependency.takes H)) (stable_list (t' := .dependency) rfl (by cases v <;> rfl) (Dependency.takes H) (Dependency.stable H))) <|
      .cons .compositions (by cases v <;> decide +kernel) (armHas (takes_list (t' := .composition) rfl (by cases v <;> rfl) (Composition.takes H)) (stable_list (t' := .composition) rfl (by cases v <;> rfl) (Composition.takes H) (Composition.stable H))) <|
      .nil) <|
      .since14 <|
      .cons .vulnerabilities (by cases v <;> decide +kernel) (armHas (takes_list (t' := .vulnerability) rfl (by cases v <;> rfl) (Vulnerability.takes H hd)) (stable_list (t' := .vulnerability) rfl (by cases v <;> rfl) (Vulnerability.takes H hd) (Vulnerability.stable H hd))) <|
      .other (by cases v <;> decide +kernel) <|
      .nil) <|
      .since15 <|
      .cons .properties (by cases v <;> decide +kernel) (armHas (takes_list (t' := .property) rfl (by cases v <;> rfl) (Property.takes H)) (stable_list (t' := .property) rfl (by cases v <;> rfl) (Property.takes H) (stable_text rfl))) <|
      .cons .annotations (by cases v <;> decide +kernel) (armHas (takes_list (t' := .annotation) rfl (by cases v <;> rfl) (Annotation.takes H hd)) (stable_list (t' := .annotation) rfl (by cases v <;> rfl) (Annotation.takes H hd) (Annotation.stable H hd))) <|
      .cons .formulation (by cases v <;> decide +kernel) (armHas (takes_list (t' := .formula) rfl (by cases v <;> rfl) (Formula.takes H hd)) (stable_list (t' := .formula) rfl (by cases v <;> rfl) (Formula.takes H hd) (Formula.stable H hd))) <|
      .nil)
    (fun _ _ _ _ _ _ _ => .inl rfl)
    (allComm_sub (by all_comm) (((List.Sublist.refl _).append since14_sublist).append since15_sublist))).mono (Nat.le_succ d)

/-- The parts of a document are what its reader gets. -/
theorem Bom.body_of_parts {n attrs content x} (hn : n.localName = "bom")
    (h : ReadAs (readStruct .skip (fun _ attrs => Bom.versionOfAttrs attrs)
      ({} : Bom.Vars) (Bom.arms v) fun _ n vars => .ok (n, vars)) n attrs content x) :
    Bom.versionOfAttrs attrs = .ok x.1 ∧
      Bom.readBody v n (XNode.eventsAll content ++ .stop n :: [.endDocument]) = .ok (x.2, [.endDocument]) := by
  have e := h [.endDocument]
  simp only [readStruct, bind, Except.bind] at e
  cases hk : Bom.versionOfAttrs attrs with
  | error err => rw [hk] at e; exact nomatch e
  | ok k =>
    rw [hk] at e
    simp only at e
    split at e
    · exact nomatch e
    · rename_i p hp
      obtain ⟨st, l⟩ := p
      simp only [Except.ok.injEq, Prod.mk.injEq] at e
      obtain ⟨rfl, rfl⟩ := e
      exact ⟨rfl, loop_end (by simpa using hn) _ _ _ _ hp⟩

theorem Bom.stable (H : DecimalsParse) {n attrs c c'} (hn : n.localName = "bom")
    (hc : Throughout (OkAt v) v .bom (.elem n attrs (some v.namespace) c))
    (hd : depth (.elem n attrs (some v.namespace) c) ≤ ReadLimit.limit) (he : Exchanged v .bom c c') :
    Bom.parseXmlWith v (documentOf (.elem n attrs (some v.namespace) c)) =
      Bom.parseXmlWith v (documentOf (.elem n attrs (some v.namespace) c')) := by
  rw [depth] at hd
  obtain ⟨x, h1⟩ := Bom.takesParts (v := v) H (Nat.le_refl _) n attrs _ c hc (by omega)
  have h2 := Bom.stableParts (v := v) H (Nat.le_refl _) _ n attrs _ c c' rfl hc (by omega) he x h1
  obtain ⟨k, b1⟩ := Bom.body_of_parts hn h1
  obtain ⟨-, b2⟩ := Bom.body_of_parts hn h2
  simp [Bom.parseXmlWith, documentOf, XNode.events, Bom.readDocument, hn, k, b1, b2, bind, Except.bind]

theorem Bom.same (H : DecimalsParse) {x y : XNode} (h : SameButOrder v .bom x y) (hr : IsRoot v x)
    (hc : Throughout (OkAt v) v .bom x) (hd : depth x ≤ ReadLimit.limit) :
    Bom.parseXmlWith v (documentOf x) = Bom.parseXmlWith v (documentOf y) ∧
      IsRoot v y ∧ Throughout (OkAt v) v .bom y ∧ depth y = depth x := by
  induction h with
  | refl => exact ⟨rfl, hr, hc, rfl⟩
  | step _ he ih =>
    obtain ⟨e, ⟨n, attrs, content, q, hn⟩, hc', hd'⟩ := ih
    cases q
    refine ⟨e.trans (Bom.stable H hn hc' (by omega) he), ⟨_, _, _, rfl, hn⟩, throughout_exchanged he hc', ?_⟩
    rw [← hd']
    simp only [depth, depth_same he]

end Cdx.Exchange
