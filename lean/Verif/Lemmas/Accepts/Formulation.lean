import Verif.Lemmas.Accepts.Vulnerability

set_option linter.unusedSectionVars false
set_option linter.unusedVariables false

/-!
# Reading elements that conform to the format: formulation

Generated by a script from the arms of the readers and the table of the format.
-/

namespace Cdx

open Spec

variable {v : SpecVersion} {d : Nat} [F32Format] [ReadLimit]

theorem ResourceReference.takes (H : DecimalsParse) : Takes v d ResourceReference.readXml .resourceReference := 
  takes_struct ["ref", "externalReference"] rfl (fun _ (s : Option ResourceReference) => s.isSome = true) (fun _ _ _ => ⟨_, rfl⟩)
    (armsTake_cons .string (by cases v <;> decide +kernel) (armTakes (takes_simple rfl) (by has_set) (by has_keep)) <|
      armsTake_cons .externalReference (by cases v <;> decide +kernel) (armTakes (ExternalReference.takes H) (by has_set) (by has_keep)) <|
      armsTake_nil)
    rfl (by cases v <;> decide +kernel)
    (fun el p st h => by
      obtain ⟨n, -, h0⟩ := seen_of_choices (v := v) (t := .resourceReference) (st := st) (Has := fun _ (s : Option ResourceReference) => s.isSome = true) ["ref", "externalReference"] (by cases v <;> decide +kernel) h
      obtain ⟨x, rfl⟩ := Option.isSome_iff_exists.mp h0
      exact ⟨x, rfl⟩)

theorem Parameter.takes (H : DecimalsParse) : Takes v d Parameter.readXml .parameter := 
  takes_struct ["name", "value", "dataType"] rfl (fun _ _ => True) (fun _ _ _ => ⟨_, rfl⟩)
    (armsTake_cons .string (by cases v <;> decide +kernel) (armTakes (takes_simple rfl) (fun _ _ => trivial) fun _ _ _ _ => trivial) <|
      armsTake_cons .string (by cases v <;> decide +kernel) (armTakes (takes_simple rfl) (fun _ _ => trivial) fun _ _ _ _ => trivial) <|
      armsTake_cons .string (by cases v <;> decide +kernel) (armTakes (takes_simple rfl) (fun _ _ => trivial) fun _ _ _ _ => trivial) <|
      armsTake_nil)
    rfl (by cases v <;> decide +kernel)
    (fun _ _ _ _ => ⟨_, rfl⟩)

theorem Input.noParameters : ∀ (el : XName) (attrs : List (String × String)) (content : List XNode) (ns : List String),
    OkAt v .input attrs content → content.map nameOf = ns.map some → ∀ name ∈ ns,
    (Unknown.fail = .skip ∧ ∀ st : Input.Vars, ((name = "resource" ∨ name = "environmentVars" ∨ name = "data" →
      st.required.isSome = true) ∧ name ≠ "parameters")) ∨ name ∈ Input.arms.map (·.1) := by
  intro el attrs content ns hok e name hn
  have := (hok.legal rfl e).mem name hn
  have e1 : (ElementType.input.items v).map (·.1) =
      ["resource", "parameters", "environmentVars", "data", "source", "target", "properties"] := by cases v <;> rfl
  rw [e1] at this
  refine .inr ?_
  have h1 : name ≠ "parameters" := by
    rintro rfl
    have : some "parameters" ∈ content.map nameOf := by rw [e]; exact List.mem_map_of_mem hn
    obtain ⟨x, hx, ex⟩ := List.mem_map.mp this
    exact hok.2.2.2.2.2.2.2.1 rfl x hx ex
  simp only [List.mem_cons, List.not_mem_nil, or_false] at this
  simp only [Input.arms, List.map_cons, List.map_nil, List.mem_cons, List.not_mem_nil, or_false]
  rcases this with h | h | h | h | h | h | h
  · exact .inl h
  · exact absurd h h1
  · exact .inr (.inl h)
  · exact .inr (.inr (.inl h))
  · exact .inr (.inr (.inr (.inl h)))
  · exact .inr (.inr (.inr (.inr (.inl h))))
  · exact .inr (.inr (.inr (.inr (.inr h))))

theorem Input.takes (H : DecimalsParse) : Takes v d Input.readXml .input := 
  (takes_struct_has rfl (fun m (s : Input.Vars) => (m = "resource" ∨ m = "environmentVars" ∨ m = "data" → s.required.isSome = true) ∧ m ≠ "parameters") (fun _ _ _ => ⟨_, rfl⟩)
    (armsTake_cons .resourceReference (by cases v <;> decide +kernel) (armTakes (ResourceReference.takes H) (by has_set) (by has_keep)) <|
      armsTake_cons .environmentVars (by cases v <;> decide +kernel) (armTakes (EnvironmentVar.takes) (by has_set) (by has_keep)) <|
      armsTake_cons .attachment (by cases v <;> decide +kernel) (armTakes (Attachment.takes H) (by has_set) (by has_keep)) <|
      armsTake_cons .resourceReference (by cases v <;> decide +kernel) (armTakes (ResourceReference.takes H) (by has_set) (by has_keep)) <|
      armsTake_cons .resourceReference (by cases v <;> decide +kernel) (armTakes (ResourceReference.takes H) (by has_set) (by has_keep)) <|
      armsTake_cons .properties (by cases v <;> decide +kernel) (armTakes (takes_list (t' := .property) rfl (by cases v <;> rfl) (Property.takes H)) (by has_set) (by has_keep)) <|
      armsTake_nil)
    Input.noParameters
    (fun el p st h => by
      obtain ⟨n0, m0, s0⟩ := seen_of_choices (v := v) (t := .input) (st := st) (Has := fun m (s : Input.Vars) => (m = "resource" ∨ m = "environmentVars" ∨ m = "data" → s.required.isSome = true) ∧ m ≠ "parameters") ["resource", "parameters", "environmentVars", "data"] (by cases v <;> decide +kernel) h
      obtain ⟨x0, e0⟩ := Option.isSome_iff_exists.mp (s0.1 (by simp [s0.2] at m0; exact m0))
      simp [Cdx.required, e0, bind, Except.bind])).mono (Nat.le_succ d)

theorem Output.takes (H : DecimalsParse) : Takes v d Output.readXml .output := 
  takes_struct ["resource", "environmentVars", "data", "type", "source", "target", "properties"] rfl (fun m (s : Output.Vars) => (m = "resource" ∨ m = "environmentVars" ∨ m = "data" → s.required.isSome = true)) (fun _ _ _ => ⟨_, rfl⟩)
    (armsTake_cons .resourceReference (by cases v <;> decide +kernel) (armTakes (ResourceReference.takes H) (by has_set) (by has_keep)) <|
      armsTake_cons .environmentVars (by cases v <;> decide +kernel) (armTakes (EnvironmentVar.takes) (by has_set) (by has_keep)) <|
      armsTake_cons .attachment (by cases v <;> decide +kernel) (armTakes (Attachment.takes H) (by has_set) (by has_keep)) <|
      armsTake_cons .string (by cases v <;> decide +kernel) (armTakes (takes_map (takes_simple rfl) _) (by has_set) (by has_keep)) <|
      armsTake_cons .resourceReference (by cases v <;> decide +kernel) (armTakes (ResourceReference.takes H) (by has_set) (by has_keep)) <|
      armsTake_cons .resourceReference (by cases v <;> decide +kernel) (armTakes (ResourceReference.takes H) (by has_set) (by has_keep)) <|
      armsTake_cons .properties (by cases v <;> decide +kernel) (armTakes (takes_list (t' := .property) rfl (by cases v <;> rfl) (Property.takes H)) (by has_set) (by has_keep)) <|
      armsTake_nil)
    rfl (by cases v <;> decide +kernel)
    (fun el p st h => by
      obtain ⟨n0, m0, s0⟩ := seen_of_choices (v := v) (t := .output) (st := st) (Has := fun m (s : Output.Vars) => (m = "resource" ∨ m = "environmentVars" ∨ m = "data" → s.required.isSome = true)) ["resource", "environmentVars", "data"] (by cases v <;> decide +kernel) h
      obtain ⟨x0, e0⟩ := Option.isSome_iff_exists.mp (s0 (by simpa using m0))
      simp [Cdx.required, e0, bind, Except.bind])

theorem Command.takes (H : DecimalsParse) : Takes v d Command.readXml .command := 
  takes_struct ["executed", "properties"] rfl (fun _ _ => True) (fun _ _ _ => ⟨_, rfl⟩)
    (armsTake_cons .string (by cases v <;> decide +kernel) (armTakes (takes_simple rfl) (fun _ _ => trivial) fun _ _ _ _ => trivial) <|
      armsTake_cons .properties (by cases v <;> decide +kernel) (armTakes (takes_list (t' := .property) rfl (by cases v <;> rfl) (Property.takes H)) (fun _ _ => trivial) fun _ _ _ _ => trivial) <|
      armsTake_nil)
    rfl (by cases v <;> decide +kernel)
    (fun _ _ _ _ => ⟨_, rfl⟩)

theorem Step.takes (H : DecimalsParse) : Takes v d Step.readXml .step := 
  takes_struct ["commands", "description", "name", "properties"] rfl (fun _ _ => True) (fun _ _ _ => ⟨_, rfl⟩)
    (armsTake_cons .commands (by cases v <;> decide +kernel) (armTakes (takes_list (t' := .command) rfl (by cases v <;> rfl) (Command.takes H)) (fun _ _ => trivial) fun _ _ _ _ => trivial) <|
      armsTake_cons .string (by cases v <;> decide +kernel) (armTakes (takes_simple rfl) (fun _ _ => trivial) fun _ _ _ _ => trivial) <|
      armsTake_cons .string (by cases v <;> decide +kernel) (armTakes (takes_simple rfl) (fun _ _ => trivial) fun _ _ _ _ => trivial) <|
      armsTake_cons .properties (by cases v <;> decide +kernel) (armTakes (takes_list (t' := .property) rfl (by cases v <;> rfl) (Property.takes H)) (fun _ _ => trivial) fun _ _ _ _ => trivial) <|
      armsTake_nil)
    rfl (by cases v <;> decide +kernel)
    (fun _ _ _ _ => ⟨_, rfl⟩)

theorem TriggerEvent.takes (H : DecimalsParse) : Takes v d TriggerEvent.readXml .event := 
  takes_struct ["uid", "description", "timeReceived", "data", "source", "target", "properties"] rfl (fun _ _ => True) (fun _ _ _ => ⟨_, rfl⟩)
    (armsTake_cons .string (by cases v <;> decide +kernel) (armTakes (takes_simple rfl) (fun _ _ => trivial) fun _ _ _ _ => trivial) <|
      armsTake_cons .string (by cases v <;> decide +kernel) (armTakes (takes_simple rfl) (fun _ _ => trivial) fun _ _ _ _ => trivial) <|
      armsTake_cons .string (by cases v <;> decide +kernel) (armTakes (takes_simple rfl) (fun _ _ => trivial) fun _ _ _ _ => trivial) <|
      armsTake_cons .attachment (by cases v <;> decide +kernel) (armTakes (Attachment.takes H) (fun _ _ => trivial) fun _ _ _ _ => trivial) <|
      armsTake_cons .resourceReference (by cases v <;> decide +kernel) (armTakes (ResourceReference.takes H) (fun _ _ => trivial) fun _ _ _ _ => trivial) <|
      armsTake_cons .resourceReference (by cases v <;> decide +kernel) (armTakes (ResourceReference.takes H) (fun _ _ => trivial) fun _ _ _ _ => trivial) <|
      armsTake_cons .properties (by cases v <;> decide +kernel) (armTakes (takes_list (t' := .property) rfl (by cases v <;> rfl) (Property.takes H)) (fun _ _ => trivial) fun _ _ _ _ => trivial) <|
      armsTake_nil)
    rfl (by cases v <;> decide +kernel)
    (fun _ _ _ _ => ⟨_, rfl⟩)

theorem Condition.takes (H : DecimalsParse) : Takes v d Condition.readXml .condition := 
  takes_struct ["description", "expression", "properties"] rfl (fun _ _ => True) (fun _ _ _ => ⟨_, rfl⟩)
    (armsTake_cons .string (by cases v <;> decide +kernel) (armTakes (takes_simple rfl) (fun _ _ => trivial) fun _ _ _ _ => trivial) <|
      armsTake_cons .string (by cases v <;> decide +kernel) (armTakes (takes_simple rfl) (fun _ _ => trivial) fun _ _ _ _ => trivial) <|
      armsTake_cons .properties (by cases v <;> decide +kernel) (armTakes (takes_list (t' := .property) rfl (by cases v <;> rfl) (Property.takes H)) (fun _ _ => trivial) fun _ _ _ _ => trivial) <|
      armsTake_nil)
    rfl (by cases v <;> decide +kernel)
    (fun _ _ _ _ => ⟨_, rfl⟩)

theorem Trigger.takes (H : DecimalsParse) : Takes v d Trigger.readXml .trigger := 
  takes_struct ["uid", "name", "description", "resourceReferences", "type", "event", "conditions", "timeActivated", "inputs", "outputs", "properties"] rfl (fun m (s : Trigger.Vars) => (m = "uid" → s.uid.isSome = true) ∧ (m = "type" → s.type.isSome = true)) (fun el attrs h => by
      obtain ⟨s0, h0⟩ := h.req el "bom-ref" (by cases v <;> decide +kernel)
      simp [h0, bind, Except.bind])
    (armsTake_cons .string (by cases v <;> decide +kernel) (armTakes (takes_simple rfl) (by has_set) (by has_keep)) <|
      armsTake_cons .string (by cases v <;> decide +kernel) (armTakes (takes_simple rfl) (by has_set) (by has_keep)) <|
      armsTake_cons .string (by cases v <;> decide +kernel) (armTakes (takes_simple rfl) (by has_set) (by has_keep)) <|
      armsTake_cons .resourceReferences (by cases v <;> decide +kernel) (armTakes (takes_list (t' := .resourceReference) rfl (by cases v <;> rfl) (ResourceReference.takes H)) (by has_set) (by has_keep)) <|
      armsTake_cons .string (by cases v <;> decide +kernel) (armTakes (takes_map (takes_simple rfl) _) (by has_set) (by has_keep)) <|
      armsTake_cons .event (by cases v <;> decide +kernel) (armTakes (TriggerEvent.takes H) (by has_set) (by has_keep)) <|
      armsTake_cons .conditions (by cases v <;> decide +kernel) (armTakes (takes_list (t' := .condition) rfl (by cases v <;> rfl) (Condition.takes H)) (by has_set) (by has_keep)) <|
      armsTake_cons .string (by cases v <;> decide +kernel) (armTakes (takes_simple rfl) (by has_set) (by has_keep)) <|
      armsTake_cons .inputs (by cases v <;> decide +kernel) (armTakes (takes_list (t' := .input) rfl (by cases v <;> rfl) (Input.takes H)) (by has_set) (by has_keep)) <|
      armsTake_cons .outputs (by cases v <;> decide +kernel) (armTakes (takes_list (t' := .output) rfl (by cases v <;> rfl) (Output.takes H)) (by has_set) (by has_keep)) <|
      armsTake_cons .properties (by cases v <;> decide +kernel) (armTakes (takes_list (t' := .property) rfl (by cases v <;> rfl) (Property.takes H)) (by has_set) (by has_keep)) <|
      armsTake_nil)
    rfl (by cases v <;> decide +kernel)
    (fun el p st h => by
      have g0 := seen_one (v := v) (t := .trigger) (st := st) (Has := fun m (s : Trigger.Vars) => (m = "uid" → s.uid.isSome = true) ∧ (m = "type" → s.type.isSome = true)) "uid" (by cases v <;> decide +kernel) h
      obtain ⟨x0, e0⟩ := Option.isSome_iff_exists.mp (g0.1 rfl)
      have g1 := seen_one (v := v) (t := .trigger) (st := st) (Has := fun m (s : Trigger.Vars) => (m = "uid" → s.uid.isSome = true) ∧ (m = "type" → s.type.isSome = true)) "type" (by cases v <;> decide +kernel) h
      obtain ⟨x1, e1⟩ := Option.isSome_iff_exists.mp (g1.2 rfl)
      simp [Cdx.required, e0, e1, bind, Except.bind])

theorem Volume.takes (H : DecimalsParse) : Takes v d Volume.readXml .volume := 
  takes_struct ["uid", "name", "mode", "path", "sizeAllocated", "persistent", "remote", "properties"] rfl (fun _ _ => True) (fun _ _ _ => ⟨_, rfl⟩)
    (armsTake_cons .string (by cases v <;> decide +kernel) (armTakes (takes_simple rfl) (fun _ _ => trivial) fun _ _ _ _ => trivial) <|
      armsTake_cons .string (by cases v <;> decide +kernel) (armTakes (takes_simple rfl) (fun _ _ => trivial) fun _ _ _ _ => trivial) <|
      armsTake_cons .string (by cases v <;> decide +kernel) (armTakes (takes_map (takes_simple rfl) _) (fun _ _ => trivial) fun _ _ _ _ => trivial) <|
      armsTake_cons .string (by cases v <;> decide +kernel) (armTakes (takes_simple rfl) (fun _ _ => trivial) fun _ _ _ _ => trivial) <|
      armsTake_cons .string (by cases v <;> decide +kernel) (armTakes (takes_simple rfl) (fun _ _ => trivial) fun _ _ _ _ => trivial) <|
      armsTake_cons .boolean (by cases v <;> decide +kernel) (armTakes (takes_bool rfl) (fun _ _ => trivial) fun _ _ _ _ => trivial) <|
      armsTake_cons .boolean (by cases v <;> decide +kernel) (armTakes (takes_bool rfl) (fun _ _ => trivial) fun _ _ _ _ => trivial) <|
      armsTake_cons .properties (by cases v <;> decide +kernel) (armTakes (takes_list (t' := .property) rfl (by cases v <;> rfl) (Property.takes H)) (fun _ _ => trivial) fun _ _ _ _ => trivial) <|
      armsTake_nil)
    rfl (by cases v <;> decide +kernel)
    (fun _ _ _ _ => ⟨_, rfl⟩)

theorem Workspace.takes (H : DecimalsParse) : Takes v d Workspace.readXml .workspace := 
  takes_struct ["uid", "name", "aliases", "description", "resourceReferences", "accessMode", "mountPath", "managedDataType", "volumeRequest", "volume", "properties"] rfl (fun m (s : Workspace.Vars) => (m = "uid" → s.uid.isSome = true)) (fun el attrs h => by
      obtain ⟨s0, h0⟩ := h.req el "bom-ref" (by cases v <;> decide +kernel)
      simp [h0, bind, Except.bind])
    (armsTake_cons .string (by cases v <;> decide +kernel) (armTakes (takes_simple rfl) (by has_set) (by has_keep)) <|
      armsTake_cons .string (by cases v <;> decide +kernel) (armTakes (takes_simple rfl) (by has_set) (by has_keep)) <|
      armsTake_cons .aliases (by cases v <;> decide +kernel) (armTakes (takes_list (t' := .string) rfl (by cases v <;> rfl) (takes_simple rfl)) (by has_set) (by has_keep)) <|
      armsTake_cons .string (by cases v <;> decide +kernel) (armTakes (takes_simple rfl) (by has_set) (by has_keep)) <|
      armsTake_cons .resourceReferences (by cases v <;> decide +kernel) (armTakes (takes_list (t' := .resourceReference) rfl (by cases v <;> rfl) (ResourceReference.takes H)) (by has_set) (by has_keep)) <|
      armsTake_cons .string (by cases v <;> decide +kernel) (armTakes (takes_map (takes_simple rfl) _) (by has_set) (by has_keep)) <|
      armsTake_cons .string (by cases v <;> decide +kernel) (armTakes (takes_simple rfl) (by has_set) (by has_keep)) <|
      armsTake_cons .string (by cases v <;> decide +kernel) (armTakes (takes_simple rfl) (by has_set) (by has_keep)) <|
      armsTake_cons .string (by cases v <;> decide +kernel) (armTakes (takes_simple rfl) (by has_set) (by has_keep)) <|
      armsTake_cons .volume (by cases v <;> decide +kernel) (armTakes (Volume.takes H) (by has_set) (by has_keep)) <|
      armsTake_cons .properties (by cases v <;> decide +kernel) (armTakes (takes_list (t' := .property) rfl (by cases v <;> rfl) (Property.takes H)) (by has_set) (by has_keep)) <|
      armsTake_nil)
    rfl (by cases v <;> decide +kernel)
    (fun el p st h => by
      have g0 := seen_one (v := v) (t := .workspace) (st := st) (Has := fun m (s : Workspace.Vars) => (m = "uid" → s.uid.isSome = true)) "uid" (by cases v <;> decide +kernel) h
      obtain ⟨x0, e0⟩ := Option.isSome_iff_exists.mp (g0 rfl)
      simp [Cdx.required, e0, bind, Except.bind])

theorem WorkflowTask.takes (H : DecimalsParse) : Takes v d WorkflowTask.readXml .task := 
  takes_struct ["uid", "name", "description", "resourceReferences", "taskTypes", "trigger", "steps", "inputs", "outputs", "timeStart", "timeEnd", "workspaces", "runtimeTopology", "properties"] rfl (fun m (s : WorkflowTask.Vars) => (m = "uid" → s.uid.isSome = true) ∧ (m = "taskTypes" → s.taskTypes.isSome = true)) (fun el attrs h => by
      obtain ⟨s0, h0⟩ := h.req el "bom-ref" (by cases v <;> decide +kernel)
      simp [h0, bind, Except.bind])
    (armsTake_cons .string (by cases v <;> decide +kernel) (armTakes (takes_simple rfl) (by has_set) (by has_keep)) <|
      armsTake_cons .string (by cases v <;> decide +kernel) (armTakes (takes_simple rfl) (by has_set) (by has_keep)) <|
      armsTake_cons .string (by cases v <;> decide +kernel) (armTakes (takes_simple rfl) (by has_set) (by has_keep)) <|
      armsTake_cons .resourceReferences (by cases v <;> decide +kernel) (armTakes (takes_list (t' := .resourceReference) rfl (by cases v <;> rfl) (ResourceReference.takes H)) (by has_set) (by has_keep)) <|
      armsTake_cons .taskTypes (by cases v <;> decide +kernel) (armTakes (takes_list (t' := .string) rfl (by cases v <;> rfl) (takes_map (takes_simple rfl) _)) (by has_set) (by has_keep)) <|
      armsTake_cons .trigger (by cases v <;> decide +kernel) (armTakes (Trigger.takes H) (by has_set) (by has_keep)) <|
      armsTake_cons .steps (by cases v <;> decide +kernel) (armTakes (takes_list (t' := .step) rfl (by cases v <;> rfl) (Step.takes H)) (by has_set) (by has_keep)) <|
      armsTake_cons .inputs (by cases v <;> decide +kernel) (armTakes (takes_list (t' := .input) rfl (by cases v <;> rfl) (Input.takes H)) (by has_set) (by has_keep)) <|
      armsTake_cons .outputs (by cases v <;> decide +kernel) (armTakes (takes_list (t' := .output) rfl (by cases v <;> rfl) (Output.takes H)) (by has_set) (by has_keep)) <|
      armsTake_cons .string (by cases v <;> decide +kernel) (armTakes (takes_simple rfl) (by has_set) (by has_keep)) <|
      armsTake_cons .string (by cases v <;> decide +kernel) (armTakes (takes_simple rfl) (by has_set) (by has_keep)) <|
      armsTake_cons .workspaces (by cases v <;> decide +kernel) (armTakes (takes_list (t' := .workspace) rfl (by cases v <;> rfl) (Workspace.takes H)) (by has_set) (by has_keep)) <|
      armsTake_cons .dependencies (by cases v <;> decide +kernel) (armTakes (takes_list (t' := .dependency) rfl (by cases v <;> rfl) (Dependency.takes H)) (by has_set) (by has_keep)) <|
      armsTake_cons .properties (by cases v <;> decide +kernel) (armTakes (takes_list (t' := .property) rfl (by cases v <;> rfl) (Property.takes H)) (by has_set) (by has_keep)) <|
      armsTake_nil)
    rfl (by cases v <;> decide +kernel)
    (fun el p st h => by
      have g0 := seen_one (v := v) (t := .task) (st := st) (Has := fun m (s : WorkflowTask.Vars) => (m = "uid" → s.uid.isSome = true) ∧ (m = "taskTypes" → s.taskTypes.isSome = true)) "uid" (by cases v <;> decide +kernel) h
      obtain ⟨x0, e0⟩ := Option.isSome_iff_exists.mp (g0.1 rfl)
      have g1 := seen_one (v := v) (t := .task) (st := st) (Has := fun m (s : WorkflowTask.Vars) => (m = "uid" → s.uid.isSome = true) ∧ (m = "taskTypes" → s.taskTypes.isSome = true)) "taskTypes" (by cases v <;> decide +kernel) h
      obtain ⟨x1, e1⟩ := Option.isSome_iff_exists.mp (g1.2 rfl)
      simp [Cdx.required, e0, e1, bind, Except.bind])

theorem Workflow.takes (H : DecimalsParse) : Takes v d Workflow.readXml .workflow := 
  takes_struct ["uid", "name", "description", "resourceReferences", "tasks", "taskDependencies", "taskTypes", "trigger", "steps", "inputs", "outputs", "timeStart", "timeEnd", "workspaces", "runtimeTopology", "properties"] rfl (fun m (s : Workflow.Vars) => (m = "uid" → s.uid.isSome = true) ∧ (m = "taskTypes" → s.taskTypes.isSome = true)) (fun el attrs h => by
      obtain ⟨s0, h0⟩ := h.req el "bom-ref" (by cases v <;> decide +kernel)
      simp [h0, bind, Except.bind])
    (armsTake_cons .string (by cases v <;> decide +kernel) (armTakes (takes_simple rfl) (by has_set) (by has_keep)) <|
      armsTake_cons .string (by cases v <;> decide +kernel) (armTakes (takes_simple rfl) (by has_set) (by has_keep)) <|
      armsTake_cons .string (by cases v <;> decide +kernel) (armTakes (takes_simple rfl) (by has_set) (by has_keep)) <|
      armsTake_cons .resourceReferences (by cases v <;> decide +kernel) (armTakes (takes_list (t' := .resourceReference) rfl (by cases v <;> rfl) (ResourceReference.takes H)) (by has_set) (by has_keep)) <|
      armsTake_cons .tasks (by cases v <;> decide +kernel) (armTakes (takes_list (t' := .task) rfl (by cases v <;> rfl) (WorkflowTask.takes H)) (by has_set) (by has_keep)) <|
      armsTake_cons .dependencies (by cases v <;> decide +kernel) (armTakes (takes_list (t' := .dependency) rfl (by cases v <;> rfl) (Dependency.takes H)) (by has_set) (by has_keep)) <|
      armsTake_cons .taskTypes (by cases v <;> decide +kernel) (armTakes (takes_list (t' := .string) rfl (by cases v <;> rfl) (takes_map (takes_simple rfl) _)) (by has_set) (by has_keep)) <|
      armsTake_cons .trigger (by cases v <;> decide +kernel) (armTakes (Trigger.takes H) (by has_set) (by has_keep)) <|
      armsTake_cons .steps (by cases v <;> decide +kernel) (armTakes (takes_list (t' := .step) rfl (by cases v <;> rfl) (Step.takes H)) (by has_set) (by has_keep)) <|
      armsTake_cons .inputs (by cases v <;> decide +kernel) (armTakes (takes_list (t' := .input) rfl (by cases v <;> rfl) (Input.takes H)) (by has_set) (by has_keep)) <|
      armsTake_cons .outputs (by cases v <;> decide +kernel) (armTakes (takes_list (t' := .output) rfl (by cases v <;> rfl) (Output.takes H)) (by has_set) (by has_keep)) <|
      armsTake_cons .string (by cases v <;> decide +kernel) (armTakes (takes_simple rfl) (by has_set) (by has_keep)) <|
      armsTake_cons .string (by cases v <;> decide +kernel) (armTakes (takes_simple rfl) (by has_set) (by has_keep)) <|
      armsTake_cons .workspaces (by cases v <;> decide +kernel) (armTakes (takes_list (t' := .workspace) rfl (by cases v <;> rfl) (Workspace.takes H)) (by has_set) (by has_keep)) <|
      armsTake_cons .dependencies (by cases v <;> decide +kernel) (armTakes (takes_list (t' := .dependency) rfl (by cases v <;> rfl) (Dependency.takes H)) (by has_set) (by has_keep)) <|
      armsTake_cons .properties (by cases v <;> decide +kernel) (armTakes (takes_list (t' := .property) rfl (by cases v <;> rfl) (Property.takes H)) (by has_set) (by has_keep)) <|
      armsTake_nil)
    rfl (by cases v <;> decide +kernel)
    (fun el p st h => by
      have g0 := seen_one (v := v) (t := .workflow) (st := st) (Has := fun m (s : Workflow.Vars) => (m = "uid" → s.uid.isSome = true) ∧ (m = "taskTypes" → s.taskTypes.isSome = true)) "uid" (by cases v <;> decide +kernel) h
      obtain ⟨x0, e0⟩ := Option.isSome_iff_exists.mp (g0.1 rfl)
      have g1 := seen_one (v := v) (t := .workflow) (st := st) (Has := fun m (s : Workflow.Vars) => (m = "uid" → s.uid.isSome = true) ∧ (m = "taskTypes" → s.taskTypes.isSome = true)) "taskTypes" (by cases v <;> decide +kernel) h
      obtain ⟨x1, e1⟩ := Option.isSome_iff_exists.mp (g1.2 rfl)
      simp [Cdx.required, e0, e1, bind, Except.bind])

theorem Formula.takes (H : DecimalsParse) (hd : d ≤ ReadLimit.limit) : Takes v d (Formula.readXml v) .formula := 
  takes_struct ["components", "services", "workflows", "properties"] rfl (fun _ _ => True) (fun _ _ _ => ⟨_, rfl⟩)
    (armsTake_cons .components (by cases v <;> decide +kernel) (armTakes (takes_list (t' := .component) rfl (by cases v <;> rfl) (Component.takes H hd)) (fun _ _ => trivial) fun _ _ _ _ => trivial) <|
      armsTake_cons .services (by cases v <;> decide +kernel) (armTakes (takes_list (t' := .service) rfl (by cases v <;> rfl) (Service.takes H hd)) (fun _ _ => trivial) fun _ _ _ _ => trivial) <|
      armsTake_cons .workflows (by cases v <;> decide +kernel) (armTakes (takes_list (t' := .workflow) rfl (by cases v <;> rfl) (Workflow.takes H)) (fun _ _ => trivial) fun _ _ _ _ => trivial) <|
      armsTake_cons .properties (by cases v <;> decide +kernel) (armTakes (takes_list (t' := .property) rfl (by cases v <;> rfl) (Property.takes H)) (fun _ _ => trivial) fun _ _ _ _ => trivial) <|
      armsTake_nil)
    rfl (by cases v <;> decide +kernel)
    (fun _ _ _ _ => ⟨_, rfl⟩)

end Cdx
