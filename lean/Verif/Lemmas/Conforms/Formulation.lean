import Verif.Lemmas.Conforms.Metadata
import Verif.Lemmas.Conforms.Vulnerability

/-!
# Annotations and formulations conform to the JSON schema
-/

namespace Cdx

open Spec

set_option linter.unusedVariables false
set_option linter.unusedSimpArgs false
set_option maxRecDepth 8000

variable {F : Formats} {v : SpecVersion}

/-- One member out of several that exclude each other. -/
theorem oneOf_required {C : Context} {bs as : List String} {k : String} {l : List (String × Option Json)}
    (hk : ∃ y, (k, some y) ∈ l) (ho : ∀ n ∈ bs ++ as, ∀ y, (n, some y) ∉ l) :
    Valid C (.oneOf (bs.map (fun n => .kw (.required [n])) ++ .kw (.required [k]) ::
      as.map (fun n => .kw (.required [n])))) (Json.mk l) := by
  have hn : ∀ n ∈ bs ++ as, Invalid C (.kw (.required [n])) (Json.mk l) := by
    intro n hn
    refine .kw fun h => ?_
    obtain ⟨y, hy⟩ := holds_required.mp h n (by simp)
    exact ho n hn y hy
  refine .oneOf (.kw ?_) ?_ ?_
  · rw [holds_required]
    simpa using hk
  · rw [List.forall_mem_map]
    exact fun n h => hn n (by simp [h])
  · rw [List.forall_mem_map]
    exact fun n h => hn n (by simp [h])

theorem Annotator.valid {x : Annotator} (h : (Elem.annotator x).Sound F .v1_5) :
    Valid (schemaContext F .v1_5) (.allOf [.kw (.type .object),
      .kw (.closed ["organization", "individual", "component", "service"]),
      .properties [("organization", .ref "organizationalEntity"),
      ("individual", .ref "organizationalContact"),
      ("component", .ref "component"),
      ("service", .ref "service")],
      .oneOf [.kw (.required ["organization"]),
      .kw (.required ["individual"]),
      .kw (.required ["component"]),
      .kw (.required ["service"])]]) (Annotator.toJson .v1_5 x) := by
  cases x with
  | organization y =>
    have h := (sound_annotator_organization.mp h).2
    sound_simp at h
    have he : Annotator.toJson .v1_5 (.organization y) = Json.mk [("organization", some (OrganizationalEntity.toJson y))] := rfl
    have ho : Valid (schemaContext F .v1_5) (.oneOf [.kw (.required ["organization"]), .kw (.required ["individual"]), .kw (.required ["component"]), .kw (.required ["service"])]) (Json.mk [("organization", some (OrganizationalEntity.toJson y))]) :=
      oneOf_required (bs := []) (k := "organization") (as := ["individual", "component", "service"]) (by simp) (by simp)
    schema_simp [he]
    exact ⟨OrganizationalEntity.fits h, ho⟩
  | individual y =>
    have h := (sound_annotator_individual.mp h).2
    sound_simp at h
    have he : Annotator.toJson .v1_5 (.individual y) = Json.mk [("individual", some (OrganizationalContact.toJson y))] := rfl
    have ho : Valid (schemaContext F .v1_5) (.oneOf [.kw (.required ["organization"]), .kw (.required ["individual"]), .kw (.required ["component"]), .kw (.required ["service"])]) (Json.mk [("individual", some (OrganizationalContact.toJson y))]) :=
      oneOf_required (bs := ["organization"]) (k := "individual") (as := ["component", "service"]) (by simp) (by simp)
    schema_simp [he]
    exact ⟨OrganizationalContact.fits h, ho⟩
  | component y =>
    have h := (sound_annotator_component.mp h).2
    sound_simp at h
    have he : Annotator.toJson .v1_5 (.component y) = Json.mk [("component", some (Component.toJson .v1_5 y))] := rfl
    have ho : Valid (schemaContext F .v1_5) (.oneOf [.kw (.required ["organization"]), .kw (.required ["individual"]), .kw (.required ["component"]), .kw (.required ["service"])]) (Json.mk [("component", some (Component.toJson .v1_5 y))]) :=
      oneOf_required (bs := ["organization", "individual"]) (k := "component") (as := ["service"]) (by simp) (by simp)
    schema_simp [he]
    exact ⟨Component.fits h, ho⟩
  | service y =>
    have h := (sound_annotator_service.mp h).2
    sound_simp at h
    have he : Annotator.toJson .v1_5 (.service y) = Json.mk [("service", some (Service.toJson .v1_5 y))] := rfl
    have ho : Valid (schemaContext F .v1_5) (.oneOf [.kw (.required ["organization"]), .kw (.required ["individual"]), .kw (.required ["component"]), .kw (.required ["service"])]) (Json.mk [("service", some (Service.toJson .v1_5 y))]) :=
      oneOf_required (bs := ["organization", "individual", "component"]) (k := "service") (as := []) (by simp) (by simp)
    schema_simp [he]
    exact ⟨Service.fits h, ho⟩

@[schema_fits]
theorem Annotation.fits {x : Annotation} (h : (Elem.annotation x).Sound F .v1_5) :
    Fits F .v1_5 "annotations" (Annotation.toJson .v1_5 x) := by
  have h := sound_annotation.mp h
  sound_all [] at h
  have ha := Annotator.valid (x := x.annotator) (by casesm* _ ∧ _; solve_by_elim)
  refine fits_ref (s := Schema15.annotations) rfl ?_
  rw [Schema15.annotations, Annotation.toJson]
  generalize Annotator.toJson .v1_5 x.annotator = j at ha ⊢
  schema_simp []
  rw [valid_allOf] at ha
  sound_simp at ha
  simp only [valid_kw, schemaContext_format] at ha
  fits_close h

@[schema_fits]
theorem ResourceReference.fits {x : ResourceReference} (h : (Elem.resourceReference x).Sound F .v1_5) :
    Fits F .v1_5 "resourceReferenceChoice" x.toJson := by
  refine fits_ref (s := Schema15.resourceReferenceChoice) rfl ?_
  cases x with
  | ref r =>
    have h := (sound_resourceReference_ref.mp h).1 r rfl
    have ho : Valid (schemaContext F .v1_5) (.oneOf [.kw (.required ["ref"]), .kw (.required ["externalReference"])])
        (Json.mk [("ref", some (.str r))]) := oneOf_required (bs := []) (k := "ref") (as := ["externalReference"]) (by simp) (by simp)
    schema_simp [Schema15.resourceReferenceChoice, ResourceReference.toJson, ResourceReference.toFields]
    fits_close h
  | externalReference y =>
    have h := (sound_resourceReference_externalReference.mp h).2
    sound_simp at h
    have ho : Valid (schemaContext F .v1_5) (.oneOf [.kw (.required ["ref"]), .kw (.required ["externalReference"])])
        (Json.mk [("externalReference", some y.toJson)]) := oneOf_required (bs := ["ref"]) (k := "externalReference") (as := []) (by simp) (by simp)
    schema_simp [Schema15.resourceReferenceChoice, ResourceReference.toJson, ResourceReference.toFields]
    fits_close h

@[schema_fits]
theorem EnvironmentVar.valid {x : EnvironmentVar} :
    Valid (schemaContext F .v1_5) (.oneOf [.ref "property", .kw (.type .string)]) x.toJson := by
  cases x with
  | property n w =>
    exact valid_oneOf_two.mpr (.inl ⟨Property.fits (x := ⟨n, w⟩), .kw (by simp [EnvironmentVar.toJson, Json.mk, Keyword.Holds, HasType])⟩)
  | value w =>
    refine valid_oneOf_two.mpr (.inr ⟨.ref (s := Schema15.property) rfl (.allOf (.head _) (.kw ?_)), .kw trivial⟩)
    exact fun h => h

@[schema_fits]
theorem Parameter.fits {x : Parameter} : Fits F .v1_5 "parameter" x.toJson := by
  refine fits_ref (s := Schema15.parameter) rfl ?_
  schema_simp [Schema15.parameter, Parameter.toJson]

@[schema_fits]
theorem OutputType.named {x : OutputType} (h : (Elem.outputType x).Sound F v) :
    OneOf ["artifact", "attestation", "log", "evidence", "metrics", "other"] x.display := by
  have h := (sound_outputType.mp h).1
  enum_close h x [OutputType.display]

@[schema_fits]
theorem TriggerType.named {x : TriggerType} (h : (Elem.triggerType x).Sound F v) :
    OneOf ["manual", "api", "webhook", "scheduled"] x.display := by
  have h := (sound_triggerType.mp h).1
  enum_close h x [TriggerType.display]

@[schema_fits]
theorem VolumeMode.named {x : VolumeMode} (h : (Elem.volumeMode x).Sound F v) :
    OneOf ["filesystem", "block"] x.display := by
  have h := (sound_volumeMode.mp h).1
  enum_close h x [VolumeMode.display]

@[schema_fits]
theorem AccessMode.named {x : AccessMode} (h : (Elem.accessMode x).Sound F v) :
    OneOf ["read-only", "read-write", "read-write-once", "write-once", "write-only"] x.display := by
  have h := (sound_accessMode.mp h).1
  enum_close h x [AccessMode.display]

@[schema_fits]
theorem TaskType.fits {x : TaskType} (h : (Elem.taskType x).Sound F .v1_5) :
    Fits F .v1_5 "taskType" (.str x.display) := by
  have h := (sound_taskType.mp h).1
  refine fits_ref (s := Schema15.taskType) rfl ?_
  schema_simp [Schema15.taskType]
  enum_close h x [TaskType.display]

set_option maxHeartbeats 1000000 in
@[schema_fits]
theorem Input.fits {x : Input} (h : (Elem.input x).Sound F .v1_5) :
    Fits F .v1_5 "inputType" x.toJson := by
  have hr := rule_of_sound h
  have h := (sound_input.mp h).2
  sound_simp at h
  refine fits_ref (s := Schema15.inputType) rfl ?_
  cases hx : x.required with
  | resource y =>
    simp only [Elem.schemaRule, hx] at hr
    rw [hx, inputParts] at h
    have ho : Valid (schemaContext F .v1_5) (.oneOf [.kw (.required ["resource"]), .kw (.required ["parameters"]), .kw (.required ["environmentVars"]), .kw (.required ["data"])])
        (Json.mk [("resource", some (ResourceReference.toJson y)),
          ("source", x.source.map ResourceReference.toJson),
          ("target", x.target.map ResourceReference.toJson),
          ("properties", x.properties.map (Json.ofList Property.toJson))]) :=
      oneOf_required (bs := []) (k := "resource") (as := ["parameters", "environmentVars", "data"]) (by simp) (by simp)
    schema_simp [Schema15.inputType, Input.toJson, RequiredInputField.toFields, hx, List.cons_append, List.nil_append]
    fits_close h
  | parameters y =>
    simp only [Elem.schemaRule, hx] at hr
    rw [hx, inputParts] at h
    have ho : Valid (schemaContext F .v1_5) (.oneOf [.kw (.required ["resource"]), .kw (.required ["parameters"]), .kw (.required ["environmentVars"]), .kw (.required ["data"])])
        (Json.mk [("parameters", some (Json.ofList Parameter.toJson y)),
          ("source", x.source.map ResourceReference.toJson),
          ("target", x.target.map ResourceReference.toJson),
          ("properties", x.properties.map (Json.ofList Property.toJson))]) :=
      oneOf_required (bs := ["resource"]) (k := "parameters") (as := ["environmentVars", "data"]) (by simp) (by simp)
    schema_simp [Schema15.inputType, Input.toJson, RequiredInputField.toFields, hx, List.cons_append, List.nil_append]
    fits_close h
  | environmentVars y =>
    simp only [Elem.schemaRule, hx] at hr
    rw [hx, inputParts] at h
    have ho : Valid (schemaContext F .v1_5) (.oneOf [.kw (.required ["resource"]), .kw (.required ["parameters"]), .kw (.required ["environmentVars"]), .kw (.required ["data"])])
        (Json.mk [("environmentVars", some (Json.ofList EnvironmentVar.toJson y)),
          ("source", x.source.map ResourceReference.toJson),
          ("target", x.target.map ResourceReference.toJson),
          ("properties", x.properties.map (Json.ofList Property.toJson))]) :=
      oneOf_required (bs := ["resource", "parameters"]) (k := "environmentVars") (as := ["data"]) (by simp) (by simp)
    schema_simp [Schema15.inputType, Input.toJson, RequiredInputField.toFields, hx, List.cons_append, List.nil_append]
    fits_close h
  | data y =>
    simp only [Elem.schemaRule, hx] at hr
    rw [hx, inputParts] at h
    have ho : Valid (schemaContext F .v1_5) (.oneOf [.kw (.required ["resource"]), .kw (.required ["parameters"]), .kw (.required ["environmentVars"]), .kw (.required ["data"])])
        (Json.mk [("data", some (Attachment.toJson y)),
          ("source", x.source.map ResourceReference.toJson),
          ("target", x.target.map ResourceReference.toJson),
          ("properties", x.properties.map (Json.ofList Property.toJson))]) :=
      oneOf_required (bs := ["resource", "parameters", "environmentVars"]) (k := "data") (as := []) (by simp) (by simp)
    schema_simp [Schema15.inputType, Input.toJson, RequiredInputField.toFields, hx, List.cons_append, List.nil_append]
    fits_close h

set_option maxHeartbeats 1000000 in
@[schema_fits]
theorem Output.fits {x : Output} (h : (Elem.output x).Sound F .v1_5) :
    Fits F .v1_5 "outputType" x.toJson := by
  have hr := rule_of_sound h
  have h := (sound_output.mp h).2
  sound_simp at h
  refine fits_ref (s := Schema15.outputType) rfl ?_
  cases hx : x.required with
  | resource y =>
    simp only [Elem.schemaRule, hx] at hr
    rw [hx, outputParts] at h
    have ho : Valid (schemaContext F .v1_5) (.oneOf [.kw (.required ["resource"]), .kw (.required ["environmentVars"]), .kw (.required ["data"])])
        (Json.mk [("resource", some (ResourceReference.toJson y)),
          ("type", x.type.map (Json.ofEnum OutputType.display)),
          ("source", x.source.map ResourceReference.toJson),
          ("target", x.target.map ResourceReference.toJson),
          ("properties", x.properties.map (Json.ofList Property.toJson))]) :=
      oneOf_required (bs := []) (k := "resource") (as := ["environmentVars", "data"]) (by simp) (by simp)
    schema_simp [Schema15.outputType, Output.toJson, RequiredOutputField.toFields, hx, List.cons_append, List.nil_append]
    fits_close h
  | environmentVars y =>
    simp only [Elem.schemaRule, hx] at hr
    rw [hx, outputParts] at h
    have ho : Valid (schemaContext F .v1_5) (.oneOf [.kw (.required ["resource"]), .kw (.required ["environmentVars"]), .kw (.required ["data"])])
        (Json.mk [("environmentVars", some (Json.ofList EnvironmentVar.toJson y)),
          ("type", x.type.map (Json.ofEnum OutputType.display)),
          ("source", x.source.map ResourceReference.toJson),
          ("target", x.target.map ResourceReference.toJson),
          ("properties", x.properties.map (Json.ofList Property.toJson))]) :=
      oneOf_required (bs := ["resource"]) (k := "environmentVars") (as := ["data"]) (by simp) (by simp)
    schema_simp [Schema15.outputType, Output.toJson, RequiredOutputField.toFields, hx, List.cons_append, List.nil_append]
    fits_close h
  | data y =>
    simp only [Elem.schemaRule, hx] at hr
    rw [hx, outputParts] at h
    have ho : Valid (schemaContext F .v1_5) (.oneOf [.kw (.required ["resource"]), .kw (.required ["environmentVars"]), .kw (.required ["data"])])
        (Json.mk [("data", some (Attachment.toJson y)),
          ("type", x.type.map (Json.ofEnum OutputType.display)),
          ("source", x.source.map ResourceReference.toJson),
          ("target", x.target.map ResourceReference.toJson),
          ("properties", x.properties.map (Json.ofList Property.toJson))]) :=
      oneOf_required (bs := ["resource", "environmentVars"]) (k := "data") (as := []) (by simp) (by simp)
    schema_simp [Schema15.outputType, Output.toJson, RequiredOutputField.toFields, hx, List.cons_append, List.nil_append]
    fits_close h

set_option maxHeartbeats 1000000 in
@[schema_fits]
theorem Command.fits {x : Command} (h : (Elem.command x).Sound F .v1_5) :
    Fits F .v1_5 "command" (Command.toJson x) := by
  have h := sound_command.mp h
  refine fits_ref (s := Schema15.command) rfl ?_
  schema_simp [Schema15.command, Command.toJson]
  fits_close h

set_option maxHeartbeats 1000000 in
@[schema_fits]
theorem Step.fits {x : Cdx.Step} (h : (Elem.step x).Sound F .v1_5) :
    Fits F .v1_5 "step" (Cdx.Step.toJson x) := by
  have h := sound_step.mp h
  refine fits_ref (s := Schema15.step) rfl ?_
  schema_simp [Schema15.step, Cdx.Step.toJson]
  fits_close h

set_option maxHeartbeats 1000000 in
@[schema_fits]
theorem TriggerEvent.fits {x : TriggerEvent} (h : (Elem.triggerEvent x).Sound F .v1_5) :
    Fits F .v1_5 "event" (TriggerEvent.toJson x) := by
  have h := sound_triggerEvent.mp h
  refine fits_ref (s := Schema15.event) rfl ?_
  schema_simp [Schema15.event, TriggerEvent.toJson]
  fits_close h

set_option maxHeartbeats 1000000 in
@[schema_fits]
theorem Condition.fits {x : Condition} (h : (Elem.condition x).Sound F .v1_5) :
    Fits F .v1_5 "condition" (Condition.toJson x) := by
  have h := sound_condition.mp h
  refine fits_ref (s := Schema15.condition) rfl ?_
  schema_simp [Schema15.condition, Condition.toJson]
  fits_close h

set_option maxHeartbeats 1000000 in
@[schema_fits]
theorem Trigger.fits {x : Trigger} (h : (Elem.trigger x).Sound F .v1_5) :
    Fits F .v1_5 "trigger" (Trigger.toJson x) := by
  have h := sound_trigger.mp h
  refine fits_ref (s := Schema15.trigger) rfl ?_
  schema_simp [Schema15.trigger, Trigger.toJson]
  fits_close h

set_option maxHeartbeats 1000000 in
@[schema_fits]
theorem Volume.fits {x : Volume} (h : (Elem.volume x).Sound F .v1_5) :
    Fits F .v1_5 "volume" (Volume.toJson x) := by
  have h := sound_volume.mp h
  refine fits_ref (s := Schema15.volume) rfl ?_
  schema_simp [Schema15.volume, Volume.toJson]
  fits_close h

set_option maxHeartbeats 1000000 in
@[schema_fits]
theorem Workspace.fits {x : Workspace} (h : (Elem.workspace x).Sound F .v1_5) :
    Fits F .v1_5 "workspace" (Workspace.toJson x) := by
  have h := sound_workspace.mp h
  refine fits_ref (s := Schema15.workspace) rfl ?_
  schema_simp [Schema15.workspace, Workspace.toJson]
  fits_close h

set_option maxHeartbeats 1000000 in
@[schema_fits]
theorem WorkflowTask.fits {x : WorkflowTask} (h : (Elem.workflowTask x).Sound F .v1_5) :
    Fits F .v1_5 "task" (WorkflowTask.toJson x) := by
  have h := sound_workflowTask.mp h
  refine fits_ref (s := Schema15.task) rfl ?_
  schema_simp [Schema15.task, WorkflowTask.toJson]
  fits_close h

set_option maxHeartbeats 1000000 in
@[schema_fits]
theorem Workflow.fits {x : Workflow} (h : (Elem.workflow x).Sound F .v1_5) :
    Fits F .v1_5 "workflow" (Workflow.toJson x) := by
  have h := sound_workflow.mp h
  refine fits_ref (s := Schema15.workflow) rfl ?_
  schema_simp [Schema15.workflow, Workflow.toJson]
  fits_close h

@[schema_fits]
theorem Formula.fits {x : Formula} (h : (Elem.formula x).Sound F .v1_5) :
    Fits F .v1_5 "formula" (Formula.toJson .v1_5 x) := by
  have h := sound_formula.mp h
  refine fits_ref (s := Schema15.formula) rfl ?_
  schema_simp [Schema15.formula, Formula.toJson]
  fits_close h

end Cdx
