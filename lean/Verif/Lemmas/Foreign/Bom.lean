import Verif.Lemmas.Foreign.Component

set_option linter.unusedSectionVars false
set_option linter.unusedVariables false

/-!
# Foreign elements: formulation and documents

Generated by a script from the arms of the readers and the table of the format.
-/

namespace Cdx.Foreign

open Cdx.Spec

variable {v : SpecVersion} [F32Format] [ReadLimit]

theorem ResourceReference.blind {tag : String} : Blind v .resourceReference tag ResourceReference.readXml :=
  struct_fail
    (.cons .string (by cases v <;> decide +kernel) (arm (leaf_text readSimple_local rfl (by decide +kernel))) <|
      .cons .externalReference (by cases v <;> decide +kernel) (arm ExternalReference.blind) <|
      .nil) (by decide +kernel)

theorem Parameter.blind {tag : String} : Blind v .parameter tag Parameter.readXml :=
  struct_fail
    (.cons .string (by cases v <;> decide +kernel) (arm (leaf_text readSimple_local rfl (by decide +kernel))) <|
      .cons .string (by cases v <;> decide +kernel) (arm (leaf_text readSimple_local rfl (by decide +kernel))) <|
      .cons .string (by cases v <;> decide +kernel) (arm (leaf_text readSimple_local rfl (by decide +kernel))) <|
      .nil) (by decide +kernel)

theorem EnvironmentVar.blind {tag : String} : Blind v .environmentVars tag EnvironmentVar.readAll :=
  struct_skip
    (.cons .property (by cases v <;> decide +kernel) (arm (leaf_text (bind_local readSimple_local fun el attrs s =>
        (reqAttr el attrs "name").map fun n => EnvironmentVar.property n s) rfl (by decide +kernel))) <|
      .cons .string (by cases v <;> decide +kernel) (arm (leaf_text readSimple_local rfl (by decide +kernel))) .nil)

theorem Input.blind {tag : String} : Blind v .input tag Input.readXml :=
  struct_fail
    (.cons .resourceReference (by cases v <;> decide +kernel) (arm ResourceReference.blind) <|
      .cons .environmentVars (by cases v <;> decide +kernel) (arm EnvironmentVar.blind) <|
      .cons .attachment (by cases v <;> decide +kernel) (arm (leaf_text (Attachment.xml_local (by decide)) rfl (by decide +kernel))) <|
      .cons .resourceReference (by cases v <;> decide +kernel) (arm ResourceReference.blind) <|
      .cons .resourceReference (by cases v <;> decide +kernel) (arm ResourceReference.blind) <|
      .cons .properties (by cases v <;> decide +kernel) (arm (list_skip (t' := .property) (by cases v <;> decide +kernel) (leaf_text Property.xml_local rfl (by decide +kernel)))) <|
      .nil) (by decide +kernel)

theorem Output.blind {tag : String} : Blind v .output tag Output.readXml :=
  struct_fail
    (.cons .resourceReference (by cases v <;> decide +kernel) (arm ResourceReference.blind) <|
      .cons .environmentVars (by cases v <;> decide +kernel) (arm EnvironmentVar.blind) <|
      .cons .attachment (by cases v <;> decide +kernel) (arm (leaf_text (Attachment.xml_local (by decide)) rfl (by decide +kernel))) <|
      .cons .string (by cases v <;> decide +kernel) (arm (leaf_text (map_local readSimple_local _) rfl (by decide +kernel))) <|
      .cons .resourceReference (by cases v <;> decide +kernel) (arm ResourceReference.blind) <|
      .cons .resourceReference (by cases v <;> decide +kernel) (arm ResourceReference.blind) <|
      .cons .properties (by cases v <;> decide +kernel) (arm (list_skip (t' := .property) (by cases v <;> decide +kernel) (leaf_text Property.xml_local rfl (by decide +kernel)))) <|
      .nil) (by decide +kernel)

theorem Command.blind {tag : String} : Blind v .command tag Command.readXml :=
  struct_fail
    (.cons .string (by cases v <;> decide +kernel) (arm (leaf_text readSimple_local rfl (by decide +kernel))) <|
      .cons .properties (by cases v <;> decide +kernel) (arm (list_skip (t' := .property) (by cases v <;> decide +kernel) (leaf_text Property.xml_local rfl (by decide +kernel)))) <|
      .nil) (by decide +kernel)

theorem Step.blind {tag : String} : Blind v .step tag Step.readXml :=
  struct_skip
    (.cons .commands (by cases v <;> decide +kernel) (arm (list_fail (t' := .command) (by cases v <;> decide +kernel) Command.blind (by decide +kernel))) <|
      .cons .string (by cases v <;> decide +kernel) (arm (leaf_text readSimple_local rfl (by decide +kernel))) <|
      .cons .string (by cases v <;> decide +kernel) (arm (leaf_text readSimple_local rfl (by decide +kernel))) <|
      .cons .properties (by cases v <;> decide +kernel) (arm (list_skip (t' := .property) (by cases v <;> decide +kernel) (leaf_text Property.xml_local rfl (by decide +kernel)))) <|
      .nil)

theorem TriggerEvent.blind {tag : String} : Blind v .event tag TriggerEvent.readXml :=
  struct_skip
    (.cons .string (by cases v <;> decide +kernel) (arm (leaf_text readSimple_local rfl (by decide +kernel))) <|
      .cons .string (by cases v <;> decide +kernel) (arm (leaf_text readSimple_local rfl (by decide +kernel))) <|
      .cons .string (by cases v <;> decide +kernel) (arm (leaf_text readSimple_local rfl (by decide +kernel))) <|
      .cons .attachment (by cases v <;> decide +kernel) (arm (leaf_text (Attachment.xml_local (by decide)) rfl (by decide +kernel))) <|
      .cons .resourceReference (by cases v <;> decide +kernel) (arm ResourceReference.blind) <|
      .cons .resourceReference (by cases v <;> decide +kernel) (arm ResourceReference.blind) <|
      .cons .properties (by cases v <;> decide +kernel) (arm (list_skip (t' := .property) (by cases v <;> decide +kernel) (leaf_text Property.xml_local rfl (by decide +kernel)))) <|
      .nil)

theorem Condition.blind {tag : String} : Blind v .condition tag Condition.readXml :=
  struct_fail
    (.cons .string (by cases v <;> decide +kernel) (arm (leaf_text readSimple_local rfl (by decide +kernel))) <|
      .cons .string (by cases v <;> decide +kernel) (arm (leaf_text readSimple_local rfl (by decide +kernel))) <|
      .cons .properties (by cases v <;> decide +kernel) (arm (list_skip (t' := .property) (by cases v <;> decide +kernel) (leaf_text Property.xml_local rfl (by decide +kernel)))) <|
      .nil) (by decide +kernel)

theorem Trigger.blind {tag : String} : Blind v .trigger tag Trigger.readXml :=
  struct_skip
    (.cons .string (by cases v <;> decide +kernel) (arm (leaf_text readSimple_local rfl (by decide +kernel))) <|
      .cons .string (by cases v <;> decide +kernel) (arm (leaf_text readSimple_local rfl (by decide +kernel))) <|
      .cons .string (by cases v <;> decide +kernel) (arm (leaf_text readSimple_local rfl (by decide +kernel))) <|
      .cons .resourceReferences (by cases v <;> decide +kernel) (arm (list_skip (t' := .resourceReference) (by cases v <;> decide +kernel) ResourceReference.blind)) <|
      .cons .string (by cases v <;> decide +kernel) (arm (leaf_text (map_local readSimple_local _) rfl (by decide +kernel))) <|
      .cons .event (by cases v <;> decide +kernel) (arm TriggerEvent.blind) <|
      .cons .conditions (by cases v <;> decide +kernel) (arm (list_fail (t' := .condition) (by cases v <;> decide +kernel) Condition.blind (by decide +kernel))) <|
      .cons .string (by cases v <;> decide +kernel) (arm (leaf_text readSimple_local rfl (by decide +kernel))) <|
      .cons .inputs (by cases v <;> decide +kernel) (arm (list_fail (t' := .input) (by cases v <;> decide +kernel) Input.blind (by decide +kernel))) <|
      .cons .outputs (by cases v <;> decide +kernel) (arm (list_fail (t' := .output) (by cases v <;> decide +kernel) Output.blind (by decide +kernel))) <|
      .cons .properties (by cases v <;> decide +kernel) (arm (list_skip (t' := .property) (by cases v <;> decide +kernel) (leaf_text Property.xml_local rfl (by decide +kernel)))) <|
      .nil)

theorem Volume.blind {tag : String} : Blind v .volume tag Volume.readXml :=
  struct_skip
    (.cons .string (by cases v <;> decide +kernel) (arm (leaf_text readSimple_local rfl (by decide +kernel))) <|
      .cons .string (by cases v <;> decide +kernel) (arm (leaf_text readSimple_local rfl (by decide +kernel))) <|
      .cons .string (by cases v <;> decide +kernel) (arm (leaf_text (map_local readSimple_local _) rfl (by decide +kernel))) <|
      .cons .string (by cases v <;> decide +kernel) (arm (leaf_text readSimple_local rfl (by decide +kernel))) <|
      .cons .string (by cases v <;> decide +kernel) (arm (leaf_text readSimple_local rfl (by decide +kernel))) <|
      .cons .boolean (by cases v <;> decide +kernel) (arm (leaf_text readBool_local rfl (by decide +kernel))) <|
      .cons .boolean (by cases v <;> decide +kernel) (arm (leaf_text readBool_local rfl (by decide +kernel))) <|
      .cons .properties (by cases v <;> decide +kernel) (arm (list_skip (t' := .property) (by cases v <;> decide +kernel) (leaf_text Property.xml_local rfl (by decide +kernel)))) <|
      .nil)

theorem Workspace.blind {tag : String} : Blind v .workspace tag Workspace.readXml :=
  struct_skip
    (.cons .string (by cases v <;> decide +kernel) (arm (leaf_text readSimple_local rfl (by decide +kernel))) <|
      .cons .string (by cases v <;> decide +kernel) (arm (leaf_text readSimple_local rfl (by decide +kernel))) <|
      .cons .aliases (by cases v <;> decide +kernel) (arm (list_fail (t' := .string) (by cases v <;> decide +kernel) (leaf_text readSimple_local rfl (by decide +kernel)) (by decide +kernel))) <|
      .cons .string (by cases v <;> decide +kernel) (arm (leaf_text readSimple_local rfl (by decide +kernel))) <|
      .cons .resourceReferences (by cases v <;> decide +kernel) (arm (list_skip (t' := .resourceReference) (by cases v <;> decide +kernel) ResourceReference.blind)) <|
      .cons .string (by cases v <;> decide +kernel) (arm (leaf_text (map_local readSimple_local _) rfl (by decide +kernel))) <|
      .cons .string (by cases v <;> decide +kernel) (arm (leaf_text readSimple_local rfl (by decide +kernel))) <|
      .cons .string (by cases v <;> decide +kernel) (arm (leaf_text readSimple_local rfl (by decide +kernel))) <|
      .cons .string (by cases v <;> decide +kernel) (arm (leaf_text readSimple_local rfl (by decide +kernel))) <|
      .cons .volume (by cases v <;> decide +kernel) (arm Volume.blind) <|
      .cons .properties (by cases v <;> decide +kernel) (arm (list_skip (t' := .property) (by cases v <;> decide +kernel) (leaf_text Property.xml_local rfl (by decide +kernel)))) <|
      .nil)

theorem WorkflowTask.blind {tag : String} : Blind v .task tag WorkflowTask.readXml :=
  struct_skip
    (.cons .string (by cases v <;> decide +kernel) (arm (leaf_text readSimple_local rfl (by decide +kernel))) <|
      .cons .string (by cases v <;> decide +kernel) (arm (leaf_text readSimple_local rfl (by decide +kernel))) <|
      .cons .string (by cases v <;> decide +kernel) (arm (leaf_text readSimple_local rfl (by decide +kernel))) <|
      .cons .resourceReferences (by cases v <;> decide +kernel) (arm (list_skip (t' := .resourceReference) (by cases v <;> decide +kernel) ResourceReference.blind)) <|
      .cons .taskTypes (by cases v <;> decide +kernel) (arm (list_fail (t' := .string) (by cases v <;> decide +kernel) (leaf_text (map_local readSimple_local _) rfl (by decide +kernel)) (by decide +kernel))) <|
      .cons .trigger (by cases v <;> decide +kernel) (arm Trigger.blind) <|
      .cons .steps (by cases v <;> decide +kernel) (arm (list_fail (t' := .step) (by cases v <;> decide +kernel) Step.blind (by decide +kernel))) <|
      .cons .inputs (by cases v <;> decide +kernel) (arm (list_fail (t' := .input) (by cases v <;> decide +kernel) Input.blind (by decide +kernel))) <|
      .cons .outputs (by cases v <;> decide +kernel) (arm (list_fail (t' := .output) (by cases v <;> decide +kernel) Output.blind (by decide +kernel))) <|
      .cons .string (by cases v <;> decide +kernel) (arm (leaf_text readSimple_local rfl (by decide +kernel))) <|
      .cons .string (by cases v <;> decide +kernel) (arm (leaf_text readSimple_local rfl (by decide +kernel))) <|
      .cons .workspaces (by cases v <;> decide +kernel) (arm (list_fail (t' := .workspace) (by cases v <;> decide +kernel) Workspace.blind (by decide +kernel))) <|
      .cons .dependencies (by cases v <;> decide +kernel) (arm (list_fail (t' := .dependency) (by cases v <;> decide +kernel) Dependency.blind (by decide +kernel))) <|
      .cons .properties (by cases v <;> decide +kernel) (arm (list_skip (t' := .property) (by cases v <;> decide +kernel) (leaf_text Property.xml_local rfl (by decide +kernel)))) <|
      .nil)

theorem Workflow.blind {tag : String} : Blind v .workflow tag Workflow.readXml :=
  struct_skip
    (.cons .string (by cases v <;> decide +kernel) (arm (leaf_text readSimple_local rfl (by decide +kernel))) <|
      .cons .string (by cases v <;> decide +kernel) (arm (leaf_text readSimple_local rfl (by decide +kernel))) <|
      .cons .string (by cases v <;> decide +kernel) (arm (leaf_text readSimple_local rfl (by decide +kernel))) <|
      .cons .resourceReferences (by cases v <;> decide +kernel) (arm (list_skip (t' := .resourceReference) (by cases v <;> decide +kernel) ResourceReference.blind)) <|
      .cons .tasks (by cases v <;> decide +kernel) (arm (list_fail (t' := .task) (by cases v <;> decide +kernel) WorkflowTask.blind (by decide +kernel))) <|
      .cons .dependencies (by cases v <;> decide +kernel) (arm (list_fail (t' := .dependency) (by cases v <;> decide +kernel) Dependency.blind (by decide +kernel))) <|
      .cons .taskTypes (by cases v <;> decide +kernel) (arm (list_fail (t' := .string) (by cases v <;> decide +kernel) (leaf_text (map_local readSimple_local _) rfl (by decide +kernel)) (by decide +kernel))) <|
      .cons .trigger (by cases v <;> decide +kernel) (arm Trigger.blind) <|
      .cons .steps (by cases v <;> decide +kernel) (arm (list_fail (t' := .step) (by cases v <;> decide +kernel) Step.blind (by decide +kernel))) <|
      .cons .inputs (by cases v <;> decide +kernel) (arm (list_fail (t' := .input) (by cases v <;> decide +kernel) Input.blind (by decide +kernel))) <|
      .cons .outputs (by cases v <;> decide +kernel) (arm (list_fail (t' := .output) (by cases v <;> decide +kernel) Output.blind (by decide +kernel))) <|
      .cons .string (by cases v <;> decide +kernel) (arm (leaf_text readSimple_local rfl (by decide +kernel))) <|
      .cons .string (by cases v <;> decide +kernel) (arm (leaf_text readSimple_local rfl (by decide +kernel))) <|
      .cons .workspaces (by cases v <;> decide +kernel) (arm (list_fail (t' := .workspace) (by cases v <;> decide +kernel) Workspace.blind (by decide +kernel))) <|
      .cons .dependencies (by cases v <;> decide +kernel) (arm (list_fail (t' := .dependency) (by cases v <;> decide +kernel) Dependency.blind (by decide +kernel))) <|
      .cons .properties (by cases v <;> decide +kernel) (arm (list_skip (t' := .property) (by cases v <;> decide +kernel) (leaf_text Property.xml_local rfl (by decide +kernel)))) <|
      .nil)

theorem Formula.blind {tag : String} : Blind v .formula tag (Formula.readXml v) :=
  struct_fail
    (.cons .components (by cases v <;> decide +kernel) (arm (list_skip (t' := .component) (by cases v <;> decide +kernel) Component.blind)) <|
      .cons .services (by cases v <;> decide +kernel) (arm (list_skip (t' := .service) (by cases v <;> decide +kernel) Service.blind)) <|
      .cons .workflows (by cases v <;> decide +kernel) (arm (list_fail (t' := .workflow) (by cases v <;> decide +kernel) Workflow.blind (by decide +kernel))) <|
      .cons .properties (by cases v <;> decide +kernel) (arm (list_skip (t' := .property) (by cases v <;> decide +kernel) (leaf_text Property.xml_local rfl (by decide +kernel)))) <|
      .nil) (by decide +kernel)

theorem Bom.arms_blind : ArmsBlind v .bom (Bom.arms v) :=
    .append (.append (.cons .metadata (by cases v <;> decide +kernel) (arm Metadata.blind) <|
      .cons .components (by cases v <;> decide +kernel) (arm (list_skip (t' := .component) (by cases v <;> decide +kernel) Component.blind)) <|
      .cons .services (by cases v <;> decide +kernel) (arm (list_skip (t' := .service) (by cases v <;> decide +kernel) Service.blind)) <|
      .cons .externalReferences (by cases v <;> decide +kernel) (arm (list_fail (t' := .externalReference) (by cases v <;> decide +kernel) ExternalReference.blind (by decide +kernel))) <|
      .cons .dependencies (by cases v <;> decide +kernel) (arm (list_fail (t' := .dependency) (by cases v <;> decide +kernel) Dependency.blind (by decide +kernel))) <|
      .cons .compositions (by cases v <;> decide +kernel) (arm (list_skip (t' := .composition) (by cases v <;> decide +kernel) Composition.blind)) <|
      .nil) <|
      .since14 <|
      .cons .vulnerabilities (by cases v <;> decide +kernel) (arm (list_skip (t' := .vulnerability) (by cases v <;> decide +kernel) Vulnerability.blind)) <|
      .other (by cases v <;> decide +kernel) (arm_local Signature.xml_local _) <|
      .nil) <|
      .since15 <|
      .cons .properties (by cases v <;> decide +kernel) (arm (list_skip (t' := .property) (by cases v <;> decide +kernel) (leaf_text Property.xml_local rfl (by decide +kernel)))) <|
      .cons .annotations (by cases v <;> decide +kernel) (arm (list_fail (t' := .annotation) (by cases v <;> decide +kernel) Annotation.blind (by decide +kernel))) <|
      .cons .formulation (by cases v <;> decide +kernel) (arm (list_fail (t' := .formula) (by cases v <;> decide +kernel) Formula.blind (by decide +kernel))) <|
      .nil

theorem Bom.same {n : XName} {attrs ns c c'} (ht : XNode.TameAll c) (h : WithForeign v .bom c c') :
    Bom.parseXmlWith v (documentOf (.elem n attrs ns c')) = Bom.parseXmlWith v (documentOf (.elem n attrs ns c)) := by
  have hev : ∀ c, documentOf (.elem n attrs ns c) =
      .startDocument :: .start n attrs ns :: (XNode.eventsAll c ++ .stop n :: [.endDocument]) := by
    intro c
    simp [documentOf, XNode.events]
  have ha : ArmsBlind v .bom (Bom.arms v) := Bom.arms_blind
  have hs : Covers v .skip (Bom.arms v) fun t => t = .bom := by
    rintro _ rfl
    refine ⟨fun _ => nofun, fun name t' hc => ?_⟩
    rcases ha.lookup name with hn | ⟨act, h1, h2⟩
    · exact .inr ⟨hn, nofun⟩
    · exact .inl ⟨act, h1, h2 t' hc⟩
  rw [hev, hev]
  simp only [Bom.parseXmlWith, Bom.readDocument]
  by_cases hn : n.localName = "bom"
  · have hb : Bom.readBody v n (XNode.eventsAll c' ++ .stop n :: [.endDocument]) =
        Bom.readBody v n (XNode.eventsAll c ++ .stop n :: [.endDocument]) :=
      loop_same ha.vocab ha.locals hs h rfl ht {} _ _ _ (by omega) (by omega)
    rw [hb]
  · rw [if_neg hn, if_neg hn]

end Cdx.Foreign
