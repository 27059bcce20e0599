import Verif.Lemmas.XOnly.Vulnerability
import Verif.Lemmas.Format.Formulation

set_option linter.unusedSectionVars false
set_option linter.unusedSimpArgs false
set_option linter.unusedVariables false

/-!
# What has to hold for a value to come back from XML (Formulation)

The converse of `Verif.Lemmas.Format.Formulation`: a value that is read back from the element that was written
for it meets the conditions under which it was shown to be read back.
-/

namespace Cdx

variable [F32Format]

variable [ReadLimit]

theorem ResourceReference.xml_only {ns : Option String} {tag : String} {x : ResourceReference} :
    Tells ns (ResourceReference.writeXml tag x) tag ResourceReference.readXml
      (fun y => y = x → ResourceReference.XmlOk x) := by
  have hn : ["ref", "externalReference"].Nodup := by decide
  cases x with
  | ref y =>
    refine tells_struct ResourceReference.xml_inner_wf rfl ?_
    refine Turns.imp (Turns.one tells_simple (.head _) hn) ?_
    rintro _ ⟨o, rfl, h⟩ e
    exact h (ResourceReference.ref.inj (Except.ok.inj e))
  | externalReference y =>
    refine tells_struct ResourceReference.xml_inner_wf rfl ?_
    exact Turns.unknown ExternalReference.xml_body_wf rfl

theorem EnvironmentVar.property_only {ns : Option String} {n v : String} :
    Tells ns (writeElem "environmentVar" (mkAttrs [("name", some n)]) [.chars v]) "environmentVar"
      EnvironmentVar.readProperty (fun y => y = .property n v → Trimmed v) := by
  have ha : ["name"].Nodup := by decide
  obtain ⟨a, b, hd, hr⟩ := reads_trimmed (ns := ns) (tag := "environmentVar")
    (attrs := mkAttrs [("name", some n)]) (s := v)
  have hA : a = mkAttrs [("name", some n)] := by
    simp only [writeElem, deliver, List.cons.injEq, XEvent.start.injEq] at hd
    exact hd.1.2.1.symm
  subst hA
  refine ⟨_, b, hd, .inr ⟨.property n (xmlTrim v), fun rest => ?_, fun e => ?_⟩⟩
  · simp only [EnvironmentVar.readProperty]
    rw [hr]
    have hq : reqAttr ⟨"environmentVar", ns, none⟩ (mkAttrs [("name", some n)]) "name" = .ok n :=
      reqAttr_mk ha (.head _)
    simp only [bind, Except.bind, hq, Except.map]
  · exact (EnvironmentVar.property.inj e).2

theorem EnvironmentVar.all_only {ns : Option String} {l : List EnvironmentVar} :
    Tells ns (writeList "environmentVars" EnvironmentVar.writeXml l) "environmentVars"
      EnvironmentVar.readAll (fun zs => zs = l → ∀ y ∈ l, EnvironmentVar.XmlOk y) := by
  have hn : ["environmentVar", "value"].Nodup := by decide
  have key : ∀ (el : XName) (y : EnvironmentVar) (st : List EnvironmentVar),
      Turns ns .skip el EnvironmentVar.arms (EnvironmentVar.writeXml y) st
        (fun s => ∃ z, s = st ++ [z] ∧ (z = id y → EnvironmentVar.XmlOk y)) := by
    intro el y st
    cases y with
    | property n v => exact Turns.one EnvironmentVar.property_only (.head _) hn
    | value v =>
      refine Turns.imp (Turns.one tells_simple (.tail _ (.head _)) hn) ?_
      rintro _ ⟨z, rfl, h⟩
      exact ⟨_, rfl, fun e => h (EnvironmentVar.value.inj e)⟩
  refine tells_struct (flatMap_wf fun _ _ => EnvironmentVar.xml_wf) rfl ?_
  refine Turns.imp (Turns.each (fun y _ st => key _ y st) (fun _ _ => EnvironmentVar.xml_wf)) ?_
  rintro _ ⟨zs, rfl, h⟩ e
  exact h ((Except.ok.inj e).trans (List.map_id l).symm)

theorem Parameter.xml_only {ns : Option String} {x : Parameter} :
    Tells ns (Parameter.writeXml x) "parameter" Parameter.readXml (fun y => y = x → Parameter.XmlOk x) := by
  have hn : ["name", "value", "dataType"].Nodup := by decide
  refine tells_struct (Parameter.xml_body_wf) rfl ?_
  refine Turns.then (writeOpt_wf fun _ _ => writeSimple_wf) (Turns.optS (fun o s => { s with name := o }) (.head _) hn (fun _ => rfl) rfl (fun _ _ => tells_simple.part)) ?_
  rintro _ ⟨o1, rfl, h1⟩
  refine Turns.then (writeOpt_wf fun _ _ => writeSimple_wf) (Turns.optS (fun o s => { s with value := o }) (.tail _ (.head _)) hn (fun _ => rfl) rfl (fun _ _ => tells_simple.part)) ?_
  rintro _ ⟨o2, rfl, h2⟩
  refine Turns.imp (Turns.optS (fun o s => { s with dataType := o }) (.tail _ (.tail _ (.head _))) hn (fun _ => rfl) rfl (fun _ _ => tells_simple.part)) ?_
  rintro _ ⟨o3, rfl, h3⟩
  intro e
  have e := Except.ok.inj e
  exact {
    name := h1 (congrArg Parameter.name e)
    value := h2 (congrArg Parameter.value e)
    dataType := h3 (congrArg Parameter.dataType e) }

theorem Input.xml_only {ns : Option String} {x : Input} :
    Tells ns (Input.writeXml x) "input" Input.readXml (fun y => y = x → Input.XmlOk x) := by
  obtain ⟨required, source, target, properties⟩ := x
  cases required with
  | resource z =>
    have hn : ["resource", "environmentVars", "data", "source", "target", "properties"].Nodup := by decide
    refine tells_struct (Input.xml_body_wf) rfl ?_
    refine Turns.then RequiredInputField.xml_wf (Turns.one ResourceReference.xml_only (.head _) hn) ?_
    rintro _ ⟨o1, rfl, h1⟩
    refine Turns.then (writeOpt_wf fun _ _ => ResourceReference.xml_wf) (Turns.optS (fun o s => { s with source := o }) (.tail _ (.tail _ (.tail _ (.head _)))) hn (fun _ => rfl) rfl (fun _ _ => ResourceReference.xml_only.part)) ?_
    rintro _ ⟨o2, rfl, h2⟩
    refine Turns.then (writeOpt_wf fun _ _ => ResourceReference.xml_wf) (Turns.optS (fun o s => { s with target := o }) (.tail _ (.tail _ (.tail _ (.tail _ (.head _))))) hn (fun _ => rfl) rfl (fun _ _ => ResourceReference.xml_only.part)) ?_
    rintro _ ⟨o3, rfl, h3⟩
    refine Turns.imp (Turns.optS (fun o s => { s with properties := o }) (.tail _ (.tail _ (.tail _ (.tail _ (.tail _ (.head _)))))) hn (fun _ => rfl) rfl (fun _ _ => (tells_listLax (fun _ _ => Property.xml_only.part) (fun _ _ => Property.xml_wf)).part)) ?_
    rintro _ ⟨o4, rfl, h4⟩
    intro e
    have e := Except.ok.inj e
    exact {
      required := h1 (RequiredInputField.resource.inj (congrArg Input.required e))
      source := h2 (congrArg Input.source e)
      target := h3 (congrArg Input.target e)
      properties := h4 (congrArg Input.properties e) }
  | parameters z =>
    refine tells_struct (Input.xml_body_wf) rfl ?_
    exact Turns.then (P := fun _ => False) RequiredInputField.xml_wf
      (Turns.unknown (flatMap_wf fun _ _ => Parameter.xml_wf) rfl) (fun _ h => h.elim)
  | environmentVars z =>
    have hn : ["resource", "environmentVars", "data", "source", "target", "properties"].Nodup := by decide
    refine tells_struct (Input.xml_body_wf) rfl ?_
    refine Turns.then RequiredInputField.xml_wf (Turns.one EnvironmentVar.all_only (.tail _ (.head _)) hn) ?_
    rintro _ ⟨o1, rfl, h1⟩
    refine Turns.then (writeOpt_wf fun _ _ => ResourceReference.xml_wf) (Turns.optS (fun o s => { s with source := o }) (.tail _ (.tail _ (.tail _ (.head _)))) hn (fun _ => rfl) rfl (fun _ _ => ResourceReference.xml_only.part)) ?_
    rintro _ ⟨o2, rfl, h2⟩
    refine Turns.then (writeOpt_wf fun _ _ => ResourceReference.xml_wf) (Turns.optS (fun o s => { s with target := o }) (.tail _ (.tail _ (.tail _ (.tail _ (.head _))))) hn (fun _ => rfl) rfl (fun _ _ => ResourceReference.xml_only.part)) ?_
    rintro _ ⟨o3, rfl, h3⟩
    refine Turns.imp (Turns.optS (fun o s => { s with properties := o }) (.tail _ (.tail _ (.tail _ (.tail _ (.tail _ (.head _)))))) hn (fun _ => rfl) rfl (fun _ _ => (tells_listLax (fun _ _ => Property.xml_only.part) (fun _ _ => Property.xml_wf)).part)) ?_
    rintro _ ⟨o4, rfl, h4⟩
    intro e
    have e := Except.ok.inj e
    exact {
      required := h1 (RequiredInputField.environmentVars.inj (congrArg Input.required e))
      source := h2 (congrArg Input.source e)
      target := h3 (congrArg Input.target e)
      properties := h4 (congrArg Input.properties e) }
  | data z =>
    have hn : ["resource", "environmentVars", "data", "source", "target", "properties"].Nodup := by decide
    refine tells_struct (Input.xml_body_wf) rfl ?_
    refine Turns.then RequiredInputField.xml_wf (Turns.one Attachment.xml_only (.tail _ (.tail _ (.head _))) hn) ?_
    rintro _ ⟨o1, rfl, h1⟩
    refine Turns.then (writeOpt_wf fun _ _ => ResourceReference.xml_wf) (Turns.optS (fun o s => { s with source := o }) (.tail _ (.tail _ (.tail _ (.head _)))) hn (fun _ => rfl) rfl (fun _ _ => ResourceReference.xml_only.part)) ?_
    rintro _ ⟨o2, rfl, h2⟩
    refine Turns.then (writeOpt_wf fun _ _ => ResourceReference.xml_wf) (Turns.optS (fun o s => { s with target := o }) (.tail _ (.tail _ (.tail _ (.tail _ (.head _))))) hn (fun _ => rfl) rfl (fun _ _ => ResourceReference.xml_only.part)) ?_
    rintro _ ⟨o3, rfl, h3⟩
    refine Turns.imp (Turns.optS (fun o s => { s with properties := o }) (.tail _ (.tail _ (.tail _ (.tail _ (.tail _ (.head _)))))) hn (fun _ => rfl) rfl (fun _ _ => (tells_listLax (fun _ _ => Property.xml_only.part) (fun _ _ => Property.xml_wf)).part)) ?_
    rintro _ ⟨o4, rfl, h4⟩
    intro e
    have e := Except.ok.inj e
    exact {
      required := h1 (RequiredInputField.data.inj (congrArg Input.required e))
      source := h2 (congrArg Input.source e)
      target := h3 (congrArg Input.target e)
      properties := h4 (congrArg Input.properties e) }

theorem Output.xml_only {ns : Option String} {x : Output} :
    Tells ns (Output.writeXml x) "output" Output.readXml (fun y => y = x → Output.XmlOk x) := by
  obtain ⟨required, type, source, target, properties⟩ := x
  cases required with
  | resource z =>
    have hn : ["resource", "environmentVars", "data", "type", "source", "target", "properties"].Nodup := by decide
    refine tells_struct (Output.xml_body_wf) rfl ?_
    refine Turns.then RequiredOutputField.xml_wf (Turns.one ResourceReference.xml_only (.head _) hn) ?_
    rintro _ ⟨o1, rfl, h1⟩
    refine Turns.then (writeOpt_wf fun _ _ => writeSimple_wf) (Turns.optS (fun o s => { s with type := o }) (.tail _ (.tail _ (.tail _ (.head _)))) hn (fun _ => rfl) rfl (fun _ _ => (tells_enum (stable_of OutputType.display_new)).part)) ?_
    rintro _ ⟨o2, rfl, h2⟩
    refine Turns.then (writeOpt_wf fun _ _ => ResourceReference.xml_wf) (Turns.optS (fun o s => { s with source := o }) (.tail _ (.tail _ (.tail _ (.tail _ (.head _))))) hn (fun _ => rfl) rfl (fun _ _ => ResourceReference.xml_only.part)) ?_
    rintro _ ⟨o3, rfl, h3⟩
    refine Turns.then (writeOpt_wf fun _ _ => ResourceReference.xml_wf) (Turns.optS (fun o s => { s with target := o }) (.tail _ (.tail _ (.tail _ (.tail _ (.tail _ (.head _)))))) hn (fun _ => rfl) rfl (fun _ _ => ResourceReference.xml_only.part)) ?_
    rintro _ ⟨o4, rfl, h4⟩
    refine Turns.imp (Turns.optS (fun o s => { s with properties := o }) (.tail _ (.tail _ (.tail _ (.tail _ (.tail _ (.tail _ (.head _))))))) hn (fun _ => rfl) rfl (fun _ _ => (tells_listLax (fun _ _ => Property.xml_only.part) (fun _ _ => Property.xml_wf)).part)) ?_
    rintro _ ⟨o5, rfl, h5⟩
    intro e
    have e := Except.ok.inj e
    exact {
      required := h1 (RequiredOutputField.resource.inj (congrArg Output.required e))
      type := h2 (congrArg Output.type e)
      source := h3 (congrArg Output.source e)
      target := h4 (congrArg Output.target e)
      properties := h5 (congrArg Output.properties e) }
  | environmentVars z =>
    have hn : ["resource", "environmentVars", "data", "type", "source", "target", "properties"].Nodup := by decide
    refine tells_struct (Output.xml_body_wf) rfl ?_
    refine Turns.then RequiredOutputField.xml_wf (Turns.one EnvironmentVar.all_only (.tail _ (.head _)) hn) ?_
    rintro _ ⟨o1, rfl, h1⟩
    refine Turns.then (writeOpt_wf fun _ _ => writeSimple_wf) (Turns.optS (fun o s => { s with type := o }) (.tail _ (.tail _ (.tail _ (.head _)))) hn (fun _ => rfl) rfl (fun _ _ => (tells_enum (stable_of OutputType.display_new)).part)) ?_
    rintro _ ⟨o2, rfl, h2⟩
    refine Turns.then (writeOpt_wf fun _ _ => ResourceReference.xml_wf) (Turns.optS (fun o s => { s with source := o }) (.tail _ (.tail _ (.tail _ (.tail _ (.head _))))) hn (fun _ => rfl) rfl (fun _ _ => ResourceReference.xml_only.part)) ?_
    rintro _ ⟨o3, rfl, h3⟩
    refine Turns.then (writeOpt_wf fun _ _ => ResourceReference.xml_wf) (Turns.optS (fun o s => { s with target := o }) (.tail _ (.tail _ (.tail _ (.tail _ (.tail _ (.head _)))))) hn (fun _ => rfl) rfl (fun _ _ => ResourceReference.xml_only.part)) ?_
    rintro _ ⟨o4, rfl, h4⟩
    refine Turns.imp (Turns.optS (fun o s => { s with properties := o }) (.tail _ (.tail _ (.tail _ (.tail _ (.tail _ (.tail _ (.head _))))))) hn (fun _ => rfl) rfl (fun _ _ => (tells_listLax (fun _ _ => Property.xml_only.part) (fun _ _ => Property.xml_wf)).part)) ?_
    rintro _ ⟨o5, rfl, h5⟩
    intro e
    have e := Except.ok.inj e
    exact {
      required := h1 (RequiredOutputField.environmentVars.inj (congrArg Output.required e))
      type := h2 (congrArg Output.type e)
      source := h3 (congrArg Output.source e)
      target := h4 (congrArg Output.target e)
      properties := h5 (congrArg Output.properties e) }
  | data z =>
    have hn : ["resource", "environmentVars", "data", "type", "source", "target", "properties"].Nodup := by decide
    refine tells_struct (Output.xml_body_wf) rfl ?_
    refine Turns.then RequiredOutputField.xml_wf (Turns.one Attachment.xml_only (.tail _ (.tail _ (.head _))) hn) ?_
    rintro _ ⟨o1, rfl, h1⟩
    refine Turns.then (writeOpt_wf fun _ _ => writeSimple_wf) (Turns.optS (fun o s => { s with type := o }) (.tail _ (.tail _ (.tail _ (.head _)))) hn (fun _ => rfl) rfl (fun _ _ => (tells_enum (stable_of OutputType.display_new)).part)) ?_
    rintro _ ⟨o2, rfl, h2⟩
    refine Turns.then (writeOpt_wf fun _ _ => ResourceReference.xml_wf) (Turns.optS (fun o s => { s with source := o }) (.tail _ (.tail _ (.tail _ (.tail _ (.head _))))) hn (fun _ => rfl) rfl (fun _ _ => ResourceReference.xml_only.part)) ?_
    rintro _ ⟨o3, rfl, h3⟩
    refine Turns.then (writeOpt_wf fun _ _ => ResourceReference.xml_wf) (Turns.optS (fun o s => { s with target := o }) (.tail _ (.tail _ (.tail _ (.tail _ (.tail _ (.head _)))))) hn (fun _ => rfl) rfl (fun _ _ => ResourceReference.xml_only.part)) ?_
    rintro _ ⟨o4, rfl, h4⟩
    refine Turns.imp (Turns.optS (fun o s => { s with properties := o }) (.tail _ (.tail _ (.tail _ (.tail _ (.tail _ (.tail _ (.head _))))))) hn (fun _ => rfl) rfl (fun _ _ => (tells_listLax (fun _ _ => Property.xml_only.part) (fun _ _ => Property.xml_wf)).part)) ?_
    rintro _ ⟨o5, rfl, h5⟩
    intro e
    have e := Except.ok.inj e
    exact {
      required := h1 (RequiredOutputField.data.inj (congrArg Output.required e))
      type := h2 (congrArg Output.type e)
      source := h3 (congrArg Output.source e)
      target := h4 (congrArg Output.target e)
      properties := h5 (congrArg Output.properties e) }

theorem Command.xml_only {ns : Option String} {x : Command} :
    Tells ns (Command.writeXml x) "command" Command.readXml (fun y => y = x → Command.XmlOk x) := by
  have hn : ["executed", "properties"].Nodup := by decide
  refine tells_struct (Command.xml_body_wf) rfl ?_
  refine Turns.then (writeOpt_wf fun _ _ => writeSimple_wf) (Turns.optS (fun o s => { s with executed := o }) (.head _) hn (fun _ => rfl) rfl (fun _ _ => tells_simple.part)) ?_
  rintro _ ⟨o1, rfl, h1⟩
  refine Turns.imp (Turns.optS (fun o s => { s with properties := o }) (.tail _ (.head _)) hn (fun _ => rfl) rfl (fun _ _ => (tells_listLax (fun _ _ => Property.xml_only.part) (fun _ _ => Property.xml_wf)).part)) ?_
  rintro _ ⟨o2, rfl, h2⟩
  intro e
  have e := Except.ok.inj e
  exact {
    executed := h1 (congrArg Command.executed e)
    properties := h2 (congrArg Command.properties e) }

theorem Step.xml_only {ns : Option String} {x : Step} :
    Tells ns (Step.writeXml x) "step" Step.readXml (fun y => y = x → Step.XmlOk x) := by
  have hn : ["commands", "description", "name", "properties"].Nodup := by decide
  refine tells_struct (Step.xml_body_wf) rfl ?_
  refine Turns.then (writeOpt_wf fun _ _ => (writeList_wf fun _ _ => Command.xml_wf)) (Turns.optS (fun o s => { s with commands := o }) (.head _) hn (fun _ => rfl) rfl (fun _ _ => (tells_list (fun _ _ => Command.xml_only.part) (fun _ _ => Command.xml_wf)).part)) ?_
  rintro _ ⟨o1, rfl, h1⟩
  refine Turns.then (writeOpt_wf fun _ _ => writeSimple_wf) (Turns.optS (fun o s => { s with description := o }) (.tail _ (.head _)) hn (fun _ => rfl) rfl (fun _ _ => tells_simple.part)) ?_
  rintro _ ⟨o2, rfl, h2⟩
  refine Turns.then (writeOpt_wf fun _ _ => writeSimple_wf) (Turns.optS (fun o s => { s with name := o }) (.tail _ (.tail _ (.head _))) hn (fun _ => rfl) rfl (fun _ _ => tells_simple.part)) ?_
  rintro _ ⟨o3, rfl, h3⟩
  refine Turns.imp (Turns.optS (fun o s => { s with properties := o }) (.tail _ (.tail _ (.tail _ (.head _)))) hn (fun _ => rfl) rfl (fun _ _ => (tells_listLax (fun _ _ => Property.xml_only.part) (fun _ _ => Property.xml_wf)).part)) ?_
  rintro _ ⟨o4, rfl, h4⟩
  intro e
  have e := Except.ok.inj e
  exact {
    commands := h1 (congrArg Step.commands e)
    description := h2 (congrArg Step.description e)
    name := h3 (congrArg Step.name e)
    properties := h4 (congrArg Step.properties e) }

theorem TriggerEvent.xml_only {ns : Option String} {x : TriggerEvent} :
    Tells ns (TriggerEvent.writeXml x) "event" TriggerEvent.readXml (fun y => y = x → TriggerEvent.XmlOk x) := by
  have hn : ["uid", "description", "timeReceived", "data", "source", "target", "properties"].Nodup := by decide
  refine tells_struct (TriggerEvent.xml_body_wf) rfl ?_
  refine Turns.then (writeOpt_wf fun _ _ => writeSimple_wf) (Turns.optS (fun o s => { s with uid := o }) (.head _) hn (fun _ => rfl) rfl (fun _ _ => tells_simple.part)) ?_
  rintro _ ⟨o1, rfl, h1⟩
  refine Turns.then (writeOpt_wf fun _ _ => writeSimple_wf) (Turns.optS (fun o s => { s with description := o }) (.tail _ (.head _)) hn (fun _ => rfl) rfl (fun _ _ => tells_simple.part)) ?_
  rintro _ ⟨o2, rfl, h2⟩
  refine Turns.then (writeOpt_wf fun _ _ => writeSimple_wf) (Turns.optS (fun o s => { s with timeReceived := o }) (.tail _ (.tail _ (.head _))) hn (fun _ => rfl) rfl (fun _ _ => tells_simple.part)) ?_
  rintro _ ⟨o3, rfl, h3⟩
  refine Turns.then (writeOpt_wf fun _ _ => Attachment.xml_wf) (Turns.optS (fun o s => { s with data := o }) (.tail _ (.tail _ (.tail _ (.head _)))) hn (fun _ => rfl) rfl (fun _ _ => Attachment.xml_only.part)) ?_
  rintro _ ⟨o4, rfl, h4⟩
  refine Turns.then (writeOpt_wf fun _ _ => ResourceReference.xml_wf) (Turns.optS (fun o s => { s with source := o }) (.tail _ (.tail _ (.tail _ (.tail _ (.head _))))) hn (fun _ => rfl) rfl (fun _ _ => ResourceReference.xml_only.part)) ?_
  rintro _ ⟨o5, rfl, h5⟩
  refine Turns.then (writeOpt_wf fun _ _ => ResourceReference.xml_wf) (Turns.optS (fun o s => { s with target := o }) (.tail _ (.tail _ (.tail _ (.tail _ (.tail _ (.head _)))))) hn (fun _ => rfl) rfl (fun _ _ => ResourceReference.xml_only.part)) ?_
  rintro _ ⟨o6, rfl, h6⟩
  refine Turns.imp (Turns.optS (fun o s => { s with properties := o }) (.tail _ (.tail _ (.tail _ (.tail _ (.tail _ (.tail _ (.head _))))))) hn (fun _ => rfl) rfl (fun _ _ => (tells_listLax (fun _ _ => Property.xml_only.part) (fun _ _ => Property.xml_wf)).part)) ?_
  rintro _ ⟨o7, rfl, h7⟩
  intro e
  have e := Except.ok.inj e
  exact {
    uid := h1 (congrArg TriggerEvent.uid e)
    description := h2 (congrArg TriggerEvent.description e)
    timeReceived := h3 (congrArg TriggerEvent.timeReceived e)
    data := h4 (congrArg TriggerEvent.data e)
    source := h5 (congrArg TriggerEvent.source e)
    target := h6 (congrArg TriggerEvent.target e)
    properties := h7 (congrArg TriggerEvent.properties e) }

theorem Condition.xml_only {ns : Option String} {x : Condition} :
    Tells ns (Condition.writeXml x) "condition" Condition.readXml (fun y => y = x → Condition.XmlOk x) := by
  have hn : ["description", "expression", "properties"].Nodup := by decide
  refine tells_struct (Condition.xml_body_wf) rfl ?_
  refine Turns.then (writeOpt_wf fun _ _ => writeSimple_wf) (Turns.optS (fun o s => { s with description := o }) (.head _) hn (fun _ => rfl) rfl (fun _ _ => tells_simple.part)) ?_
  rintro _ ⟨o1, rfl, h1⟩
  refine Turns.then (writeOpt_wf fun _ _ => writeSimple_wf) (Turns.optS (fun o s => { s with expression := o }) (.tail _ (.head _)) hn (fun _ => rfl) rfl (fun _ _ => tells_simple.part)) ?_
  rintro _ ⟨o2, rfl, h2⟩
  refine Turns.imp (Turns.optS (fun o s => { s with properties := o }) (.tail _ (.tail _ (.head _))) hn (fun _ => rfl) rfl (fun _ _ => (tells_listLax (fun _ _ => Property.xml_only.part) (fun _ _ => Property.xml_wf)).part)) ?_
  rintro _ ⟨o3, rfl, h3⟩
  intro e
  have e := Except.ok.inj e
  exact {
    description := h1 (congrArg Condition.description e)
    expression := h2 (congrArg Condition.expression e)
    properties := h3 (congrArg Condition.properties e) }

theorem Trigger.xml_only {ns : Option String} {x : Trigger} :
    Tells ns (Trigger.writeXml x) "trigger" Trigger.readXml (fun y => y = x → Trigger.XmlOk x) := by
  have hn : ["uid", "name", "description", "resourceReferences", "type", "event", "conditions", "timeActivated", "inputs", "outputs", "properties"].Nodup := by decide
  have ha : ["bom-ref"].Nodup := by decide
  refine tells_struct (p := (x.bomRef)) (Trigger.xml_body_wf) ?_ ?_
  · refine bindOk (reqAttr_mk ha (.head _)) ?_
    exact congrArg Except.ok rfl
  · refine Turns.then writeSimple_wf (Turns.one tells_simple (.head _) hn) ?_
    rintro _ ⟨o1, rfl, h1⟩
    refine Turns.then (writeOpt_wf fun _ _ => writeSimple_wf) (Turns.optS (fun o s => { s with name := o }) (.tail _ (.head _)) hn (fun _ => rfl) rfl (fun _ _ => tells_simple.part)) ?_
    rintro _ ⟨o2, rfl, h2⟩
    refine Turns.then (writeOpt_wf fun _ _ => writeSimple_wf) (Turns.optS (fun o s => { s with description := o }) (.tail _ (.tail _ (.head _))) hn (fun _ => rfl) rfl (fun _ _ => tells_simple.part)) ?_
    rintro _ ⟨o3, rfl, h3⟩
    refine Turns.then (writeOpt_wf fun _ _ => (writeList_wf fun _ _ => ResourceReference.xml_wf)) (Turns.optS (fun o s => { s with resourceReferences := o }) (.tail _ (.tail _ (.tail _ (.head _)))) hn (fun _ => rfl) rfl (fun _ _ => (tells_listLax (fun _ _ => ResourceReference.xml_only.part) (fun _ _ => ResourceReference.xml_wf)).part)) ?_
    rintro _ ⟨o4, rfl, h4⟩
    refine Turns.then writeSimple_wf (Turns.one (tells_enum (stable_of TriggerType.display_new)) (.tail _ (.tail _ (.tail _ (.tail _ (.head _))))) hn) ?_
    rintro _ ⟨o5, rfl, h5⟩
    refine Turns.then (writeOpt_wf fun _ _ => TriggerEvent.xml_wf) (Turns.optS (fun o s => { s with event := o }) (.tail _ (.tail _ (.tail _ (.tail _ (.tail _ (.head _)))))) hn (fun _ => rfl) rfl (fun _ _ => TriggerEvent.xml_only.part)) ?_
    rintro _ ⟨o6, rfl, h6⟩
    refine Turns.then (writeOpt_wf fun _ _ => (writeList_wf fun _ _ => Condition.xml_wf)) (Turns.optS (fun o s => { s with conditions := o }) (.tail _ (.tail _ (.tail _ (.tail _ (.tail _ (.tail _ (.head _))))))) hn (fun _ => rfl) rfl (fun _ _ => (tells_list (fun _ _ => Condition.xml_only.part) (fun _ _ => Condition.xml_wf)).part)) ?_
    rintro _ ⟨o7, rfl, h7⟩
    refine Turns.then (writeOpt_wf fun _ _ => writeSimple_wf) (Turns.optS (fun o s => { s with timeActivated := o }) (.tail _ (.tail _ (.tail _ (.tail _ (.tail _ (.tail _ (.tail _ (.head _)))))))) hn (fun _ => rfl) rfl (fun _ _ => tells_simple.part)) ?_
    rintro _ ⟨o8, rfl, h8⟩
    refine Turns.then (writeOpt_wf fun _ _ => (writeList_wf fun _ _ => Input.xml_wf)) (Turns.optS (fun o s => { s with inputs := o }) (.tail _ (.tail _ (.tail _ (.tail _ (.tail _ (.tail _ (.tail _ (.tail _ (.head _))))))))) hn (fun _ => rfl) rfl (fun _ _ => (tells_list (fun _ _ => Input.xml_only.part) (fun _ _ => Input.xml_wf)).part)) ?_
    rintro _ ⟨o9, rfl, h9⟩
    refine Turns.then (writeOpt_wf fun _ _ => (writeList_wf fun _ _ => Output.xml_wf)) (Turns.optS (fun o s => { s with outputs := o }) (.tail _ (.tail _ (.tail _ (.tail _ (.tail _ (.tail _ (.tail _ (.tail _ (.tail _ (.head _)))))))))) hn (fun _ => rfl) rfl (fun _ _ => (tells_list (fun _ _ => Output.xml_only.part) (fun _ _ => Output.xml_wf)).part)) ?_
    rintro _ ⟨o10, rfl, h10⟩
    refine Turns.imp (Turns.optS (fun o s => { s with properties := o }) (.tail _ (.tail _ (.tail _ (.tail _ (.tail _ (.tail _ (.tail _ (.tail _ (.tail _ (.tail _ (.head _))))))))))) hn (fun _ => rfl) rfl (fun _ _ => (tells_listLax (fun _ _ => Property.xml_only.part) (fun _ _ => Property.xml_wf)).part)) ?_
    rintro _ ⟨o11, rfl, h11⟩
    intro e
    have e := Except.ok.inj e
    exact {
      uid := h1 (congrArg Trigger.uid e)
      name := h2 (congrArg Trigger.name e)
      description := h3 (congrArg Trigger.description e)
      resourceReferences := h4 (congrArg Trigger.resourceReferences e)
      type := h5 (congrArg Trigger.type e)
      event := h6 (congrArg Trigger.event e)
      conditions := h7 (congrArg Trigger.conditions e)
      timeActivated := h8 (congrArg Trigger.timeActivated e)
      inputs := h9 (congrArg Trigger.inputs e)
      outputs := h10 (congrArg Trigger.outputs e)
      properties := h11 (congrArg Trigger.properties e) }

theorem Volume.xml_only {ns : Option String} {x : Volume} :
    Tells ns (Volume.writeXml x) "volume" Volume.readXml (fun y => y = x → Volume.XmlOk x) := by
  have hn : ["uid", "name", "mode", "path", "sizeAllocated", "persistent", "remote", "properties"].Nodup := by decide
  refine tells_struct (Volume.xml_body_wf) rfl ?_
  refine Turns.then (writeOpt_wf fun _ _ => writeSimple_wf) (Turns.optS (fun o s => { s with uid := o }) (.head _) hn (fun _ => rfl) rfl (fun _ _ => tells_simple.part)) ?_
  rintro _ ⟨o1, rfl, h1⟩
  refine Turns.then (writeOpt_wf fun _ _ => writeSimple_wf) (Turns.optS (fun o s => { s with name := o }) (.tail _ (.head _)) hn (fun _ => rfl) rfl (fun _ _ => tells_simple.part)) ?_
  rintro _ ⟨o2, rfl, h2⟩
  refine Turns.then writeSimple_wf (Turns.one (tells_enum (stable_of VolumeMode.display_new)) (.tail _ (.tail _ (.head _))) hn) ?_
  rintro _ ⟨o3, rfl, h3⟩
  refine Turns.then (writeOpt_wf fun _ _ => writeSimple_wf) (Turns.optS (fun o s => { s with path := o }) (.tail _ (.tail _ (.tail _ (.head _)))) hn (fun _ => rfl) rfl (fun _ _ => tells_simple.part)) ?_
  rintro _ ⟨o4, rfl, h4⟩
  refine Turns.then (writeOpt_wf fun _ _ => writeSimple_wf) (Turns.optS (fun o s => { s with sizeAllocated := o }) (.tail _ (.tail _ (.tail _ (.tail _ (.head _))))) hn (fun _ => rfl) rfl (fun _ _ => tells_simple.part)) ?_
  rintro _ ⟨o5, rfl, h5⟩
  refine Turns.then (writeOpt_wf fun _ _ => writeSimple_wf) (Turns.optS (fun o s => { s with persistent := o }) (.tail _ (.tail _ (.tail _ (.tail _ (.tail _ (.head _)))))) hn (fun _ => rfl) rfl (fun _ _ => tells_bool.part)) ?_
  rintro _ ⟨o6, rfl, h6⟩
  refine Turns.then (writeOpt_wf fun _ _ => writeSimple_wf) (Turns.optS (fun o s => { s with remote := o }) (.tail _ (.tail _ (.tail _ (.tail _ (.tail _ (.tail _ (.head _))))))) hn (fun _ => rfl) rfl (fun _ _ => tells_bool.part)) ?_
  rintro _ ⟨o7, rfl, h7⟩
  refine Turns.imp (Turns.optS (fun o s => { s with properties := o }) (.tail _ (.tail _ (.tail _ (.tail _ (.tail _ (.tail _ (.tail _ (.head _)))))))) hn (fun _ => rfl) rfl (fun _ _ => (tells_listLax (fun _ _ => Property.xml_only.part) (fun _ _ => Property.xml_wf)).part)) ?_
  rintro _ ⟨o8, rfl, h8⟩
  intro e
  have e := Except.ok.inj e
  exact {
    uid := h1 (congrArg Volume.uid e)
    name := h2 (congrArg Volume.name e)
    mode := h3 (congrArg Volume.mode e)
    path := h4 (congrArg Volume.path e)
    sizeAllocated := h5 (congrArg Volume.sizeAllocated e)
    properties := h8 (congrArg Volume.properties e) }

theorem Workspace.xml_only {ns : Option String} {x : Workspace} :
    Tells ns (Workspace.writeXml x) "workspace" Workspace.readXml (fun y => y = x → Workspace.XmlOk x) := by
  have hn : ["uid", "name", "aliases", "description", "resourceReferences", "accessMode", "mountPath", "managedDataType", "volumeRequest", "volume", "properties"].Nodup := by decide
  have ha : ["bom-ref"].Nodup := by decide
  refine tells_struct (p := (x.bomRef)) (Workspace.xml_body_wf) ?_ ?_
  · refine bindOk (reqAttr_mk ha (.head _)) ?_
    exact congrArg Except.ok rfl
  · refine Turns.then writeSimple_wf (Turns.one tells_simple (.head _) hn) ?_
    rintro _ ⟨o1, rfl, h1⟩
    refine Turns.then (writeOpt_wf fun _ _ => writeSimple_wf) (Turns.optS (fun o s => { s with name := o }) (.tail _ (.head _)) hn (fun _ => rfl) rfl (fun _ _ => tells_simple.part)) ?_
    rintro _ ⟨o2, rfl, h2⟩
    refine Turns.then (writeOpt_wf fun _ _ => (writeList_wf fun _ _ => writeSimple_wf)) (Turns.optS (fun o s => { s with aliases := o }) (.tail _ (.tail _ (.head _))) hn (fun _ => rfl) rfl (fun _ _ => (tells_list (fun _ _ => tells_simple.part) (fun _ _ => writeSimple_wf)).part)) ?_
    rintro _ ⟨o3, rfl, h3⟩
    refine Turns.then (writeOpt_wf fun _ _ => writeSimple_wf) (Turns.optS (fun o s => { s with description := o }) (.tail _ (.tail _ (.tail _ (.head _)))) hn (fun _ => rfl) rfl (fun _ _ => tells_simple.part)) ?_
    rintro _ ⟨o4, rfl, h4⟩
    refine Turns.then (writeOpt_wf fun _ _ => (writeList_wf fun _ _ => ResourceReference.xml_wf)) (Turns.optS (fun o s => { s with resourceReferences := o }) (.tail _ (.tail _ (.tail _ (.tail _ (.head _))))) hn (fun _ => rfl) rfl (fun _ _ => (tells_listLax (fun _ _ => ResourceReference.xml_only.part) (fun _ _ => ResourceReference.xml_wf)).part)) ?_
    rintro _ ⟨o5, rfl, h5⟩
    refine Turns.then (writeOpt_wf fun _ _ => writeSimple_wf) (Turns.optS (fun o s => { s with accessMode := o }) (.tail _ (.tail _ (.tail _ (.tail _ (.tail _ (.head _)))))) hn (fun _ => rfl) rfl (fun _ _ => (tells_enum (stable_of AccessMode.display_new)).part)) ?_
    rintro _ ⟨o6, rfl, h6⟩
    refine Turns.then (writeOpt_wf fun _ _ => writeSimple_wf) (Turns.optS (fun o s => { s with mountPath := o }) (.tail _ (.tail _ (.tail _ (.tail _ (.tail _ (.tail _ (.head _))))))) hn (fun _ => rfl) rfl (fun _ _ => tells_simple.part)) ?_
    rintro _ ⟨o7, rfl, h7⟩
    refine Turns.then (writeOpt_wf fun _ _ => writeSimple_wf) (Turns.optS (fun o s => { s with managedDataType := o }) (.tail _ (.tail _ (.tail _ (.tail _ (.tail _ (.tail _ (.tail _ (.head _)))))))) hn (fun _ => rfl) rfl (fun _ _ => tells_simple.part)) ?_
    rintro _ ⟨o8, rfl, h8⟩
    refine Turns.then (writeOpt_wf fun _ _ => writeSimple_wf) (Turns.optS (fun o s => { s with volumeRequest := o }) (.tail _ (.tail _ (.tail _ (.tail _ (.tail _ (.tail _ (.tail _ (.tail _ (.head _))))))))) hn (fun _ => rfl) rfl (fun _ _ => tells_simple.part)) ?_
    rintro _ ⟨o9, rfl, h9⟩
    refine Turns.then (writeOpt_wf fun _ _ => Volume.xml_wf) (Turns.optS (fun o s => { s with volume := o }) (.tail _ (.tail _ (.tail _ (.tail _ (.tail _ (.tail _ (.tail _ (.tail _ (.tail _ (.head _)))))))))) hn (fun _ => rfl) rfl (fun _ _ => Volume.xml_only.part)) ?_
    rintro _ ⟨o10, rfl, h10⟩
    refine Turns.imp (Turns.optS (fun o s => { s with properties := o }) (.tail _ (.tail _ (.tail _ (.tail _ (.tail _ (.tail _ (.tail _ (.tail _ (.tail _ (.tail _ (.head _))))))))))) hn (fun _ => rfl) rfl (fun _ _ => (tells_listLax (fun _ _ => Property.xml_only.part) (fun _ _ => Property.xml_wf)).part)) ?_
    rintro _ ⟨o11, rfl, h11⟩
    intro e
    have e := Except.ok.inj e
    exact {
      uid := h1 (congrArg Workspace.uid e)
      name := h2 (congrArg Workspace.name e)
      aliases := h3 (congrArg Workspace.aliases e)
      description := h4 (congrArg Workspace.description e)
      resourceReferences := h5 (congrArg Workspace.resourceReferences e)
      accessMode := h6 (congrArg Workspace.accessMode e)
      mountPath := h7 (congrArg Workspace.mountPath e)
      managedDataType := h8 (congrArg Workspace.managedDataType e)
      volumeRequest := h9 (congrArg Workspace.volumeRequest e)
      volume := h10 (congrArg Workspace.volume e)
      properties := h11 (congrArg Workspace.properties e) }

theorem WorkflowTask.xml_only {ns : Option String} {x : WorkflowTask} :
    Tells ns (WorkflowTask.writeXml x) "task" WorkflowTask.readXml
      (fun y => y = x → WorkflowTask.XmlOk x) := by
  have hn : ["uid", "name", "description", "resourceReferences", "taskTypes", "trigger", "steps", "inputs", "outputs", "timeStart", "timeEnd", "workspaces", "runtimeTopology", "properties"].Nodup := by decide
  have ha : ["bom-ref"].Nodup := by decide
  refine tells_struct (p := x.bomRef) WorkflowTask.xml_body_wf (bindOk (reqAttr_mk ha (.head _)) rfl) ?_
  refine Turns.then writeSimple_wf (Turns.one tells_simple (.head _) hn) ?_
  rintro _ ⟨o0, rfl, h0⟩
  refine Turns.then (writeOpt_wf fun _ _ => writeSimple_wf) (Turns.optS (fun o s => { s with name := o }) (.tail _ (.head _)) hn (fun _ => rfl) rfl (fun _ _ => (tells_simple).part)) ?_
  rintro _ ⟨o1, rfl, h1⟩
  refine Turns.then (writeOpt_wf fun _ _ => writeSimple_wf) (Turns.optS (fun o s => { s with description := o }) (.tail _ (.tail _ (.head _))) hn (fun _ => rfl) rfl (fun _ _ => (tells_simple).part)) ?_
  rintro _ ⟨o2, rfl, h2⟩
  refine Turns.then (writeOpt_wf fun _ _ => writeList_wf fun _ _ => ResourceReference.xml_wf) (Turns.optS (fun o s => { s with resourceReferences := o }) (.tail _ (.tail _ (.tail _ (.head _)))) hn (fun _ => rfl) rfl (fun _ _ => (tells_listLax (fun _ _ => ResourceReference.xml_only.part) (fun _ _ => ResourceReference.xml_wf)).part)) ?_
  rintro _ ⟨o3, rfl, h3⟩
  refine Turns.then (writeOpt_wf fun _ _ => Trigger.xml_wf) (Turns.optS (fun o s => { s with trigger := o }) (.tail _ (.tail _ (.tail _ (.tail _ (.tail _ (.head _)))))) hn (fun _ => rfl) rfl (fun _ _ => (Trigger.xml_only).part)) ?_
  rintro _ ⟨o4, rfl, h4⟩
  refine Turns.then (writeOpt_wf fun _ _ => writeList_wf fun _ _ => Step.xml_wf) (Turns.optS (fun o s => { s with steps := o }) (.tail _ (.tail _ (.tail _ (.tail _ (.tail _ (.tail _ (.head _))))))) hn (fun _ => rfl) rfl (fun _ _ => (tells_list (fun _ _ => Step.xml_only.part) (fun _ _ => Step.xml_wf)).part)) ?_
  rintro _ ⟨o5, rfl, h5⟩
  refine Turns.then (writeOpt_wf fun _ _ => writeList_wf fun _ _ => Input.xml_wf) (Turns.optS (fun o s => { s with inputs := o }) (.tail _ (.tail _ (.tail _ (.tail _ (.tail _ (.tail _ (.tail _ (.head _)))))))) hn (fun _ => rfl) rfl (fun _ _ => (tells_list (fun _ _ => Input.xml_only.part) (fun _ _ => Input.xml_wf)).part)) ?_
  rintro _ ⟨o6, rfl, h6⟩
  refine Turns.then (writeOpt_wf fun _ _ => writeList_wf fun _ _ => Output.xml_wf) (Turns.optS (fun o s => { s with outputs := o }) (.tail _ (.tail _ (.tail _ (.tail _ (.tail _ (.tail _ (.tail _ (.tail _ (.head _))))))))) hn (fun _ => rfl) rfl (fun _ _ => (tells_list (fun _ _ => Output.xml_only.part) (fun _ _ => Output.xml_wf)).part)) ?_
  rintro _ ⟨o7, rfl, h7⟩
  refine Turns.then (writeOpt_wf fun _ _ => writeSimple_wf) (Turns.optS (fun o s => { s with timeStart := o }) (.tail _ (.tail _ (.tail _ (.tail _ (.tail _ (.tail _ (.tail _ (.tail _ (.tail _ (.head _)))))))))) hn (fun _ => rfl) rfl (fun _ _ => (tells_simple).part)) ?_
  rintro _ ⟨o8, rfl, h8⟩
  refine Turns.then (writeOpt_wf fun _ _ => writeSimple_wf) (Turns.optS (fun o s => { s with timeEnd := o }) (.tail _ (.tail _ (.tail _ (.tail _ (.tail _ (.tail _ (.tail _ (.tail _ (.tail _ (.tail _ (.head _))))))))))) hn (fun _ => rfl) rfl (fun _ _ => (tells_simple).part)) ?_
  rintro _ ⟨o9, rfl, h9⟩
  refine Turns.then (writeOpt_wf fun _ _ => writeList_wf fun _ _ => Workspace.xml_wf) (Turns.optS (fun o s => { s with workspaces := o }) (.tail _ (.tail _ (.tail _ (.tail _ (.tail _ (.tail _ (.tail _ (.tail _ (.tail _ (.tail _ (.tail _ (.head _)))))))))))) hn (fun _ => rfl) rfl (fun _ _ => (tells_list (fun _ _ => Workspace.xml_only.part) (fun _ _ => Workspace.xml_wf)).part)) ?_
  rintro _ ⟨o10, rfl, h10⟩
  refine Turns.then (writeOpt_wf fun _ _ => writeList_wf fun _ _ => Dependency.xml_wf) (Turns.optS (fun o s => { s with runtimeTopology := o }) (.tail _ (.tail _ (.tail _ (.tail _ (.tail _ (.tail _ (.tail _ (.tail _ (.tail _ (.tail _ (.tail _ (.tail _ (.head _))))))))))))) hn (fun _ => rfl) rfl (fun _ _ => (tells_list (fun _ _ => Dependency.xml_only.part) (fun _ _ => Dependency.xml_wf)).part)) ?_
  rintro _ ⟨o11, rfl, h11⟩
  refine Turns.imp (Turns.optS (fun o s => { s with properties := o }) (.tail _ (.tail _ (.tail _ (.tail _ (.tail _ (.tail _ (.tail _ (.tail _ (.tail _ (.tail _ (.tail _ (.tail _ (.tail _ (.head _)))))))))))))) hn (fun _ => rfl) rfl (fun _ _ => (tells_listLax (fun _ _ => Property.xml_only.part) (fun _ _ => Property.xml_wf)).part)) ?_
  rintro _ ⟨o12, rfl, h12⟩
  intro e
  exact nomatch e

theorem Workflow.xml_only {ns : Option String} {x : Workflow} :
    Tells ns (Workflow.writeXml x) "workflow" Workflow.readXml (fun y => y = x → Workflow.XmlOk x) := by
  have hn : ["uid", "name", "description", "resourceReferences", "tasks", "taskDependencies", "taskTypes", "trigger", "steps", "inputs", "outputs", "timeStart", "timeEnd", "workspaces", "runtimeTopology", "properties"].Nodup := by decide
  have ha : ["bom-ref"].Nodup := by decide
  refine tells_struct (p := (x.bomRef)) (Workflow.xml_body_wf) ?_ ?_
  · refine bindOk (reqAttr_mk ha (.head _)) ?_
    exact congrArg Except.ok rfl
  · refine Turns.then writeSimple_wf (Turns.req (fun o => ({ uid := some o } : Workflow.Vars)) (.head _) hn (fun _ => rfl) tells_simple) ?_
    rintro _ ⟨o1, rfl, h1⟩
    refine Turns.then (writeOpt_wf fun _ _ => writeSimple_wf) (Turns.opt (fun o => ({ uid := some o1, name := o } : Workflow.Vars)) (.tail _ (.head _)) hn (fun _ => rfl) rfl (fun _ _ => tells_simple.part)) ?_
    rintro _ ⟨o2, rfl, h2⟩
    refine Turns.then (writeOpt_wf fun _ _ => writeSimple_wf) (Turns.opt (fun o => ({ uid := some o1, name := o2, description := o } : Workflow.Vars)) (.tail _ (.tail _ (.head _))) hn (fun _ => rfl) rfl (fun _ _ => tells_simple.part)) ?_
    rintro _ ⟨o3, rfl, h3⟩
    refine Turns.then (writeOpt_wf fun _ _ => (writeList_wf fun _ _ => ResourceReference.xml_wf)) (Turns.opt (fun o => ({ uid := some o1, name := o2, description := o3, resourceReferences := o } : Workflow.Vars)) (.tail _ (.tail _ (.tail _ (.head _)))) hn (fun _ => rfl) rfl (fun _ _ => (tells_listLax (fun _ _ => ResourceReference.xml_only.part) (fun _ _ => ResourceReference.xml_wf)).part)) ?_
    rintro _ ⟨o4, rfl, h4⟩
    refine Turns.then (writeOpt_wf fun _ _ => (writeList_wf fun _ _ => WorkflowTask.xml_wf)) (Turns.opt (fun o => ({ uid := some o1, name := o2, description := o3, resourceReferences := o4, tasks := o } : Workflow.Vars)) (.tail _ (.tail _ (.tail _ (.tail _ (.head _))))) hn (fun _ => rfl) rfl (fun _ _ => (tells_list (fun _ _ => WorkflowTask.xml_only.part) (fun _ _ => WorkflowTask.xml_wf)).part)) ?_
    rintro _ ⟨o5, rfl, h5⟩
    refine Turns.then (writeOpt_wf fun _ _ => (writeList_wf fun _ _ => Dependency.xml_wf)) (Turns.opt (fun o => ({ uid := some o1, name := o2, description := o3, resourceReferences := o4, tasks := o5, taskDependencies := o } : Workflow.Vars)) (.tail _ (.tail _ (.tail _ (.tail _ (.tail _ (.head _)))))) hn (fun _ => rfl) rfl (fun _ _ => (tells_list (fun _ _ => Dependency.xml_only.part) (fun _ _ => Dependency.xml_wf)).part)) ?_
    rintro _ ⟨o6, rfl, h6⟩
    refine Turns.then (writeList_wf fun _ _ => writeSimple_wf) (Turns.req (fun o => ({ uid := some o1, name := o2, description := o3, resourceReferences := o4, tasks := o5, taskDependencies := o6, taskTypes := some o } : Workflow.Vars)) (.tail _ (.tail _ (.tail _ (.tail _ (.tail _ (.tail _ (.head _))))))) hn (fun _ => rfl) (tells_list (fun _ _ => (tells_enum (stable_of TaskType.display_new)).part) (fun _ _ => writeSimple_wf))) ?_
    rintro _ ⟨o7, rfl, h7⟩
    refine Turns.then (writeOpt_wf fun _ _ => Trigger.xml_wf) (Turns.opt (fun o => ({ uid := some o1, name := o2, description := o3, resourceReferences := o4, tasks := o5, taskDependencies := o6, taskTypes := some o7, trigger := o } : Workflow.Vars)) (.tail _ (.tail _ (.tail _ (.tail _ (.tail _ (.tail _ (.tail _ (.head _)))))))) hn (fun _ => rfl) rfl (fun _ _ => Trigger.xml_only.part)) ?_
    rintro _ ⟨o8, rfl, h8⟩
    refine Turns.then (writeOpt_wf fun _ _ => (writeList_wf fun _ _ => Step.xml_wf)) (Turns.opt (fun o => ({ uid := some o1, name := o2, description := o3, resourceReferences := o4, tasks := o5, taskDependencies := o6, taskTypes := some o7, trigger := o8, steps := o } : Workflow.Vars)) (.tail _ (.tail _ (.tail _ (.tail _ (.tail _ (.tail _ (.tail _ (.tail _ (.head _))))))))) hn (fun _ => rfl) rfl (fun _ _ => (tells_list (fun _ _ => Step.xml_only.part) (fun _ _ => Step.xml_wf)).part)) ?_
    rintro _ ⟨o9, rfl, h9⟩
    refine Turns.then (writeOpt_wf fun _ _ => (writeList_wf fun _ _ => Input.xml_wf)) (Turns.opt (fun o => ({ uid := some o1, name := o2, description := o3, resourceReferences := o4, tasks := o5, taskDependencies := o6, taskTypes := some o7, trigger := o8, steps := o9, inputs := o } : Workflow.Vars)) (.tail _ (.tail _ (.tail _ (.tail _ (.tail _ (.tail _ (.tail _ (.tail _ (.tail _ (.head _)))))))))) hn (fun _ => rfl) rfl (fun _ _ => (tells_list (fun _ _ => Input.xml_only.part) (fun _ _ => Input.xml_wf)).part)) ?_
    rintro _ ⟨o10, rfl, h10⟩
    refine Turns.then (writeOpt_wf fun _ _ => (writeList_wf fun _ _ => Output.xml_wf)) (Turns.opt (fun o => ({ uid := some o1, name := o2, description := o3, resourceReferences := o4, tasks := o5, taskDependencies := o6, taskTypes := some o7, trigger := o8, steps := o9, inputs := o10, outputs := o } : Workflow.Vars)) (.tail _ (.tail _ (.tail _ (.tail _ (.tail _ (.tail _ (.tail _ (.tail _ (.tail _ (.tail _ (.head _))))))))))) hn (fun _ => rfl) rfl (fun _ _ => (tells_list (fun _ _ => Output.xml_only.part) (fun _ _ => Output.xml_wf)).part)) ?_
    rintro _ ⟨o11, rfl, h11⟩
    refine Turns.then (writeOpt_wf fun _ _ => writeSimple_wf) (Turns.opt (fun o => ({ uid := some o1, name := o2, description := o3, resourceReferences := o4, tasks := o5, taskDependencies := o6, taskTypes := some o7, trigger := o8, steps := o9, inputs := o10, outputs := o11, timeStart := o } : Workflow.Vars)) (.tail _ (.tail _ (.tail _ (.tail _ (.tail _ (.tail _ (.tail _ (.tail _ (.tail _ (.tail _ (.tail _ (.head _)))))))))))) hn (fun _ => rfl) rfl (fun _ _ => tells_simple.part)) ?_
    rintro _ ⟨o12, rfl, h12⟩
    refine Turns.then (writeOpt_wf fun _ _ => writeSimple_wf) (Turns.opt (fun o => ({ uid := some o1, name := o2, description := o3, resourceReferences := o4, tasks := o5, taskDependencies := o6, taskTypes := some o7, trigger := o8, steps := o9, inputs := o10, outputs := o11, timeStart := o12, timeEnd := o } : Workflow.Vars)) (.tail _ (.tail _ (.tail _ (.tail _ (.tail _ (.tail _ (.tail _ (.tail _ (.tail _ (.tail _ (.tail _ (.tail _ (.head _))))))))))))) hn (fun _ => rfl) rfl (fun _ _ => tells_simple.part)) ?_
    rintro _ ⟨o13, rfl, h13⟩
    refine Turns.then (writeOpt_wf fun _ _ => (writeList_wf fun _ _ => Workspace.xml_wf)) (Turns.opt (fun o => ({ uid := some o1, name := o2, description := o3, resourceReferences := o4, tasks := o5, taskDependencies := o6, taskTypes := some o7, trigger := o8, steps := o9, inputs := o10, outputs := o11, timeStart := o12, timeEnd := o13, workspaces := o } : Workflow.Vars)) (.tail _ (.tail _ (.tail _ (.tail _ (.tail _ (.tail _ (.tail _ (.tail _ (.tail _ (.tail _ (.tail _ (.tail _ (.tail _ (.head _)))))))))))))) hn (fun _ => rfl) rfl (fun _ _ => (tells_list (fun _ _ => Workspace.xml_only.part) (fun _ _ => Workspace.xml_wf)).part)) ?_
    rintro _ ⟨o14, rfl, h14⟩
    refine Turns.then (writeOpt_wf fun _ _ => (writeList_wf fun _ _ => Dependency.xml_wf)) (Turns.opt (fun o => ({ uid := some o1, name := o2, description := o3, resourceReferences := o4, tasks := o5, taskDependencies := o6, taskTypes := some o7, trigger := o8, steps := o9, inputs := o10, outputs := o11, timeStart := o12, timeEnd := o13, workspaces := o14, runtimeTopology := o } : Workflow.Vars)) (.tail _ (.tail _ (.tail _ (.tail _ (.tail _ (.tail _ (.tail _ (.tail _ (.tail _ (.tail _ (.tail _ (.tail _ (.tail _ (.tail _ (.head _))))))))))))))) hn (fun _ => rfl) rfl (fun _ _ => (tells_list (fun _ _ => Dependency.xml_only.part) (fun _ _ => Dependency.xml_wf)).part)) ?_
    rintro _ ⟨o15, rfl, h15⟩
    refine Turns.imp (Turns.opt (fun o => ({ uid := some o1, name := o2, description := o3, resourceReferences := o4, tasks := o5, taskDependencies := o6, taskTypes := some o7, trigger := o8, steps := o9, inputs := o10, outputs := o11, timeStart := o12, timeEnd := o13, workspaces := o14, runtimeTopology := o15, properties := o } : Workflow.Vars)) (.tail _ (.tail _ (.tail _ (.tail _ (.tail _ (.tail _ (.tail _ (.tail _ (.tail _ (.tail _ (.tail _ (.tail _ (.tail _ (.tail _ (.tail _ (.head _)))))))))))))))) hn (fun _ => rfl) rfl (fun _ _ => (tells_listLax (fun _ _ => Property.xml_only.part) (fun _ _ => Property.xml_wf)).part)) ?_
    rintro _ ⟨o16, rfl, h16⟩
    intro e
    have e := Except.ok.inj e
    exact {
      uid := h1 (congrArg Workflow.uid e)
      name := h2 (congrArg Workflow.name e)
      description := h3 (congrArg Workflow.description e)
      resourceReferences := h4 (congrArg Workflow.resourceReferences e)
      tasks := h5 (congrArg Workflow.tasks e)
      taskTypes := h7 (congrArg Workflow.taskTypes e)
      trigger := h8 (congrArg Workflow.trigger e)
      steps := h9 (congrArg Workflow.steps e)
      inputs := h10 (congrArg Workflow.inputs e)
      outputs := h11 (congrArg Workflow.outputs e)
      timeStart := h12 (congrArg Workflow.timeStart e)
      timeEnd := h13 (congrArg Workflow.timeEnd e)
      workspaces := h14 (congrArg Workflow.workspaces e)
      properties := h16 (congrArg Workflow.properties e) }

theorem Formula.xml_only (v : SpecVersion) {ns : Option String} {x : Formula} :
    Tells ns (Formula.writeXml v x) "formula" (Formula.readXml v) (fun y => y = x.at v → Formula.XmlOk v x) := by
  have hn : ["components", "services", "workflows", "properties"].Nodup := by decide
  have ha : ["bom-ref"].Nodup := by decide
  refine tells_struct (p := (x.bomRef)) (Formula.xml_body_wf) ?_ ?_
  · exact congrArg Except.ok (optAttr_mk ha (.head _))
  · refine Turns.then (writeOpt_wf fun _ _ => (writeList_wf fun _ _ => (Component.xml_wf fun _ => rfl))) (Turns.optS_at (fun o s => { s with components := o }) (.head _) hn (fun _ => rfl) rfl (fun _ _ => (tells_listLax_at (fun _ _ => (Component.xml_only v).part) (fun _ _ => (Component.xml_wf fun _ => rfl))).part)) ?_
    rintro _ ⟨o1, rfl, h1⟩
    refine Turns.then (writeOpt_wf fun _ _ => (writeList_wf fun _ _ => (Service.xml_wf fun _ => rfl))) (Turns.optS_at (fun o s => { s with services := o }) (.tail _ (.head _)) hn (fun _ => rfl) rfl (fun _ _ => (tells_listLax_at (fun _ _ => (Service.xml_only v).part) (fun _ _ => (Service.xml_wf fun _ => rfl))).part)) ?_
    rintro _ ⟨o2, rfl, h2⟩
    refine Turns.then (writeOpt_wf fun _ _ => (writeList_wf fun _ _ => Workflow.xml_wf)) (Turns.optS (fun o s => { s with workflows := o }) (.tail _ (.tail _ (.head _))) hn (fun _ => rfl) rfl (fun _ _ => (tells_list (fun _ _ => Workflow.xml_only.part) (fun _ _ => Workflow.xml_wf)).part)) ?_
    rintro _ ⟨o3, rfl, h3⟩
    refine Turns.imp (Turns.optS (fun o s => { s with properties := o }) (.tail _ (.tail _ (.tail _ (.head _)))) hn (fun _ => rfl) rfl (fun _ _ => (tells_listLax (fun _ _ => Property.xml_only.part) (fun _ _ => Property.xml_wf)).part)) ?_
    rintro _ ⟨o4, rfl, h4⟩
    intro e
    have e := Except.ok.inj e
    exact {
      components := h1 (congrArg Formula.components e)
      services := h2 (congrArg Formula.services e)
      workflows := h3 (congrArg Formula.workflows e)
      properties := h4 (congrArg Formula.properties e) }

end Cdx
