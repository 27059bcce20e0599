import Verif.Lemmas.XOnly.Parts
import Verif.Lemmas.Format.Data

set_option linter.unusedSectionVars false
set_option linter.unusedSimpArgs false
set_option linter.unusedVariables false

/-!
# What has to hold for a value to come back from XML (Data)

The converse of `Verif.Lemmas.Format.Data`: a value that is read back from the element that was written
for it meets the conditions under which it was shown to be read back.
-/

namespace Cdx

theorem DataGovernanceResponsibleParty.xml_only {ns : Option String} {tag : String}
    {x : DataGovernanceResponsibleParty} :
    Tells ns (DataGovernanceResponsibleParty.writeXml tag x) tag DataGovernanceResponsibleParty.readXml
      (fun y => y = x → DataGovernanceResponsibleParty.XmlOk x) := by
  have hn : ["organization", "contact"].Nodup := by decide
  cases x with
  | organization y =>
    refine tells_struct DataGovernanceResponsibleParty.xml_inner_wf rfl ?_
    refine Turns.imp (Turns.one OrganizationalEntity.xml_only (.head _) hn) ?_
    rintro _ ⟨o, rfl, h⟩ e
    exact h (DataGovernanceResponsibleParty.organization.inj (Except.ok.inj e))
  | contact y =>
    refine tells_struct DataGovernanceResponsibleParty.xml_inner_wf rfl ?_
    refine Turns.imp (Turns.one OrganizationalContact.xml_only (.tail _ (.head _)) hn) ?_
    rintro _ ⟨o, rfl, h⟩ e
    exact h (DataGovernanceResponsibleParty.contact.inj (Except.ok.inj e))

theorem DataGovernance.xml_only {ns : Option String} {tag : String} {x : DataGovernance} :
    Tells ns (DataGovernance.writeXml tag x) tag DataGovernance.readXml (fun y => y = x → DataGovernance.XmlOk x) := by
  have hn : ["owners", "custodians", "stewards"].Nodup := by decide
  refine tells_struct (DataGovernance.xml_body_wf) rfl ?_
  refine Turns.then (writeOpt_wf fun _ _ => (writeList_wf fun _ _ => DataGovernanceResponsibleParty.xml_wf)) (Turns.optS (fun o s => { s with owners := o }) (.head _) hn (fun _ => rfl) rfl (fun _ _ => (tells_list (fun _ _ => DataGovernanceResponsibleParty.xml_only.part) (fun _ _ => DataGovernanceResponsibleParty.xml_wf)).part)) ?_
  rintro _ ⟨o1, rfl, h1⟩
  refine Turns.then (writeOpt_wf fun _ _ => (writeList_wf fun _ _ => DataGovernanceResponsibleParty.xml_wf)) (Turns.optS (fun o s => { s with custodians := o }) (.tail _ (.head _)) hn (fun _ => rfl) rfl (fun _ _ => (tells_list (fun _ _ => DataGovernanceResponsibleParty.xml_only.part) (fun _ _ => DataGovernanceResponsibleParty.xml_wf)).part)) ?_
  rintro _ ⟨o2, rfl, h2⟩
  refine Turns.imp (Turns.optS (fun o s => { s with stewards := o }) (.tail _ (.tail _ (.head _))) hn (fun _ => rfl) rfl (fun _ _ => (tells_list (fun _ _ => DataGovernanceResponsibleParty.xml_only.part) (fun _ _ => DataGovernanceResponsibleParty.xml_wf)).part)) ?_
  rintro _ ⟨o3, rfl, h3⟩
  intro e
  have e := Except.ok.inj e
  exact {
    owners := h1 (congrArg DataGovernance.owners e)
    custodians := h2 (congrArg DataGovernance.custodians e)
    stewards := h3 (congrArg DataGovernance.stewards e) }

theorem Attachment.tells_content {ns : Option String} {tag : String} {attrs : List (String × String)}
    {s : String} :
    Tells ns (writeElem tag attrs [.chars s]) tag Attachment.readContent
      (fun y => y = s → Trimmed s ∧ s ≠ "") := by
  by_cases hs : xmlTrim s = ""
  · refine ⟨attrs, [], ?_, .inl ⟨.missing "inner characters" tag, fun rest => ?_⟩⟩
    · simp [writeElem, deliver, hs]
    · simp [Attachment.readContent, Attachment.lastText, required, bind, Except.bind]
  · refine ⟨attrs, [.chars (xmlTrim s)], ?_, .inr ⟨xmlTrim s, fun rest => ?_, ?_⟩⟩
    · simp [writeElem, deliver, hs]
    · simp [Attachment.readContent, Attachment.lastText, required, bind, Except.bind]
    · intro h
      refine ⟨h, fun e => hs ?_⟩
      rw [h, e]

theorem Attachment.xml_only {ns : Option String} {tag : String} {x : Attachment} :
    Tells ns (Attachment.writeXml tag x) tag Attachment.readXml
      (fun y => y = x → Attachment.XmlOk x) := by
  obtain ⟨c, t, e⟩ := x
  refine tells_with (p := (none, e.or t)) Attachment.tells_content ?_ ?_
  · cases e <;> cases t <;> rfl
  · intro y hy e
    exact {
      content := hy (congrArg Attachment.content e)
      contentType := (congrArg Attachment.contentType e).symm }

theorem Graphic.xml_only {ns : Option String} {x : Graphic} :
    Tells ns (Graphic.writeXml x) "graphic" Graphic.readXml (fun y => y = x → Graphic.XmlOk x) := by
  have hn : ["name", "image"].Nodup := by decide
  refine tells_struct (Graphic.xml_body_wf) rfl ?_
  refine Turns.then (writeOpt_wf fun _ _ => writeSimple_wf) (Turns.optS (fun o s => { s with name := o }) (.head _) hn (fun _ => rfl) rfl (fun _ _ => tells_simple.part)) ?_
  rintro _ ⟨o1, rfl, h1⟩
  refine Turns.imp (Turns.optS (fun o s => { s with image := o }) (.tail _ (.head _)) hn (fun _ => rfl) rfl (fun _ _ => Attachment.xml_only.part)) ?_
  rintro _ ⟨o2, rfl, h2⟩
  intro e
  have e := Except.ok.inj e
  exact {
    name := h1 (congrArg Graphic.name e)
    image := h2 (congrArg Graphic.image e) }

theorem GraphicsCollection.xml_only {ns : Option String} {tag : String} {x : GraphicsCollection} :
    Tells ns (GraphicsCollection.writeXml tag x) tag GraphicsCollection.readXml (fun y => y = x → GraphicsCollection.XmlOk x) := by
  have hn : ["description", "collection"].Nodup := by decide
  refine tells_struct (GraphicsCollection.xml_body_wf) rfl ?_
  refine Turns.then (writeOpt_wf fun _ _ => writeSimple_wf) (Turns.optS (fun o s => { s with description := o }) (.head _) hn (fun _ => rfl) rfl (fun _ _ => tells_simple.part)) ?_
  rintro _ ⟨o1, rfl, h1⟩
  refine Turns.imp (Turns.optS (fun o s => { s with collection := o }) (.tail _ (.head _)) hn (fun _ => rfl) rfl (fun _ _ => (tells_listIgn (fun _ _ => Graphic.xml_only.part) (fun _ _ => Graphic.xml_wf)).part)) ?_
  rintro _ ⟨o2, rfl, h2⟩
  intro e
  have e := Except.ok.inj e
  exact {
    description := h1 (congrArg GraphicsCollection.description e)
    collection := h2 (congrArg GraphicsCollection.collection e) }

theorem DataContents.xml_only {ns : Option String} {x : DataContents} :
    Tells ns (DataContents.writeXml x) "contents" DataContents.readXml (fun y => y = x → DataContents.XmlOk x) := by
  have hn : ["attachment", "url", "properties"].Nodup := by decide
  refine tells_struct (DataContents.xml_body_wf) rfl ?_
  refine Turns.then (writeOpt_wf fun _ _ => Attachment.xml_wf) (Turns.optS (fun o s => { s with attachment := o }) (.head _) hn (fun _ => rfl) rfl (fun _ _ => Attachment.xml_only.part)) ?_
  rintro _ ⟨o1, rfl, h1⟩
  refine Turns.then (writeOpt_wf fun _ _ => writeSimple_wf) (Turns.optS (fun o s => { s with url := o }) (.tail _ (.head _)) hn (fun _ => rfl) rfl (fun _ _ => tells_simple.part)) ?_
  rintro _ ⟨o2, rfl, h2⟩
  refine Turns.imp (Turns.optS (fun o s => { s with properties := o }) (.tail _ (.tail _ (.head _))) hn (fun _ => rfl) rfl (fun _ _ => (tells_listLax (fun _ _ => Property.xml_only.part) (fun _ _ => Property.xml_wf)).part)) ?_
  rintro _ ⟨o3, rfl, h3⟩
  intro e
  have e := Except.ok.inj e
  exact {
    attachment := h1 (congrArg DataContents.attachment e)
    url := h2 (congrArg DataContents.url e)
    properties := h3 (congrArg DataContents.properties e) }

theorem ComponentData.xml_only {ns : Option String} {tag : String} {x : ComponentData} :
    Tells ns (ComponentData.writeXml tag x) tag ComponentData.readXml (fun y => y = x → ComponentData.XmlOk x) := by
  have hn : ["type", "name", "contents", "classification", "sensitiveData", "graphics", "description", "governance"].Nodup := by decide
  have ha : ["bom-ref"].Nodup := by decide
  refine tells_struct (p := (x.bomRef)) (ComponentData.xml_body_wf) ?_ ?_
  · exact congrArg Except.ok (optAttr_mk ha (.head _))
  · refine Turns.then writeSimple_wf (Turns.one (tells_enum (stable_of ComponentDataType.display_new)) (.head _) hn) ?_
    rintro _ ⟨o1, rfl, h1⟩
    refine Turns.then (writeOpt_wf fun _ _ => writeSimple_wf) (Turns.optS (fun o s => { s with name := o }) (.tail _ (.head _)) hn (fun _ => rfl) rfl (fun _ _ => tells_simple.part)) ?_
    rintro _ ⟨o2, rfl, h2⟩
    refine Turns.then (writeOpt_wf fun _ _ => DataContents.xml_wf) (Turns.optS (fun o s => { s with contents := o }) (.tail _ (.tail _ (.head _))) hn (fun _ => rfl) rfl (fun _ _ => DataContents.xml_only.part)) ?_
    rintro _ ⟨o3, rfl, h3⟩
    refine Turns.then (writeOpt_wf fun _ _ => writeSimple_wf) (Turns.optS (fun o s => { s with classification := o }) (.tail _ (.tail _ (.tail _ (.head _)))) hn (fun _ => rfl) rfl (fun _ _ => tells_simple.part)) ?_
    rintro _ ⟨o4, rfl, h4⟩
    refine Turns.then (writeOpt_wf fun _ _ => writeSimple_wf) (Turns.optS (fun o s => { s with sensitiveData := o }) (.tail _ (.tail _ (.tail _ (.tail _ (.head _))))) hn (fun _ => rfl) rfl (fun _ _ => tells_simple.part)) ?_
    rintro _ ⟨o5, rfl, h5⟩
    refine Turns.then (writeOpt_wf fun _ _ => GraphicsCollection.xml_wf) (Turns.optS (fun o s => { s with graphics := o }) (.tail _ (.tail _ (.tail _ (.tail _ (.tail _ (.head _)))))) hn (fun _ => rfl) rfl (fun _ _ => GraphicsCollection.xml_only.part)) ?_
    rintro _ ⟨o6, rfl, h6⟩
    refine Turns.then (writeOpt_wf fun _ _ => writeSimple_wf) (Turns.optS (fun o s => { s with description := o }) (.tail _ (.tail _ (.tail _ (.tail _ (.tail _ (.tail _ (.head _))))))) hn (fun _ => rfl) rfl (fun _ _ => tells_simple.part)) ?_
    rintro _ ⟨o7, rfl, h7⟩
    refine Turns.imp (Turns.optS (fun o s => { s with governance := o }) (.tail _ (.tail _ (.tail _ (.tail _ (.tail _ (.tail _ (.tail _ (.head _)))))))) hn (fun _ => rfl) rfl (fun _ _ => DataGovernance.xml_only.part)) ?_
    rintro _ ⟨o8, rfl, h8⟩
    intro e
    have e := Except.ok.inj e
    exact {
      dataType := h1 (congrArg ComponentData.dataType e)
      name := h2 (congrArg ComponentData.name e)
      contents := h3 (congrArg ComponentData.contents e)
      classification := h4 (congrArg ComponentData.classification e)
      sensitiveData := h5 (congrArg ComponentData.sensitiveData e)
      graphics := h6 (congrArg ComponentData.graphics e)
      description := h7 (congrArg ComponentData.description e)
      governance := h8 (congrArg ComponentData.governance e) }

theorem ModelParametersApproach.xml_only {ns : Option String} {x : ModelParametersApproach} :
    Tells ns (ModelParametersApproach.writeXml x) "approach" ModelParametersApproach.readXml (fun y => y = x → ModelParametersApproach.XmlOk x) := by
  have hn : ["type"].Nodup := by decide
  refine tells_struct (ModelParametersApproach.xml_body_wf) rfl ?_
  refine Turns.imp (Turns.optS (fun o s => { s with approachType := o }) (.head _) hn (fun _ => rfl) rfl (fun _ _ => (tells_enum (stable_of ApproachType.display_new)).part)) ?_
  rintro _ ⟨o1, rfl, h1⟩
  intro e
  have e := Except.ok.inj e
  exact {
    approachType := h1 (congrArg ModelParametersApproach.approachType e) }

theorem Dataset.xml_only {ns : Option String} {x : Dataset} :
    Tells ns (Dataset.writeXml x) "dataset" Dataset.readXml (fun y => y = x → Dataset.XmlOk x) := by
  cases x with
  | component y =>
    exact tells_map ComponentData.xml_only fun z hz e => hz (Dataset.component.inj e)
  | reference r =>
    have h : Tells ns (writeElem "dataset" [] (writeSimple "ref" r)) "dataset" ComponentData.readXml
        (fun _ => False) := by
      unfold ComponentData.readXml
      refine tells_fields (p := none) writeSimple_wf rfl ?_
      have hl : ComponentData.arms.lookup "ref" = none := by
        simp [ComponentData.arms, List.lookup]
      have hg : Moves ns .ignore ⟨"dataset", ns, none⟩ ComponentData.arms
          (writeElem "ref" [] [.chars r]) {} {} :=
        Moves.ignored (.chars r) hl (by decide : "ref" ≠ "dataset") Moves.ignored_text
      refine Turns.imp (Turns.same hg) ?_
      rintro _ rfl y e
      exact nomatch e
    exact tells_map h fun _ h => h.elim

theorem MLParameter.xml_only {ns : Option String} {tag : String} {x : MLParameter} :
    Tells ns (MLParameter.writeXml tag x) tag MLParameter.readXml (fun y => y = x → MLParameter.XmlOk x) := by
  have hn : ["format"].Nodup := by decide
  refine tells_struct (MLParameter.xml_body_wf) rfl ?_
  refine Turns.imp (Turns.optS (fun o s => { s with format := o }) (.head _) hn (fun _ => rfl) rfl (fun _ _ => tells_simple.part)) ?_
  rintro _ ⟨o1, rfl, h1⟩
  intro e
  have e := Except.ok.inj e
  exact {
    format := h1 (congrArg MLParameter.format e) }

theorem ModelParameters.xml_only {ns : Option String} {x : ModelParameters} :
    Tells ns (ModelParameters.writeXml x) "modelParameters" ModelParameters.readXml (fun y => y = x → ModelParameters.XmlOk x) := by
  have hn : ["approach", "task", "architectureFamily", "modelArchitecture", "datasets", "inputs", "outputs"].Nodup := by decide
  refine tells_struct (ModelParameters.xml_body_wf) rfl ?_
  refine Turns.then (writeOpt_wf fun _ _ => ModelParametersApproach.xml_wf) (Turns.optS (fun o s => { s with approach := o }) (.head _) hn (fun _ => rfl) rfl (fun _ _ => ModelParametersApproach.xml_only.part)) ?_
  rintro _ ⟨o1, rfl, h1⟩
  refine Turns.then (writeOpt_wf fun _ _ => writeSimple_wf) (Turns.optS (fun o s => { s with task := o }) (.tail _ (.head _)) hn (fun _ => rfl) rfl (fun _ _ => tells_simple.part)) ?_
  rintro _ ⟨o2, rfl, h2⟩
  refine Turns.then (writeOpt_wf fun _ _ => writeSimple_wf) (Turns.optS (fun o s => { s with architectureFamily := o }) (.tail _ (.tail _ (.head _))) hn (fun _ => rfl) rfl (fun _ _ => tells_simple.part)) ?_
  rintro _ ⟨o3, rfl, h3⟩
  refine Turns.then (writeOpt_wf fun _ _ => writeSimple_wf) (Turns.optS (fun o s => { s with modelArchitecture := o }) (.tail _ (.tail _ (.tail _ (.head _)))) hn (fun _ => rfl) rfl (fun _ _ => tells_simple.part)) ?_
  rintro _ ⟨o4, rfl, h4⟩
  refine Turns.then (writeOpt_wf fun _ _ => (writeList_wf fun _ _ => Dataset.xml_wf)) (Turns.optS (fun o s => { s with datasets := o }) (.tail _ (.tail _ (.tail _ (.tail _ (.head _))))) hn (fun _ => rfl) rfl (fun _ _ => (tells_list (fun _ _ => Dataset.xml_only.part) (fun _ _ => Dataset.xml_wf)).part)) ?_
  rintro _ ⟨o5, rfl, h5⟩
  refine Turns.then (writeOpt_wf fun _ _ => (writeList_wf fun _ _ => MLParameter.xml_wf)) (Turns.optS (fun o s => { s with inputs := o }) (.tail _ (.tail _ (.tail _ (.tail _ (.tail _ (.head _)))))) hn (fun _ => rfl) rfl (fun _ _ => (tells_listIgn (fun _ _ => MLParameter.xml_only.part) (fun _ _ => MLParameter.xml_wf)).part)) ?_
  rintro _ ⟨o6, rfl, h6⟩
  refine Turns.imp (Turns.optS (fun o s => { s with outputs := o }) (.tail _ (.tail _ (.tail _ (.tail _ (.tail _ (.tail _ (.head _))))))) hn (fun _ => rfl) rfl (fun _ _ => (tells_listIgn (fun _ _ => MLParameter.xml_only.part) (fun _ _ => MLParameter.xml_wf)).part)) ?_
  rintro _ ⟨o7, rfl, h7⟩
  intro e
  have e := Except.ok.inj e
  exact {
    approach := h1 (congrArg ModelParameters.approach e)
    task := h2 (congrArg ModelParameters.task e)
    architectureFamily := h3 (congrArg ModelParameters.architectureFamily e)
    modelArchitecture := h4 (congrArg ModelParameters.modelArchitecture e)
    datasets := h5 (congrArg ModelParameters.datasets e)
    inputs := h6 (congrArg ModelParameters.inputs e)
    outputs := h7 (congrArg ModelParameters.outputs e) }

theorem ConfidenceInterval.xml_only {ns : Option String} {x : ConfidenceInterval} :
    Tells ns (ConfidenceInterval.writeXml x) "confidenceInterval" ConfidenceInterval.readXml (fun y => y = x → ConfidenceInterval.XmlOk x) := by
  have hn : ["lowerBound", "upperBound"].Nodup := by decide
  refine tells_struct (ConfidenceInterval.xml_body_wf) rfl ?_
  refine Turns.then (writeOpt_wf fun _ _ => writeSimple_wf) (Turns.optS (fun o s => { s with lowerBound := o }) (.head _) hn (fun _ => rfl) rfl (fun _ _ => tells_simple.part)) ?_
  rintro _ ⟨o1, rfl, h1⟩
  refine Turns.imp (Turns.optS (fun o s => { s with upperBound := o }) (.tail _ (.head _)) hn (fun _ => rfl) rfl (fun _ _ => tells_simple.part)) ?_
  rintro _ ⟨o2, rfl, h2⟩
  intro e
  have e := Except.ok.inj e
  exact {
    lowerBound := h1 (congrArg ConfidenceInterval.lowerBound e)
    upperBound := h2 (congrArg ConfidenceInterval.upperBound e) }

theorem PerformanceMetric.xml_only {ns : Option String} {x : PerformanceMetric} :
    Tells ns (PerformanceMetric.writeXml x) "performanceMetric" PerformanceMetric.readXml (fun y => y = x → PerformanceMetric.XmlOk x) := by
  have hn : ["type", "value", "slice", "confidenceInterval"].Nodup := by decide
  refine tells_struct (PerformanceMetric.xml_body_wf) rfl ?_
  refine Turns.then (writeOpt_wf fun _ _ => writeSimple_wf) (Turns.optS (fun o s => { s with metricType := o }) (.head _) hn (fun _ => rfl) rfl (fun _ _ => tells_simple.part)) ?_
  rintro _ ⟨o1, rfl, h1⟩
  refine Turns.then (writeOpt_wf fun _ _ => writeSimple_wf) (Turns.optS (fun o s => { s with value := o }) (.tail _ (.head _)) hn (fun _ => rfl) rfl (fun _ _ => tells_simple.part)) ?_
  rintro _ ⟨o2, rfl, h2⟩
  refine Turns.then (writeOpt_wf fun _ _ => writeSimple_wf) (Turns.optS (fun o s => { s with slice := o }) (.tail _ (.tail _ (.head _))) hn (fun _ => rfl) rfl (fun _ _ => tells_simple.part)) ?_
  rintro _ ⟨o3, rfl, h3⟩
  refine Turns.imp (Turns.optS (fun o s => { s with confidenceInterval := o }) (.tail _ (.tail _ (.tail _ (.head _)))) hn (fun _ => rfl) rfl (fun _ _ => ConfidenceInterval.xml_only.part)) ?_
  rintro _ ⟨o4, rfl, h4⟩
  intro e
  have e := Except.ok.inj e
  exact {
    metricType := h1 (congrArg PerformanceMetric.metricType e)
    value := h2 (congrArg PerformanceMetric.value e)
    slice := h3 (congrArg PerformanceMetric.slice e)
    confidenceInterval := h4 (congrArg PerformanceMetric.confidenceInterval e) }

theorem QuantitativeAnalysis.xml_only {ns : Option String} {x : QuantitativeAnalysis} :
    Tells ns (QuantitativeAnalysis.writeXml x) "quantitativeAnalysis" QuantitativeAnalysis.readXml (fun y => y = x → QuantitativeAnalysis.XmlOk x) := by
  have hn : ["performanceMetrics", "graphics"].Nodup := by decide
  refine tells_struct (QuantitativeAnalysis.xml_body_wf) rfl ?_
  refine Turns.then (writeOpt_wf fun _ _ => (writeList_wf fun _ _ => PerformanceMetric.xml_wf)) (Turns.optS (fun o s => { s with performanceMetrics := o }) (.head _) hn (fun _ => rfl) rfl (fun _ _ => (tells_listIgn (fun _ _ => PerformanceMetric.xml_only.part) (fun _ _ => PerformanceMetric.xml_wf)).part)) ?_
  rintro _ ⟨o1, rfl, h1⟩
  refine Turns.imp (Turns.optS (fun o s => { s with graphics := o }) (.tail _ (.head _)) hn (fun _ => rfl) rfl (fun _ _ => GraphicsCollection.xml_only.part)) ?_
  rintro _ ⟨o2, rfl, h2⟩
  intro e
  have e := Except.ok.inj e
  exact {
    performanceMetrics := h1 (congrArg QuantitativeAnalysis.performanceMetrics e)
    graphics := h2 (congrArg QuantitativeAnalysis.graphics e) }

theorem ModelCard.goes_properties {ns : Option String} {el : XName} (hel : el.localName = "modelCard")
    {st : ModelCard.Vars} : ∀ {l : List Property},
    Moves ns .ignore el ModelCard.arms (l.flatMap Property.writeXml) st st
  | [] => Moves.nil
  | y :: l => by
    rw [List.flatMap_cons]
    exact Moves.append (Moves.ignored (tag := "property") (.chars y.value) rfl
      (by rw [hel]; decide) Moves.ignored_text) (ModelCard.goes_properties hel) Property.xml_wf

theorem ModelCard.xml_only {ns : Option String} {x : ModelCard} :
    Tells ns (ModelCard.writeXml x) "modelCard" ModelCard.readXml
      (fun y => y = x → ModelCard.XmlOk x) := by
  have hn : ["modelParameters", "quantitativeAnalysis"].Nodup := by decide
  have ha : ["bom-ref"].Nodup := by decide
  refine tells_struct (p := (x.bomRef)) (ModelCard.xml_body_wf) ?_ ?_
  · exact congrArg Except.ok (optAttr_mk ha (.head _))
  · refine Turns.then (writeOpt_wf fun _ _ => ModelParameters.xml_wf)
      (Turns.optS (fun o s => { s with modelParameters := o }) (.head _) hn (fun _ => rfl) rfl
        (fun _ _ => ModelParameters.xml_only.part)) ?_
    rintro _ ⟨o1, rfl, h1⟩
    refine Turns.then (writeOpt_wf fun _ _ => QuantitativeAnalysis.xml_wf)
      (Turns.optS (fun o s => { s with quantitativeAnalysis := o }) (.tail _ (.head _)) hn
        (fun _ => rfl) rfl (fun _ _ => QuantitativeAnalysis.xml_only.part)) ?_
    rintro _ ⟨o2, rfl, h2⟩
    refine Turns.then (writeOpt_wf fun _ _ => Considerations.xml_wf) (Turns.same ?_) ?_
    · cases x.considerations with
      | none => exact Moves.nil
      | some c =>
        exact Moves.ignored (tag := "considerations") (attrs := []) .nil rfl
          (by decide : "considerations" ≠ "modelCard") Moves.nil
    rintro _ rfl
    refine Turns.imp (Turns.same ?_) ?_
    · cases x.properties with
      | none => exact Moves.nil
      | some l =>
        exact Moves.ignored (tag := "properties") (attrs := []) (flatMap_wf fun _ _ => Property.xml_wf)
          rfl (by decide : "properties" ≠ "modelCard") (ModelCard.goes_properties rfl)
    rintro _ rfl
    intro e
    have e := Except.ok.inj e
    exact {
      considerations := (congrArg ModelCard.considerations e).symm
      properties := (congrArg ModelCard.properties e).symm
      modelParameters := h1 (congrArg ModelCard.modelParameters e)
      quantitativeAnalysis := h2 (congrArg ModelCard.quantitativeAnalysis e) }

theorem DataClassification.xml_only {ns : Option String} {x : DataClassification} :
    Tells ns (DataClassification.writeXml x) "classification" DataClassification.readXml
      (fun y => y = x → DataClassification.XmlOk x) := by
  have ha : ["flow"].Nodup := by decide
  refine tells_with (p := (DataFlowType.display x.flow)) tells_text ?_ ?_
  · refine bindOk (reqAttr_mk ha (.head _)) ?_
    exact congrArg Except.ok rfl
  · intro y hy e
    exact { flow := congrArg DataClassification.flow e
            classification := hy (congrArg DataClassification.classification e) }

theorem ServiceData.xml_only {ns : Option String} {x : ServiceData} :
    Tells ns (ServiceData.writeXml x) "dataflow" ServiceData.readXml (fun y => y = x → ServiceData.XmlOk x) := by
  obtain ⟨name, description, classification, governance, source, destination⟩ := x
  have hn : ["classification", "governance", "source", "destination"].Nodup := by decide
  refine tells_struct (p := (name.or description, none)) ServiceData.xml_body_wf ?_ ?_
  · cases name <;> cases description <;> rfl
  · refine Turns.then DataClassification.xml_wf (Turns.one DataClassification.xml_only (.head _) hn) ?_
    rintro _ ⟨o1, rfl, h1⟩
    refine Turns.then (writeOpt_wf fun _ _ => DataGovernance.xml_wf) (Turns.optS (fun o s => { s with governance := o }) (.tail _ (.head _)) hn (fun _ => rfl) rfl (fun _ _ => DataGovernance.xml_only.part)) ?_
    rintro _ ⟨o2, rfl, h2⟩
    refine Turns.then (writeOpt_wf fun _ _ => writeList_wf fun _ _ => writeSimple_wf) (Turns.optS (fun o s => { s with source := o }) (.tail _ (.tail _ (.head _))) hn (fun _ => rfl) rfl (fun _ _ => (tells_list (fun _ _ => tells_simple.part) (fun _ _ => writeSimple_wf)).part)) ?_
    rintro _ ⟨o3, rfl, h3⟩
    refine Turns.imp (Turns.optS (fun o s => { s with destination := o }) (.tail _ (.tail _ (.tail _ (.head _)))) hn (fun _ => rfl) rfl (fun _ _ => (tells_list (fun _ _ => tells_simple.part) (fun _ _ => writeSimple_wf)).part)) ?_
    rintro _ ⟨o4, rfl, h4⟩
    intro e
    have e := Except.ok.inj e
    exact {
      description := (congrArg ServiceData.description e).symm
      classification := h1 (congrArg ServiceData.classification e)
      governance := h2 (congrArg ServiceData.governance e)
      source := h3 (congrArg ServiceData.source e)
      destination := h4 (congrArg ServiceData.destination e) }

theorem ServiceDataChoice.tells_classes (v : SpecVersion) {ns : Option String}
    {l : List DataClassification} :
    Tells ns (writeElem "data" [] (l.flatMap DataClassification.writeXml)) "data"
      (ServiceDataChoice.readXml v)
      (fun y => y = .classification l → ∀ x ∈ l, DataClassification.XmlOk x) := by
  have key : ∀ (hm : ("classification", arm DataClassification.readXml
        fun y (s : ServiceDataChoice.Vars) => { s with classifications := s.classifications ++ [y] }) ∈
        ServiceDataChoice.arms v) (hn : ((ServiceDataChoice.arms v).map (·.1)).Nodup),
      Tells ns (writeElem "data" [] (l.flatMap DataClassification.writeXml)) "data"
      (ServiceDataChoice.readXml v)
      (fun y => y = .classification l → ∀ x ∈ l, DataClassification.XmlOk x) := by
    intro hm hn
    refine tells_struct (flatMap_wf fun _ _ => DataClassification.xml_wf) rfl ?_
    refine Turns.imp (Turns.inlineReqS (fun o s => { s with classifications := o }) hm hn
      (fun _ _ => rfl) rfl (fun _ _ => DataClassification.xml_only.part)
      (fun _ => DataClassification.xml_wf)) ?_
    rintro _ ⟨o, rfl, h⟩ e
    exact h (ServiceDataChoice.classification.inj (Except.ok.inj e))
  cases v with
  | v1_3 => exact key (.head _) (by decide : ["classification"].Nodup)
  | v1_4 => exact key (.head _) (by decide : ["classification"].Nodup)
  | v1_5 => exact key (.head _) (by decide : ["classification", "dataflow"].Nodup)

theorem ServiceDataChoice.xml_only (v : SpecVersion) {ns : Option String} {x : ServiceDataChoice} :
    Tells ns (ServiceDataChoice.writeXml v x) "data" (ServiceDataChoice.readXml v)
      (fun y => y = x.at v → ServiceDataChoice.XmlOk v x) := by
  cases x with
  | classification l => exact ServiceDataChoice.tells_classes v
  | serviceData l =>
    have h' : (∀ x ∈ l.map (·.classification), DataClassification.XmlOk x) →
        ∀ x ∈ l, DataClassification.XmlOk x.classification :=
      fun h x hx => h _ (List.mem_map_of_mem hx)
    cases v with
    | v1_3 =>
      exact (ServiceDataChoice.tells_classes .v1_3).imp fun y hy e =>
        ⟨fun hv => (nomatch hv), fun _ => h' (hy e)⟩
    | v1_4 =>
      exact (ServiceDataChoice.tells_classes .v1_4).imp fun y hy e =>
        ⟨fun hv => (nomatch hv), fun _ => h' (hy e)⟩
    | v1_5 =>
      have hn : ["classification", "dataflow"].Nodup := by decide
      refine tells_struct (flatMap_wf fun _ _ => ServiceData.xml_wf) rfl ?_
      refine Turns.imp (Turns.inlineReqS (fun o s => { s with serviceData := o }) (.tail _ (.head _)) hn
        (fun _ _ => rfl) rfl (fun _ _ => ServiceData.xml_only.part) (fun _ => ServiceData.xml_wf)) ?_
      rintro _ ⟨o, rfl, h⟩ e
      have e := Except.ok.inj e
      cases o with
      | nil => exact nomatch e
      | cons y o =>
        have e : y :: o = l := ServiceDataChoice.serviceData.inj e
        exact ⟨fun _ => ⟨by rw [← e]; nofun, h e⟩, fun hv => absurd rfl hv⟩

theorem parseU32_show_none {n : Nat} (h : ¬ n < 2 ^ 32) : parseU32 (showNat n) = none := by
  have hv : Nat.ofDigitChars 10 (Nat.toDigits 10 n) 0 = n := Nat.ofDigitChars_ten_toDigits
  have hall : ∀ c ∈ Nat.toDigits 10 n, c.isDigit = true := fun c hc =>
    Nat.isDigit_of_mem_toDigits (by decide) (by decide) hc
  unfold parseU32
  rw [showNat_toList]
  cases hd : Nat.toDigits 10 n with
  | nil => rfl
  | cons c l =>
    have hc : c ≠ '+' := by
      intro e
      have := hall c (hd ▸ .head _)
      subst e
      exact absurd this (by decide)
    rw [hd] at hv
    have : (if (c :: l).head? = some '+' then (c :: l).tail else c :: l) = c :: l :=
      if_neg (by simpa using hc)
    simp only [this, hv, if_neg h, ite_self]

theorem optParse_u32_error {el : String} {x : Option Nat} (h : ¬ ∀ y, x = some y → y < 2 ^ 32) :
    ∃ e, optParse (parseU32Attr el) (x.map showNat) = .error e := by
  cases x with
  | none => exact absurd (fun _ h => nomatch h) h
  | some y =>
    have hy : ¬ y < 2 ^ 32 := fun hy => h fun z hz => by cases hz; exact hy
    exact ⟨_, by simp only [Option.map_some, optParse, parseU32Attr, parseU32_show_none hy, Except.map]; rfl⟩

theorem Swid.xml_only {ns : Option String} {x : Swid} :
    Tells ns (Swid.writeXml x) "swid" Swid.readXml (fun y => y = x → Swid.XmlOk x) := by
  have hn : ["text", "url"].Nodup := by decide
  have ha : ["tagId", "name", "version", "tagVersion", "patch"].Nodup := by decide
  have e2 : optAttr (mkAttrs [("tagId", some x.tagId), ("name", some x.name), ("version", x.version),
      ("tagVersion", x.tagVersion.map showNat), ("patch", x.patch.map boolStr)]) "version" = x.version :=
    optAttr_mk ha (.tail _ (.tail _ (.head _)))
  have e3 : optAttr (mkAttrs [("tagId", some x.tagId), ("name", some x.name), ("version", x.version),
      ("tagVersion", x.tagVersion.map showNat), ("patch", x.patch.map boolStr)]) "tagVersion" = x.tagVersion.map showNat :=
    optAttr_mk ha (.tail _ (.tail _ (.tail _ (.head _))))
  have e4 : optAttr (mkAttrs [("tagId", some x.tagId), ("name", some x.name), ("version", x.version),
      ("tagVersion", x.tagVersion.map showNat), ("patch", x.patch.map boolStr)]) "patch" = x.patch.map boolStr :=
    optAttr_mk ha (.tail _ (.tail _ (.tail _ (.tail _ (.head _)))))
  by_cases hv : ∀ y, x.tagVersion = some y → y < 2 ^ 32
  · refine tells_struct (p := (x.tagId, x.name, x.version, x.tagVersion, x.patch)) Swid.xml_body_wf ?_ ?_
    · refine bindOk (reqAttr_mk ha (.head _)) ?_
      refine bindOk (reqAttr_mk ha (.tail _ (.head _))) ?_
      rw [e2, e3, e4]
      refine bindOk (optParse_u32 hv) ?_
      exact bindOk optParse_bool rfl
    · refine Turns.then (writeOpt_wf fun _ _ => AttachedText.xml_wf)
        (Turns.optS (fun o s => { s with text := o }) (.head _) hn (fun _ => rfl) rfl
          (fun _ _ => AttachedText.xml_only.part)) ?_
      rintro _ ⟨o1, rfl, h1⟩
      refine Turns.imp (Turns.optS (fun o s => { s with url := o }) (.tail _ (.head _)) hn
        (fun _ => rfl) rfl (fun _ _ => tells_simple.part)) ?_
      rintro _ ⟨o2, rfl, h2⟩ e
      have e := Except.ok.inj e
      exact { tagVersion := hv
              text := h1 (congrArg Swid.text e)
              url := h2 (congrArg Swid.url e) }
  · obtain ⟨e, he⟩ := optParse_u32_error (el := "tagVersion") hv
    refine tells_refused (e := e) Swid.xml_body_wf ?_
    refine bindOk (reqAttr_mk ha (.head _)) ?_
    refine bindOk (reqAttr_mk ha (.tail _ (.head _))) ?_
    rw [e2, e3, e4, he]
    rfl

theorem Lifecycle.xml_only {ns : Option String} {x : Lifecycle} :
    Tells ns (Lifecycle.writeXml x) "lifecycle" Lifecycle.readXml
      (fun y => y = x → Lifecycle.XmlOk x) := by
  have hn : ["phase", "name", "description"].Nodup := by decide
  cases x with
  | phase p =>
    refine tells_struct writeSimple_wf rfl ?_
    refine Turns.imp (Turns.one (P := fun y => y = xmlTrim (Phase.display p))
      ((reads_trimmed (attrs := [])).tells rfl) (.head _) hn) ?_
    rintro _ ⟨_, rfl, rfl⟩ e
    exact stable_of Phase.display_new (Lifecycle.phase.inj (Except.ok.inj e))
  | description d =>
    refine tells_struct (.append writeSimple_wf (writeOpt_wf fun _ _ => writeSimple_wf)) rfl ?_
    refine Turns.then writeSimple_wf (Turns.one tells_simple (.tail _ (.head _)) hn) ?_
    rintro _ ⟨o1, rfl, h1⟩
    refine Turns.imp (Turns.optS (fun o s => { s with description := o }) (.tail _ (.tail _ (.head _))) hn
      (fun _ => rfl) rfl (fun _ _ => tells_simple.part)) ?_
    rintro _ ⟨o2, rfl, h2⟩ e
    have e := Lifecycle.description.inj (Except.ok.inj e)
    exact ⟨h1 (congrArg (fun d => d.name) e), h2 (congrArg (fun d => d.description) e)⟩

end Cdx
