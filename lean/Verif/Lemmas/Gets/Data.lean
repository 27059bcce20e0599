import Verif.Lemmas.Gets.Parts

set_option linter.unusedSectionVars false
set_option linter.unusedSimpArgs false
set_option linter.unusedVariables false

/-!
# What the readers of data, models and evidence return
-/

namespace Cdx

variable [F32Format] [ReadLimit] {v w : SpecVersion}

theorem DataGovernanceResponsibleParty.gets : Gets DataGovernanceResponsibleParty.readXml fun x =>
    (DataGovernanceResponsibleParty.XmlKept x → DataGovernanceResponsibleParty.XmlOk x) := by
  unfold DataGovernanceResponsibleParty.readXml
  refine struct_gets (fun o : Option DataGovernanceResponsibleParty => ∀ y, o = some y →
    (DataGovernanceResponsibleParty.XmlKept y → DataGovernanceResponsibleParty.XmlOk y)) nofun ?_ ?_
  · unfold DataGovernanceResponsibleParty.arms
    exact armsGetCons (arm_gets OrganizationalEntity.gets fun y _ _ hy z e => by cases e; first | exact hy | exact fun _ => hy) <|
      armsGetCons (arm_gets OrganizationalContact.gets fun y _ _ hy z e => by cases e; first | exact hy | exact fun _ => hy) <|
      armsGetNil
  · intro el attrs p s x hp hs h
    exact hs x (required_eq h)

/-- What is known of the local variables of the reader of `DataGovernance`. -/
structure DataGovernance.Vars.Got (s : DataGovernance.Vars) : Prop where
  owners : ∀ y, s.owners = some y → ∀ z ∈ y, (DataGovernanceResponsibleParty.XmlKept z → DataGovernanceResponsibleParty.XmlOk z)
  custodians : ∀ y, s.custodians = some y → ∀ z ∈ y, (DataGovernanceResponsibleParty.XmlKept z → DataGovernanceResponsibleParty.XmlOk z)
  stewards : ∀ y, s.stewards = some y → ∀ z ∈ y, (DataGovernanceResponsibleParty.XmlKept z → DataGovernanceResponsibleParty.XmlOk z)

theorem DataGovernance.gets : Gets (DataGovernance.readXml) fun x => (DataGovernance.XmlKept x → DataGovernance.XmlOk x) := by
  unfold DataGovernance.readXml
  refine struct_gets (DataGovernance.Vars.Got) { owners := noneAll, custodians := noneAll, stewards := noneAll } ?_ ?_
  · unfold DataGovernance.arms
    exact armsGetCons (arm_gets (list_gets DataGovernanceResponsibleParty.gets) fun y s h hy => { h with owners := fun z e => by cases e; exact hy }) <|
      armsGetCons (arm_gets (list_gets DataGovernanceResponsibleParty.gets) fun y s h hy => { h with custodians := fun z e => by cases e; exact hy }) <|
      armsGetCons (arm_gets (list_gets DataGovernanceResponsibleParty.gets) fun y s h hy => { h with stewards := fun z e => by cases e; exact hy }) <|
      armsGetNil
  · intro el attrs p s x hp hs h
    cases h
    exact fun hk => { owners := fun y hy z hz => (hs.owners y hy z hz) (hk.owners y hy z hz),
                      custodians := fun y hy z hz => (hs.custodians y hy z hz) (hk.custodians y hy z hz),
                      stewards := fun y hy z hz => (hs.stewards y hy z hz) (hk.stewards y hy z hz) }

theorem Attachment.lastText_gets {el : XName} : ∀ {evs : List XEvent} {st o : Option String}
    {rest : List XEvent}, (∀ s, st = some s → Trimmed s ∧ s ≠ "") → CleanTexts evs →
    Attachment.lastText el st evs = .ok (o, rest) →
    (∀ s, o = some s → Trimmed s ∧ s ≠ "") ∧ CleanTexts rest
  | [], _, _, _, _, _, h => by cases h
  | .chars s :: l, st, _, _, hs, hc, h => by
    simp only [Attachment.lastText] at h
    exact Attachment.lastText_gets (fun z e => by cases e; exact hc.head) hc.tail h
  | .stop n :: l, st, _, _, hs, hc, h => by
    simp only [Attachment.lastText] at h
    split at h
    · cases h; exact ⟨hs, hc.tail⟩
    · exact Attachment.lastText_gets hs hc.tail h
  | .start _ _ _ :: l, st, _, _, hs, hc, h =>
    Attachment.lastText_gets hs hc.tail (by simpa only [Attachment.lastText] using h)
  | .cdata _ :: l, st, _, _, hs, hc, h =>
    Attachment.lastText_gets hs hc.tail (by simpa only [Attachment.lastText] using h)
  | .startDocument :: l, st, _, _, hs, hc, h =>
    Attachment.lastText_gets hs hc.tail (by simpa only [Attachment.lastText] using h)
  | .other :: l, st, _, _, hs, hc, h =>
    Attachment.lastText_gets hs hc.tail (by simpa only [Attachment.lastText] using h)
  | .endDocument :: l, st, _, _, hs, hc, h =>
    Attachment.lastText_gets hs hc.tail (by simpa only [Attachment.lastText] using h)

theorem Attachment.gets : Gets Attachment.readXml fun x => (Attachment.XmlKept x → Attachment.XmlOk x) := by
  unfold Attachment.readXml
  refine with_gets (P := fun s => Trimmed s ∧ s ≠ "") ?_ fun el attrs p x _ hx hk => ?_
  · intro el attrs evs x rest hc h
    unfold Attachment.readContent at h
    obtain ⟨⟨o, l⟩, hl, h⟩ := xbind h
    obtain ⟨s, hs, h⟩ := xbind h
    obtain ⟨g1, g2⟩ := Attachment.lastText_gets (fun _ e => by cases e) hc hl
    cases h
    exact ⟨g1 _ (required_eq hs), g2⟩
  · exact { content := hx, contentType := hk.contentType }

/-- What is known of the local variables of the reader of `Graphic`. -/
structure Graphic.Vars.Got (s : Graphic.Vars) : Prop where
  name : ∀ y, s.name = some y → Trimmed y
  image : ∀ y, s.image = some y → (Attachment.XmlKept y → Attachment.XmlOk y)

theorem Graphic.gets : Gets (Graphic.readXml) fun x => (Graphic.XmlKept x → Graphic.XmlOk x) := by
  unfold Graphic.readXml
  refine struct_gets (Graphic.Vars.Got) { name := noneAll, image := noneAll } ?_ ?_
  · unfold Graphic.arms
    exact armsGetCons (arm_gets readSimple_gets fun y s h hy => { h with name := fun z e => by cases e; exact hy }) <|
      armsGetCons (arm_gets Attachment.gets fun y s h hy => { h with image := fun z e => by cases e; exact hy }) <|
      armsGetNil
  · intro el attrs p s x hp hs h
    cases h
    exact fun hk => { name := fun y hy => hs.name y hy,
                      image := fun y hy => (hs.image y hy) (hk.image y hy) }

/-- What is known of the local variables of the reader of `GraphicsCollection`. -/
structure GraphicsCollection.Vars.Got (s : GraphicsCollection.Vars) : Prop where
  description : ∀ y, s.description = some y → Trimmed y
  collection : ∀ y, s.collection = some y → ∀ z ∈ y, (Graphic.XmlKept z → Graphic.XmlOk z)

theorem GraphicsCollection.gets : Gets (GraphicsCollection.readXml) fun x => (GraphicsCollection.XmlKept x → GraphicsCollection.XmlOk x) := by
  unfold GraphicsCollection.readXml
  refine struct_gets (GraphicsCollection.Vars.Got) { description := noneAll, collection := noneAll } ?_ ?_
  · unfold GraphicsCollection.arms
    exact armsGetCons (arm_gets readSimple_gets fun y s h hy => { h with description := fun z e => by cases e; exact hy }) <|
      armsGetCons (arm_gets (list_gets Graphic.gets) fun y s h hy => { h with collection := fun z e => by cases e; exact hy }) <|
      armsGetNil
  · intro el attrs p s x hp hs h
    cases h
    exact fun hk => { description := fun y hy => hs.description y hy,
                      collection := fun y hy z hz => (hs.collection y hy z hz) (hk.collection y hy z hz) }

/-- What is known of the local variables of the reader of `DataContents`. -/
structure DataContents.Vars.Got (s : DataContents.Vars) : Prop where
  attachment : ∀ y, s.attachment = some y → (Attachment.XmlKept y → Attachment.XmlOk y)
  url : ∀ y, s.url = some y → Trimmed y
  properties : ∀ y, s.properties = some y → ∀ z ∈ y, Property.XmlOk z

theorem DataContents.gets : Gets (DataContents.readXml) fun x => (DataContents.XmlKept x → DataContents.XmlOk x) := by
  unfold DataContents.readXml
  refine struct_gets (DataContents.Vars.Got) { attachment := noneAll, url := noneAll, properties := noneAll } ?_ ?_
  · unfold DataContents.arms
    exact armsGetCons (arm_gets Attachment.gets fun y s h hy => { h with attachment := fun z e => by cases e; exact hy }) <|
      armsGetCons (arm_gets readSimple_gets fun y s h hy => { h with url := fun z e => by cases e; exact hy }) <|
      armsGetCons (arm_gets (list_gets Property.gets) fun y s h hy => { h with properties := fun z e => by cases e; exact hy }) <|
      armsGetNil
  · intro el attrs p s x hp hs h
    cases h
    exact fun hk => { attachment := fun y hy => (hs.attachment y hy) (hk.attachment y hy),
                      url := fun y hy => hs.url y hy,
                      properties := fun y hy z hz => (hs.properties y hy z hz) }

/-- What is known of the local variables of the reader of `ComponentData`. -/
structure ComponentData.Vars.Got (s : ComponentData.Vars) : Prop where
  dataType : ∀ y, s.dataType = some y → Stable ComponentDataType.display ComponentDataType.new y ∧ Trimmed (ComponentDataType.display y)
  name : ∀ y, s.name = some y → Trimmed y
  contents : ∀ y, s.contents = some y → (DataContents.XmlKept y → DataContents.XmlOk y)
  classification : ∀ y, s.classification = some y → Trimmed y
  sensitiveData : ∀ y, s.sensitiveData = some y → Trimmed y
  graphics : ∀ y, s.graphics = some y → (GraphicsCollection.XmlKept y → GraphicsCollection.XmlOk y)
  description : ∀ y, s.description = some y → Trimmed y
  governance : ∀ y, s.governance = some y → (DataGovernance.XmlKept y → DataGovernance.XmlOk y)

theorem ComponentData.gets : Gets (ComponentData.readXml) fun x => (ComponentData.XmlKept x → ComponentData.XmlOk x) := by
  unfold ComponentData.readXml
  refine struct_gets (ComponentData.Vars.Got) { dataType := noneAll, name := noneAll, contents := noneAll, classification := noneAll, sensitiveData := noneAll, graphics := noneAll, description := noneAll, governance := noneAll } ?_ ?_
  · unfold ComponentData.arms
    exact armsGetCons (arm_gets (enum_gets ComponentDataType.new_stable ComponentDataType.display_new) fun y s h hy => { h with dataType := fun z e => by cases e; exact hy }) <|
      armsGetCons (arm_gets readSimple_gets fun y s h hy => { h with name := fun z e => by cases e; exact hy }) <|
      armsGetCons (arm_gets DataContents.gets fun y s h hy => { h with contents := fun z e => by cases e; exact hy }) <|
      armsGetCons (arm_gets readSimple_gets fun y s h hy => { h with classification := fun z e => by cases e; exact hy }) <|
      armsGetCons (arm_gets readSimple_gets fun y s h hy => { h with sensitiveData := fun z e => by cases e; exact hy }) <|
      armsGetCons (arm_gets GraphicsCollection.gets fun y s h hy => { h with graphics := fun z e => by cases e; exact hy }) <|
      armsGetCons (arm_gets readSimple_gets fun y s h hy => { h with description := fun z e => by cases e; exact hy }) <|
      armsGetCons (arm_gets DataGovernance.gets fun y s h hy => { h with governance := fun z e => by cases e; exact hy }) <|
      armsGetNil
  · intro el attrs p s x hp hs h
    obtain ⟨dataType', e_dataType, h⟩ := xbind h
    have e_dataType := required_eq e_dataType
    cases h
    exact fun hk => { dataType := ⟨(hs.dataType _ e_dataType).1, (hs.dataType _ e_dataType).2⟩,
                      name := fun y hy => hs.name y hy,
                      contents := fun y hy => (hs.contents y hy) (hk.contents y hy),
                      classification := fun y hy => hs.classification y hy,
                      sensitiveData := fun y hy => hs.sensitiveData y hy,
                      graphics := fun y hy => (hs.graphics y hy) (hk.graphics y hy),
                      description := fun y hy => hs.description y hy,
                      governance := fun y hy => (hs.governance y hy) (hk.governance y hy) }

theorem Dataset.gets : Gets Dataset.readXml fun x => (Dataset.XmlKept x → Dataset.XmlOk x) := by
  unfold Dataset.readXml
  exact mapElem_gets ComponentData.gets fun x hx => hx

/-- What is known of the local variables of the reader of `ModelParametersApproach`. -/
structure ModelParametersApproach.Vars.Got (s : ModelParametersApproach.Vars) : Prop where
  approachType : ∀ y, s.approachType = some y → Stable ApproachType.display ApproachType.new y ∧ Trimmed (ApproachType.display y)

theorem ModelParametersApproach.gets : Gets (ModelParametersApproach.readXml) fun x => ModelParametersApproach.XmlOk x := by
  unfold ModelParametersApproach.readXml
  refine struct_gets (ModelParametersApproach.Vars.Got) { approachType := noneAll } ?_ ?_
  · unfold ModelParametersApproach.arms
    exact armsGetCons (arm_gets (enum_gets ApproachType.new_stable ApproachType.display_new) fun y s h hy => { h with approachType := fun z e => by cases e; exact hy }) <|
      armsGetNil
  · intro el attrs p s x hp hs h
    cases h
    exact { approachType := fun y hy => ⟨(hs.approachType y hy).1, (hs.approachType y hy).2⟩ }

/-- What is known of the local variables of the reader of `MLParameter`. -/
structure MLParameter.Vars.Got (s : MLParameter.Vars) : Prop where
  format : ∀ y, s.format = some y → Trimmed y

theorem MLParameter.gets : Gets (MLParameter.readXml) fun x => MLParameter.XmlOk x := by
  unfold MLParameter.readXml
  refine struct_gets (MLParameter.Vars.Got) { format := noneAll } ?_ ?_
  · unfold MLParameter.arms
    exact armsGetCons (arm_gets readSimple_gets fun y s h hy => { h with format := fun z e => by cases e; exact hy }) <|
      armsGetNil
  · intro el attrs p s x hp hs h
    cases h
    exact { format := fun y hy => hs.format y hy }

/-- What is known of the local variables of the reader of `ModelParameters`. -/
structure ModelParameters.Vars.Got (s : ModelParameters.Vars) : Prop where
  approach : ∀ y, s.approach = some y → ModelParametersApproach.XmlOk y
  task : ∀ y, s.task = some y → Trimmed y
  architectureFamily : ∀ y, s.architectureFamily = some y → Trimmed y
  modelArchitecture : ∀ y, s.modelArchitecture = some y → Trimmed y
  datasets : ∀ y, s.datasets = some y → ∀ z ∈ y, (Dataset.XmlKept z → Dataset.XmlOk z)
  inputs : ∀ y, s.inputs = some y → ∀ z ∈ y, MLParameter.XmlOk z
  outputs : ∀ y, s.outputs = some y → ∀ z ∈ y, MLParameter.XmlOk z

theorem ModelParameters.gets : Gets (ModelParameters.readXml) fun x => (ModelParameters.XmlKept x → ModelParameters.XmlOk x) := by
  unfold ModelParameters.readXml
  refine struct_gets (ModelParameters.Vars.Got) { approach := noneAll, task := noneAll, architectureFamily := noneAll, modelArchitecture := noneAll, datasets := noneAll, inputs := noneAll, outputs := noneAll } ?_ ?_
  · unfold ModelParameters.arms
    exact armsGetCons (arm_gets ModelParametersApproach.gets fun y s h hy => { h with approach := fun z e => by cases e; exact hy }) <|
      armsGetCons (arm_gets readSimple_gets fun y s h hy => { h with task := fun z e => by cases e; exact hy }) <|
      armsGetCons (arm_gets readSimple_gets fun y s h hy => { h with architectureFamily := fun z e => by cases e; exact hy }) <|
      armsGetCons (arm_gets readSimple_gets fun y s h hy => { h with modelArchitecture := fun z e => by cases e; exact hy }) <|
      armsGetCons (arm_gets (list_gets Dataset.gets) fun y s h hy => { h with datasets := fun z e => by cases e; exact hy }) <|
      armsGetCons (arm_gets (list_gets MLParameter.gets) fun y s h hy => { h with inputs := fun z e => by cases e; exact hy }) <|
      armsGetCons (arm_gets (list_gets MLParameter.gets) fun y s h hy => { h with outputs := fun z e => by cases e; exact hy }) <|
      armsGetNil
  · intro el attrs p s x hp hs h
    cases h
    exact fun hk => { approach := fun y hy => (hs.approach y hy),
                      task := fun y hy => hs.task y hy,
                      architectureFamily := fun y hy => hs.architectureFamily y hy,
                      modelArchitecture := fun y hy => hs.modelArchitecture y hy,
                      datasets := fun y hy z hz => (hs.datasets y hy z hz) (hk.datasets y hy z hz),
                      inputs := fun y hy z hz => (hs.inputs y hy z hz),
                      outputs := fun y hy z hz => (hs.outputs y hy z hz) }

/-- What is known of the local variables of the reader of `ConfidenceInterval`. -/
structure ConfidenceInterval.Vars.Got (s : ConfidenceInterval.Vars) : Prop where
  lowerBound : ∀ y, s.lowerBound = some y → Trimmed y
  upperBound : ∀ y, s.upperBound = some y → Trimmed y

theorem ConfidenceInterval.gets : Gets (ConfidenceInterval.readXml) fun x => ConfidenceInterval.XmlOk x := by
  unfold ConfidenceInterval.readXml
  refine struct_gets (ConfidenceInterval.Vars.Got) { lowerBound := noneAll, upperBound := noneAll } ?_ ?_
  · unfold ConfidenceInterval.arms
    exact armsGetCons (arm_gets readSimple_gets fun y s h hy => { h with lowerBound := fun z e => by cases e; exact hy }) <|
      armsGetCons (arm_gets readSimple_gets fun y s h hy => { h with upperBound := fun z e => by cases e; exact hy }) <|
      armsGetNil
  · intro el attrs p s x hp hs h
    cases h
    exact { lowerBound := fun y hy => hs.lowerBound y hy,
            upperBound := fun y hy => hs.upperBound y hy }

/-- What is known of the local variables of the reader of `PerformanceMetric`. -/
structure PerformanceMetric.Vars.Got (s : PerformanceMetric.Vars) : Prop where
  metricType : ∀ y, s.metricType = some y → Trimmed y
  value : ∀ y, s.value = some y → Trimmed y
  slice : ∀ y, s.slice = some y → Trimmed y
  confidenceInterval : ∀ y, s.confidenceInterval = some y → ConfidenceInterval.XmlOk y

theorem PerformanceMetric.gets : Gets (PerformanceMetric.readXml) fun x => PerformanceMetric.XmlOk x := by
  unfold PerformanceMetric.readXml
  refine struct_gets (PerformanceMetric.Vars.Got) { metricType := noneAll, value := noneAll, slice := noneAll, confidenceInterval := noneAll } ?_ ?_
  · unfold PerformanceMetric.arms
    exact armsGetCons (arm_gets readSimple_gets fun y s h hy => { h with metricType := fun z e => by cases e; exact hy }) <|
      armsGetCons (arm_gets readSimple_gets fun y s h hy => { h with value := fun z e => by cases e; exact hy }) <|
      armsGetCons (arm_gets readSimple_gets fun y s h hy => { h with slice := fun z e => by cases e; exact hy }) <|
      armsGetCons (arm_gets ConfidenceInterval.gets fun y s h hy => { h with confidenceInterval := fun z e => by cases e; exact hy }) <|
      armsGetNil
  · intro el attrs p s x hp hs h
    cases h
    exact { metricType := fun y hy => hs.metricType y hy,
            value := fun y hy => hs.value y hy,
            slice := fun y hy => hs.slice y hy,
            confidenceInterval := fun y hy => (hs.confidenceInterval y hy) }

/-- What is known of the local variables of the reader of `QuantitativeAnalysis`. -/
structure QuantitativeAnalysis.Vars.Got (s : QuantitativeAnalysis.Vars) : Prop where
  performanceMetrics : ∀ y, s.performanceMetrics = some y → ∀ z ∈ y, PerformanceMetric.XmlOk z
  graphics : ∀ y, s.graphics = some y → (GraphicsCollection.XmlKept y → GraphicsCollection.XmlOk y)

theorem QuantitativeAnalysis.gets : Gets (QuantitativeAnalysis.readXml) fun x => (QuantitativeAnalysis.XmlKept x → QuantitativeAnalysis.XmlOk x) := by
  unfold QuantitativeAnalysis.readXml
  refine struct_gets (QuantitativeAnalysis.Vars.Got) { performanceMetrics := noneAll, graphics := noneAll } ?_ ?_
  · unfold QuantitativeAnalysis.arms
    exact armsGetCons (arm_gets (list_gets PerformanceMetric.gets) fun y s h hy => { h with performanceMetrics := fun z e => by cases e; exact hy }) <|
      armsGetCons (arm_gets GraphicsCollection.gets fun y s h hy => { h with graphics := fun z e => by cases e; exact hy }) <|
      armsGetNil
  · intro el attrs p s x hp hs h
    cases h
    exact fun hk => { performanceMetrics := fun y hy z hz => (hs.performanceMetrics y hy z hz),
                      graphics := fun y hy => (hs.graphics y hy) (hk.graphics y hy) }

/-- What is known of the local variables of the reader of `ModelCard`. -/
structure ModelCard.Vars.Got (s : ModelCard.Vars) : Prop where
  modelParameters : ∀ y, s.modelParameters = some y → (ModelParameters.XmlKept y → ModelParameters.XmlOk y)
  quantitativeAnalysis : ∀ y, s.quantitativeAnalysis = some y → (QuantitativeAnalysis.XmlKept y → QuantitativeAnalysis.XmlOk y)

theorem ModelCard.gets : Gets (ModelCard.readXml) fun x => (ModelCard.XmlKept x → ModelCard.XmlOk x) := by
  unfold ModelCard.readXml
  refine struct_gets (ModelCard.Vars.Got) { modelParameters := noneAll, quantitativeAnalysis := noneAll } ?_ ?_
  · unfold ModelCard.arms
    exact armsGetCons (arm_gets ModelParameters.gets fun y s h hy => { h with modelParameters := fun z e => by cases e; exact hy }) <|
      armsGetCons (arm_gets QuantitativeAnalysis.gets fun y s h hy => { h with quantitativeAnalysis := fun z e => by cases e; exact hy }) <|
      armsGetNil
  · intro el attrs p s x hp hs h
    cases h
    exact fun hk => { considerations := rfl,
                      properties := rfl,
                      modelParameters := fun y hy => (hs.modelParameters y hy) (hk.modelParameters y hy),
                      quantitativeAnalysis := fun y hy => (hs.quantitativeAnalysis y hy) (hk.quantitativeAnalysis y hy) }

theorem VulnerabilityProofOfConcept.gets : Gets (VulnerabilityProofOfConcept.readXml) fun _ => True := by
  unfold VulnerabilityProofOfConcept.readXml
  refine struct_gets (fun _ => True) trivial ?_ fun _ _ _ _ _ _ _ _ => trivial
  unfold VulnerabilityProofOfConcept.arms
  exact armsGetCons (arm_gets readSimple_gets fun _ _ _ _ => trivial) <|
      armsGetCons (arm_gets readSimple_gets fun _ _ _ _ => trivial) <|
      armsGetCons (arm_gets (list_gets Attachment.gets) fun _ _ _ _ => trivial) <|
      armsGetNil

theorem DataClassification.gets : Gets DataClassification.readXml fun x => DataClassification.XmlOk x := by
  unfold DataClassification.readXml
  exact with_gets readSimple_gets fun el attrs p x _ hx => ⟨DataFlowType.new_stable p, hx⟩

/-- What is known of the local variables of the reader of `ServiceData`. -/
structure ServiceData.Vars.Got (s : ServiceData.Vars) : Prop where
  classification : ∀ y, s.classification = some y → DataClassification.XmlOk y
  governance : ∀ y, s.governance = some y → (DataGovernance.XmlKept y → DataGovernance.XmlOk y)
  source : ∀ y, s.source = some y → ∀ z ∈ y, Trimmed z
  destination : ∀ y, s.destination = some y → ∀ z ∈ y, Trimmed z

theorem ServiceData.gets : Gets (ServiceData.readXml) fun x => (ServiceData.XmlKept x → ServiceData.XmlOk x) := by
  unfold ServiceData.readXml
  refine struct_gets (ServiceData.Vars.Got) { classification := noneAll, governance := noneAll, source := noneAll, destination := noneAll } ?_ ?_
  · unfold ServiceData.arms
    exact armsGetCons (arm_gets DataClassification.gets fun y s h hy => { h with classification := fun z e => by cases e; exact hy }) <|
      armsGetCons (arm_gets DataGovernance.gets fun y s h hy => { h with governance := fun z e => by cases e; exact hy }) <|
      armsGetCons (arm_gets (list_gets readSimple_gets) fun y s h hy => { h with source := fun z e => by cases e; exact hy }) <|
      armsGetCons (arm_gets (list_gets readSimple_gets) fun y s h hy => { h with destination := fun z e => by cases e; exact hy }) <|
      armsGetNil
  · intro el attrs p s x hp hs h
    obtain ⟨a0, a1⟩ := p
    obtain ⟨classification', e_classification, h⟩ := xbind h
    have e_classification := required_eq e_classification
    cases h
    exact fun hk => { description := hk.description,
                      classification := (hs.classification _ e_classification),
                      governance := fun y hy => (hs.governance y hy) (hk.governance y hy),
                      source := fun y hy z hz => hs.source y hy z hz,
                      destination := fun y hy z hz => hs.destination y hy z hz }

/-- What is known of the local variables of the reader of the data of a service. -/
structure ServiceDataChoice.Vars.Got (v : SpecVersion) (s : ServiceDataChoice.Vars) : Prop where
  classifications : ∀ z ∈ s.classifications, DataClassification.XmlOk z
  serviceData : ∀ z ∈ s.serviceData, (ServiceData.XmlKept z → ServiceData.XmlOk z)
  serviceData_none : v ≠ .v1_5 → s.serviceData = []

theorem ServiceDataChoice.gets (hu : v.ord ≤ w.ord) : Gets (ServiceDataChoice.readXml v) fun x =>
    (ServiceDataChoice.XmlKept x → ServiceDataChoice.XmlOk w x) ∧ ServiceDataChoice.at w x = x := by
  unfold ServiceDataChoice.readXml
  refine struct_gets (ServiceDataChoice.Vars.Got w) ⟨fun _ hz => (List.not_mem_nil hz).elim, fun _ hz => (List.not_mem_nil hz).elim, fun _ => rfl⟩ ?_ ?_
  · unfold ServiceDataChoice.arms
    exact (armsGetAppend (armsGetCons (arm_gets DataClassification.gets fun y s h hy =>
        { h with classifications := forall_snoc h.classifications hy }) armsGetNil)
      (armsGet15 hu fun hv => armsGetCons (arm_gets ServiceData.gets fun y s h hy =>
        { h with serviceData := forall_snoc h.serviceData hy, serviceData_none := fun e => absurd hv e })
        armsGetNil))
  · intro el attrs p s x hp hs h
    cases h
    split
    · exact ⟨fun _ => hs.classifications, rfl⟩
    · rename_i hne
      have e : w = .v1_5 := by
        by_cases h : w = .v1_5
        · exact h
        · rw [hs.serviceData_none h] at hne; exact absurd rfl hne
      subst e
      exact ⟨fun hk => ⟨fun _ => ⟨fun e => hne (by rw [e]; rfl), fun z hz => hs.serviceData z hz (hk z hz)⟩,
        fun h => absurd rfl h⟩, rfl⟩

theorem swid_version {el : XName} {attrs : List (String × String)} {a0 a1 : String}
    {a2 : Option String} {a3 : Option Nat} {a4 : Option Bool}
    (h : (do
      let a0 ← reqAttr el attrs "tagId"
      let a1 ← reqAttr el attrs "name"
      let a3 ← optParse (parseU32Attr "tagVersion") (optAttr attrs "tagVersion")
      let a4 ← optParse (parseBool "patch") (optAttr attrs "patch")
      .ok (a0, a1, optAttr attrs "version", a3, a4)) = Except.ok (a0, a1, a2, a3, a4)) :
    ∀ y, a3 = some y → y < 2 ^ 32 := by
  obtain ⟨b0, _, h⟩ := xbind h
  obtain ⟨b1, _, h⟩ := xbind h
  obtain ⟨b3, h3, h⟩ := xbind h
  obtain ⟨b4, _, h⟩ := xbind h
  cases h
  intro y hy
  subst hy
  unfold optParse at h3
  split at h3
  · obtain ⟨n, hn, e⟩ := xmap h3
    cases e
    unfold parseU32Attr at hn
    split at hn
    · rename_i n hn'
      cases hn
      exact parseU32_lt hn'
    · cases hn
  · cases h3

/-- What is known of the local variables of the reader of `Swid`. -/
structure Swid.Vars.Got (s : Swid.Vars) : Prop where
  text : ∀ y, s.text = some y → AttachedText.XmlOk y
  url : ∀ y, s.url = some y → Trimmed y

theorem Swid.gets : Gets (Swid.readXml) fun x => Swid.XmlOk x := by
  unfold Swid.readXml
  refine struct_gets (Swid.Vars.Got) { text := noneAll, url := noneAll } ?_ ?_
  · unfold Swid.arms
    exact armsGetCons (arm_gets AttachedText.gets fun y s h hy => { h with text := fun z e => by cases e; exact hy }) <|
      armsGetCons (arm_gets readSimple_gets fun y s h hy => { h with url := fun z e => by cases e; exact hy }) <|
      armsGetNil
  · intro el attrs p s x hp hs h
    obtain ⟨a0, a1, a2, a3, a4⟩ := p
    cases h
    exact { tagVersion := fun y hy => (swid_version hp y hy),
            text := fun y hy => (hs.text y hy),
            url := fun y hy => hs.url y hy }

/-- What is known of the local variables of the reader of `Lifecycle`. -/
structure Lifecycle.Vars.Got (s : Lifecycle.Vars) : Prop where
  phase : ∀ y, s.phase = some y → Trimmed y
  name : ∀ y, s.name = some y → Trimmed y
  description : ∀ y, s.description = some y → Trimmed y

theorem Lifecycle.gets : Gets Lifecycle.readXml fun x => Lifecycle.XmlOk x := by
  unfold Lifecycle.readXml
  refine struct_gets Lifecycle.Vars.Got { phase := nofun, name := nofun, description := nofun } ?_ ?_
  · unfold Lifecycle.arms
    exact armsGetCons (arm_gets readSimple_gets fun y s h hy => { h with phase := fun z e => by cases e; exact hy }) <|
      armsGetCons (arm_gets readSimple_gets fun y s h hy => { h with name := fun z e => by cases e; exact hy }) <|
      armsGetCons (arm_gets readSimple_gets fun y s h hy => { h with description := fun z e => by cases e; exact hy }) <|
      armsGetNil
  · intro el attrs p s x hp hs h
    split at h
    · rename_i q e1 e2 e3
      cases h
      exact ⟨Phase.new_stable q, by rw [Phase.display_new]; exact hs.phase _ e1⟩
    · rename_i n d e1 e2
      cases h
      exact ⟨hs.name _ e2, fun y hy => hs.description y hy⟩
    · cases h

theorem toolRefsLoop_gets {el : XName} : ∀ {evs : List XEvent} {acc l : List String}
    {rest : List XEvent}, CleanTexts evs → toolRefsLoop el acc evs = .ok (l, rest) → CleanTexts rest
  | [], _, _, _, _, h => by cases h
  | .start n attrs _ :: l, acc, _, _, hc, h => by
    simp only [toolRefsLoop] at h
    split at h
    · split at h
      · exact toolRefsLoop_gets hc.tail h
      · cases h
    · cases h
  | .stop n :: l, acc, _, _, hc, h => by
    simp only [toolRefsLoop] at h
    split at h
    · exact toolRefsLoop_gets hc.tail h
    · split at h
      · cases h; exact hc.tail
      · cases h
  | .startDocument :: l, acc, _, _, hc, h => by cases h
  | .chars _ :: l, acc, _, _, hc, h => by cases h
  | .cdata _ :: l, acc, _, _, hc, h => by cases h
  | .other :: l, acc, _, _, hc, h => by cases h
  | .endDocument :: l, acc, _, _, hc, h => by cases h

theorem readToolRefs_gets : Gets readToolRefs fun _ => True :=
  fun _ _ _ _ _ hc h => ⟨trivial, toolRefsLoop_gets hc h⟩

/-- What is known of the local variables of the reader of `VulnerabilityRating`. -/
structure VulnerabilityRating.Vars.Got (s : VulnerabilityRating.Vars) : Prop where
  vulnerabilitySource : ∀ y, s.vulnerabilitySource = some y → VulnerabilitySource.XmlOk y
  severity : ∀ y, s.severity = some y → Stable Severity.display Severity.new y ∧ Trimmed (Severity.display y)
  scoreMethod : ∀ y, s.scoreMethod = some y → Stable ScoreMethod.display ScoreMethod.new y ∧ Trimmed (ScoreMethod.display y)
  vector : ∀ y, s.vector = some y → Trimmed y
  justification : ∀ y, s.justification = some y → Trimmed y

theorem VulnerabilityRating.gets : Gets (VulnerabilityRating.readXml) fun x => (VulnerabilityRating.XmlKept x → VulnerabilityRating.XmlOk x) := by
  unfold VulnerabilityRating.readXml
  refine struct_gets (VulnerabilityRating.Vars.Got) { vulnerabilitySource := noneAll, severity := noneAll, scoreMethod := noneAll, vector := noneAll, justification := noneAll } ?_ ?_
  · unfold VulnerabilityRating.arms
    exact armsGetCons (arm_gets VulnerabilitySource.gets fun y s h hy => { h with vulnerabilitySource := fun z e => by cases e; exact hy }) <|
      armsGetCons (arm_gets readScore_gets fun y s h _ => { h with  }) <|
      armsGetCons (arm_gets (enum_gets Severity.new_stable Severity.display_new) fun y s h hy => { h with severity := fun z e => by cases e; exact hy }) <|
      armsGetCons (arm_gets (enum_gets ScoreMethod.new_stable ScoreMethod.display_new) fun y s h hy => { h with scoreMethod := fun z e => by cases e; exact hy }) <|
      armsGetCons (arm_gets readSimple_gets fun y s h hy => { h with vector := fun z e => by cases e; exact hy }) <|
      armsGetCons (arm_gets readSimple_gets fun y s h hy => { h with justification := fun z e => by cases e; exact hy }) <|
      armsGetNil
  · intro el attrs p s x hp hs h
    cases h
    exact fun hk => { vulnerabilitySource := fun y hy => (hs.vulnerabilitySource y hy),
                      score := fun y hy => F32Format.parse_display y (hk.score y hy),
                      severity := fun y hy => ⟨(hs.severity y hy).1, (hs.severity y hy).2⟩,
                      scoreMethod := fun y hy => ⟨(hs.scoreMethod y hy).1, (hs.scoreMethod y hy).2⟩,
                      vector := fun y hy => hs.vector y hy,
                      justification := fun y hy => hs.justification y hy }

theorem Occurrence.gets : Gets (Occurrence.readXml) fun _ => True := by
  unfold Occurrence.readXml
  refine struct_gets (fun _ => True) trivial ?_ fun _ _ _ _ _ _ _ _ => trivial
  unfold Occurrence.arms
  exact armsGetCons (arm_gets readSimple_gets fun _ _ _ _ => trivial) <|
      armsGetNil

theorem Frame.gets : Gets (Frame.readXml) fun _ => True := by
  unfold Frame.readXml
  refine struct_gets (fun _ => True) trivial ?_ fun _ _ _ _ _ _ _ _ => trivial
  unfold Frame.arms
  exact armsGetCons (arm_gets readSimple_gets fun _ _ _ _ => trivial) <|
      armsGetCons (arm_gets readSimple_gets fun _ _ _ _ => trivial) <|
      armsGetCons (arm_gets readSimple_gets fun _ _ _ _ => trivial) <|
      armsGetCons (arm_gets (list_gets readSimple_gets) fun _ _ _ _ => trivial) <|
      armsGetCons (arm_gets readU32_gets fun _ _ _ _ => trivial) <|
      armsGetCons (arm_gets readU32_gets fun _ _ _ _ => trivial) <|
      armsGetCons (arm_gets readSimple_gets fun _ _ _ _ => trivial) <|
      armsGetNil

theorem Callstack.gets : Gets (Callstack.readXml) fun _ => True := by
  unfold Callstack.readXml
  refine struct_gets (fun _ => True) trivial ?_ fun _ _ _ _ _ _ _ _ => trivial
  unfold Callstack.arms
  exact armsGetCons (arm_gets Frame.gets fun _ _ _ _ => trivial) <|
      armsGetNil

theorem Method.gets : Gets (Method.readXml) fun _ => True := by
  unfold Method.readXml
  refine struct_gets (fun _ => True) trivial ?_ fun _ _ _ _ _ _ _ _ => trivial
  unfold Method.arms
  exact armsGetCons (arm_gets readSimple_gets fun _ _ _ _ => trivial) <|
      armsGetCons (arm_gets readF32_gets fun _ _ _ _ => trivial) <|
      armsGetCons (arm_gets readSimple_gets fun _ _ _ _ => trivial) <|
      armsGetNil

theorem Identity.gets : Gets (Identity.readXml) fun _ => True := by
  unfold Identity.readXml
  refine struct_gets (fun _ => True) trivial ?_ fun _ _ _ _ _ _ _ _ => trivial
  unfold Identity.arms
  exact armsGetCons (arm_gets IdentityField.gets fun _ _ _ _ => trivial) <|
      armsGetCons (arm_gets readF32_gets fun _ _ _ _ => trivial) <|
      armsGetCons (arm_gets (list_gets Method.gets) fun _ _ _ _ => trivial) <|
      armsGetCons (arm_gets readToolRefs_gets fun _ _ _ _ => trivial) <|
      armsGetNil

/-- What is known of the local variables of the reader of `ComponentEvidence`. -/
structure ComponentEvidence.Vars.Got (v : SpecVersion) (s : ComponentEvidence.Vars) : Prop where
  licenses : ∀ y, s.licenses = some y → (Licenses.XmlKept v y → Licenses.XmlOk v y) ∧ Licenses.at v y = y
  occurrences_none : v ≠ .v1_5 → s.occurrences = none
  callstack_none : v ≠ .v1_5 → s.callstack = none
  identity_none : v ≠ .v1_5 → s.identity = none

theorem ComponentEvidence.gets (hu : v.ord ≤ w.ord) : Gets (ComponentEvidence.readXml v) fun x => (ComponentEvidence.XmlKept w x → ComponentEvidence.XmlOk w x) ∧ ComponentEvidence.at w x = x := by
  unfold ComponentEvidence.readXml
  refine struct_gets (ComponentEvidence.Vars.Got w) { licenses := noneAll, occurrences_none := fun _ => rfl, callstack_none := fun _ => rfl, identity_none := fun _ => rfl } ?_ ?_
  · unfold ComponentEvidence.arms
    exact (armsGetAppend (armsGetCons (arm_gets (Licenses.gets hu) fun y s h hy => { h with licenses := fun z e => by cases e; exact hy }) <|
      armsGetCons (arm_gets (list_gets readSimple_gets) fun y s h _ => { h with  }) <|
      armsGetNil)
      (armsGet15 hu fun hv => armsGetCons (arm_gets (list_gets Occurrence.gets) fun y s h _ => { h with occurrences_none := fun e => absurd hv e }) <|
      armsGetCons (arm_gets Callstack.gets fun y s h _ => { h with callstack_none := fun e => absurd hv e }) <|
      armsGetCons (arm_gets Identity.gets fun y s h _ => { h with identity_none := fun e => absurd hv e }) <|
      armsGetNil))
  · intro el attrs p s x hp hs h
    cases h
    have n_callstack : since15 w s.callstack none = s.callstack := since15_none hs.callstack_none
    have n_identity : since15 w s.identity none = s.identity := since15_none hs.identity_none
    have a_licenses : s.licenses.map (Licenses.at w) = s.licenses := optMap_id fun y hy => (hs.licenses y hy).2
    have n_occurrences : since15 w s.occurrences none = s.occurrences := since15_none hs.occurrences_none
    exact ⟨fun hk => { occurrences := fun hv => (hk.occurrences hv),
                       callstack := fun hv => (hk.callstack hv),
                       identity := fun hv => (hk.identity hv),
                       licenses := fun y hy => (hs.licenses y hy).1 (hk.licenses y hy),
                       copyright := fun y hy z hz => (hk.copyright y hy z hz) }, by simp only [ComponentEvidence.at, n_callstack, n_identity, a_licenses, n_occurrences]⟩

end Cdx
