import Verif.Lemmas.Gets.Data

set_option linter.unusedSectionVars false
set_option linter.unusedSimpArgs false
set_option linter.unusedVariables false

/-!
# What the readers of workflows return
-/

namespace Cdx

variable [F32Format] [ReadLimit] {v w : SpecVersion}

theorem ResourceReference.gets : Gets ResourceReference.readXml fun x =>
    (ResourceReference.XmlKept x → ResourceReference.XmlOk x) := by
  unfold ResourceReference.readXml
  refine struct_gets (fun o : Option ResourceReference => ∀ y, o = some y →
    (ResourceReference.XmlKept y → ResourceReference.XmlOk y)) nofun ?_ ?_
  · unfold ResourceReference.arms
    exact armsGetCons (arm_gets readSimple_gets fun y _ _ hy z e => by cases e; exact fun _ => hy) <|
      armsGetCons (arm_gets ExternalReference.gets fun y _ _ _ z e => by cases e; exact fun hk => hk.elim) <|
      armsGetNil
  · intro el attrs p s x hp hs h
    exact hs x (required_eq h)

theorem EnvironmentVar.gets : Gets EnvironmentVar.readAll fun l => ∀ z ∈ l, EnvironmentVar.XmlOk z := by
  unfold EnvironmentVar.readAll
  refine struct_gets (fun l : List EnvironmentVar => ∀ z ∈ l, EnvironmentVar.XmlOk z)
    (fun _ h => by cases h) ?_ ?_
  · unfold EnvironmentVar.arms
    refine armsGetCons (arm_gets (Q := EnvironmentVar.XmlOk) ?_ fun y s h hy => forall_snoc h hy) <|
      armsGetCons (arm_gets readSimple_gets fun y s h hy => forall_snoc h hy) armsGetNil
    intro el attrs evs x rest hc h
    unfold EnvironmentVar.readProperty at h
    obtain ⟨⟨s, l⟩, hl, h⟩ := xbind h
    obtain ⟨y, hy, h⟩ := xbind h
    obtain ⟨n, _, rfl⟩ := xmap hy
    cases h
    exact readSimple_gets _ _ _ _ _ hc hl
  · intro el attrs p s x hp hs h
    cases h; exact hs

/-- What is known of the local variables of the reader of `Parameter`. -/
structure Parameter.Vars.Got (s : Parameter.Vars) : Prop where
  name : ∀ y, s.name = some y → Trimmed y
  value : ∀ y, s.value = some y → Trimmed y
  dataType : ∀ y, s.dataType = some y → Trimmed y

theorem Parameter.gets : Gets (Parameter.readXml) fun x => Parameter.XmlOk x := by
  unfold Parameter.readXml
  refine struct_gets (Parameter.Vars.Got) { name := noneAll, value := noneAll, dataType := noneAll } ?_ ?_
  · unfold Parameter.arms
    exact armsGetCons (arm_gets readSimple_gets fun y s h hy => { h with name := fun z e => by cases e; exact hy }) <|
      armsGetCons (arm_gets readSimple_gets fun y s h hy => { h with value := fun z e => by cases e; exact hy }) <|
      armsGetCons (arm_gets readSimple_gets fun y s h hy => { h with dataType := fun z e => by cases e; exact hy }) <|
      armsGetNil
  · intro el attrs p s x hp hs h
    cases h
    exact { name := fun y hy => hs.name y hy,
            value := fun y hy => hs.value y hy,
            dataType := fun y hy => hs.dataType y hy }

/-- What is known of the local variables of the reader of `Input`. -/
structure Input.Vars.Got (s : Input.Vars) : Prop where
  required : ∀ y, s.required = some y → (RequiredInputField.XmlKept y → RequiredInputField.XmlOk y)
  source : ∀ y, s.source = some y → (ResourceReference.XmlKept y → ResourceReference.XmlOk y)
  target : ∀ y, s.target = some y → (ResourceReference.XmlKept y → ResourceReference.XmlOk y)
  properties : ∀ y, s.properties = some y → ∀ z ∈ y, Property.XmlOk z

theorem Input.gets : Gets (Input.readXml) fun x => (Input.XmlKept x → Input.XmlOk x) := by
  unfold Input.readXml
  refine struct_gets (Input.Vars.Got) { required := noneAll, source := noneAll, target := noneAll, properties := noneAll } ?_ ?_
  · unfold Input.arms
    exact armsGetCons (arm_gets ResourceReference.gets fun y s h hy => { h with required := fun z e => by cases e; first | exact hy | exact fun _ => hy }) <|
      armsGetCons (arm_gets EnvironmentVar.gets fun y s h hy => { h with required := fun z e => by cases e; first | exact hy | exact fun _ => hy }) <|
      armsGetCons (arm_gets Attachment.gets fun y s h hy => { h with required := fun z e => by cases e; first | exact hy | exact fun _ => hy }) <|
      armsGetCons (arm_gets ResourceReference.gets fun y s h hy => { h with source := fun z e => by cases e; exact hy }) <|
      armsGetCons (arm_gets ResourceReference.gets fun y s h hy => { h with target := fun z e => by cases e; exact hy }) <|
      armsGetCons (arm_gets (list_gets Property.gets) fun y s h hy => { h with properties := fun z e => by cases e; exact hy }) <|
      armsGetNil
  · intro el attrs p s x hp hs h
    obtain ⟨required', e_required, h⟩ := xbind h
    have e_required := required_eq e_required
    cases h
    exact fun hk => { required := (hs.required _ e_required) hk.required,
                      source := fun y hy => (hs.source y hy) (hk.source y hy),
                      target := fun y hy => (hs.target y hy) (hk.target y hy),
                      properties := fun y hy z hz => (hs.properties y hy z hz) }

/-- What is known of the local variables of the reader of `Output`. -/
structure Output.Vars.Got (s : Output.Vars) : Prop where
  required : ∀ y, s.required = some y → (RequiredOutputField.XmlKept y → RequiredOutputField.XmlOk y)
  type : ∀ y, s.type = some y → Stable OutputType.display OutputType.new y ∧ Trimmed (OutputType.display y)
  source : ∀ y, s.source = some y → (ResourceReference.XmlKept y → ResourceReference.XmlOk y)
  target : ∀ y, s.target = some y → (ResourceReference.XmlKept y → ResourceReference.XmlOk y)
  properties : ∀ y, s.properties = some y → ∀ z ∈ y, Property.XmlOk z

theorem Output.gets : Gets (Output.readXml) fun x => (Output.XmlKept x → Output.XmlOk x) := by
  unfold Output.readXml
  refine struct_gets (Output.Vars.Got) { required := noneAll, type := noneAll, source := noneAll, target := noneAll, properties := noneAll } ?_ ?_
  · unfold Output.arms
    exact armsGetCons (arm_gets ResourceReference.gets fun y s h hy => { h with required := fun z e => by cases e; first | exact hy | exact fun _ => hy }) <|
      armsGetCons (arm_gets EnvironmentVar.gets fun y s h hy => { h with required := fun z e => by cases e; first | exact hy | exact fun _ => hy }) <|
      armsGetCons (arm_gets Attachment.gets fun y s h hy => { h with required := fun z e => by cases e; first | exact hy | exact fun _ => hy }) <|
      armsGetCons (arm_gets (enum_gets OutputType.new_stable OutputType.display_new) fun y s h hy => { h with type := fun z e => by cases e; exact hy }) <|
      armsGetCons (arm_gets ResourceReference.gets fun y s h hy => { h with source := fun z e => by cases e; exact hy }) <|
      armsGetCons (arm_gets ResourceReference.gets fun y s h hy => { h with target := fun z e => by cases e; exact hy }) <|
      armsGetCons (arm_gets (list_gets Property.gets) fun y s h hy => { h with properties := fun z e => by cases e; exact hy }) <|
      armsGetNil
  · intro el attrs p s x hp hs h
    obtain ⟨required', e_required, h⟩ := xbind h
    have e_required := required_eq e_required
    cases h
    exact fun hk => { required := (hs.required _ e_required) hk.required,
                      type := fun y hy => ⟨(hs.type y hy).1, (hs.type y hy).2⟩,
                      source := fun y hy => (hs.source y hy) (hk.source y hy),
                      target := fun y hy => (hs.target y hy) (hk.target y hy),
                      properties := fun y hy z hz => (hs.properties y hy z hz) }

/-- What is known of the local variables of the reader of `Command`. -/
structure Command.Vars.Got (s : Command.Vars) : Prop where
  executed : ∀ y, s.executed = some y → Trimmed y
  properties : ∀ y, s.properties = some y → ∀ z ∈ y, Property.XmlOk z

theorem Command.gets : Gets (Command.readXml) fun x => Command.XmlOk x := by
  unfold Command.readXml
  refine struct_gets (Command.Vars.Got) { executed := noneAll, properties := noneAll } ?_ ?_
  · unfold Command.arms
    exact armsGetCons (arm_gets readSimple_gets fun y s h hy => { h with executed := fun z e => by cases e; exact hy }) <|
      armsGetCons (arm_gets (list_gets Property.gets) fun y s h hy => { h with properties := fun z e => by cases e; exact hy }) <|
      armsGetNil
  · intro el attrs p s x hp hs h
    cases h
    exact { executed := fun y hy => hs.executed y hy,
            properties := fun y hy z hz => (hs.properties y hy z hz) }

/-- What is known of the local variables of the reader of `Step`. -/
structure Step.Vars.Got (s : Step.Vars) : Prop where
  commands : ∀ y, s.commands = some y → ∀ z ∈ y, Command.XmlOk z
  description : ∀ y, s.description = some y → Trimmed y
  name : ∀ y, s.name = some y → Trimmed y
  properties : ∀ y, s.properties = some y → ∀ z ∈ y, Property.XmlOk z

theorem Step.gets : Gets (Step.readXml) fun x => Step.XmlOk x := by
  unfold Step.readXml
  refine struct_gets (Step.Vars.Got) { commands := noneAll, description := noneAll, name := noneAll, properties := noneAll } ?_ ?_
  · unfold Step.arms
    exact armsGetCons (arm_gets (list_gets Command.gets) fun y s h hy => { h with commands := fun z e => by cases e; exact hy }) <|
      armsGetCons (arm_gets readSimple_gets fun y s h hy => { h with description := fun z e => by cases e; exact hy }) <|
      armsGetCons (arm_gets readSimple_gets fun y s h hy => { h with name := fun z e => by cases e; exact hy }) <|
      armsGetCons (arm_gets (list_gets Property.gets) fun y s h hy => { h with properties := fun z e => by cases e; exact hy }) <|
      armsGetNil
  · intro el attrs p s x hp hs h
    cases h
    exact { commands := fun y hy z hz => (hs.commands y hy z hz),
            description := fun y hy => hs.description y hy,
            name := fun y hy => hs.name y hy,
            properties := fun y hy z hz => (hs.properties y hy z hz) }

/-- What is known of the local variables of the reader of `TriggerEvent`. -/
structure TriggerEvent.Vars.Got (s : TriggerEvent.Vars) : Prop where
  uid : ∀ y, s.uid = some y → Trimmed y
  description : ∀ y, s.description = some y → Trimmed y
  timeReceived : ∀ y, s.timeReceived = some y → Trimmed y
  data : ∀ y, s.data = some y → (Attachment.XmlKept y → Attachment.XmlOk y)
  source : ∀ y, s.source = some y → (ResourceReference.XmlKept y → ResourceReference.XmlOk y)
  target : ∀ y, s.target = some y → (ResourceReference.XmlKept y → ResourceReference.XmlOk y)
  properties : ∀ y, s.properties = some y → ∀ z ∈ y, Property.XmlOk z

theorem TriggerEvent.gets : Gets (TriggerEvent.readXml) fun x => (TriggerEvent.XmlKept x → TriggerEvent.XmlOk x) := by
  unfold TriggerEvent.readXml
  refine struct_gets (TriggerEvent.Vars.Got) { uid := noneAll, description := noneAll, timeReceived := noneAll, data := noneAll, source := noneAll, target := noneAll, properties := noneAll } ?_ ?_
  · unfold TriggerEvent.arms
    exact armsGetCons (arm_gets readSimple_gets fun y s h hy => { h with uid := fun z e => by cases e; exact hy }) <|
      armsGetCons (arm_gets readSimple_gets fun y s h hy => { h with description := fun z e => by cases e; exact hy }) <|
      armsGetCons (arm_gets readSimple_gets fun y s h hy => { h with timeReceived := fun z e => by cases e; exact hy }) <|
      armsGetCons (arm_gets Attachment.gets fun y s h hy => { h with data := fun z e => by cases e; exact hy }) <|
      armsGetCons (arm_gets ResourceReference.gets fun y s h hy => { h with source := fun z e => by cases e; exact hy }) <|
      armsGetCons (arm_gets ResourceReference.gets fun y s h hy => { h with target := fun z e => by cases e; exact hy }) <|
      armsGetCons (arm_gets (list_gets Property.gets) fun y s h hy => { h with properties := fun z e => by cases e; exact hy }) <|
      armsGetNil
  · intro el attrs p s x hp hs h
    cases h
    exact fun hk => { uid := fun y hy => hs.uid y hy,
                      description := fun y hy => hs.description y hy,
                      timeReceived := fun y hy => hs.timeReceived y hy,
                      data := fun y hy => (hs.data y hy) (hk.data y hy),
                      source := fun y hy => (hs.source y hy) (hk.source y hy),
                      target := fun y hy => (hs.target y hy) (hk.target y hy),
                      properties := fun y hy z hz => (hs.properties y hy z hz) }

/-- What is known of the local variables of the reader of `Condition`. -/
structure Condition.Vars.Got (s : Condition.Vars) : Prop where
  description : ∀ y, s.description = some y → Trimmed y
  expression : ∀ y, s.expression = some y → Trimmed y
  properties : ∀ y, s.properties = some y → ∀ z ∈ y, Property.XmlOk z

theorem Condition.gets : Gets (Condition.readXml) fun x => Condition.XmlOk x := by
  unfold Condition.readXml
  refine struct_gets (Condition.Vars.Got) { description := noneAll, expression := noneAll, properties := noneAll } ?_ ?_
  · unfold Condition.arms
    exact armsGetCons (arm_gets readSimple_gets fun y s h hy => { h with description := fun z e => by cases e; exact hy }) <|
      armsGetCons (arm_gets readSimple_gets fun y s h hy => { h with expression := fun z e => by cases e; exact hy }) <|
      armsGetCons (arm_gets (list_gets Property.gets) fun y s h hy => { h with properties := fun z e => by cases e; exact hy }) <|
      armsGetNil
  · intro el attrs p s x hp hs h
    cases h
    exact { description := fun y hy => hs.description y hy,
            expression := fun y hy => hs.expression y hy,
            properties := fun y hy z hz => (hs.properties y hy z hz) }

/-- What is known of the local variables of the reader of `Trigger`. -/
structure Trigger.Vars.Got (s : Trigger.Vars) : Prop where
  uid : ∀ y, s.uid = some y → Trimmed y
  name : ∀ y, s.name = some y → Trimmed y
  description : ∀ y, s.description = some y → Trimmed y
  resourceReferences : ∀ y, s.resourceReferences = some y → ∀ z ∈ y, (ResourceReference.XmlKept z → ResourceReference.XmlOk z)
  type : ∀ y, s.type = some y → Stable TriggerType.display TriggerType.new y ∧ Trimmed (TriggerType.display y)
  event : ∀ y, s.event = some y → (TriggerEvent.XmlKept y → TriggerEvent.XmlOk y)
  conditions : ∀ y, s.conditions = some y → ∀ z ∈ y, Condition.XmlOk z
  timeActivated : ∀ y, s.timeActivated = some y → Trimmed y
  inputs : ∀ y, s.inputs = some y → ∀ z ∈ y, (Input.XmlKept z → Input.XmlOk z)
  outputs : ∀ y, s.outputs = some y → ∀ z ∈ y, (Output.XmlKept z → Output.XmlOk z)
  properties : ∀ y, s.properties = some y → ∀ z ∈ y, Property.XmlOk z

theorem Trigger.gets : Gets (Trigger.readXml) fun x => (Trigger.XmlKept x → Trigger.XmlOk x) := by
  unfold Trigger.readXml
  refine struct_gets (Trigger.Vars.Got) { uid := noneAll, name := noneAll, description := noneAll, resourceReferences := noneAll, type := noneAll, event := noneAll, conditions := noneAll, timeActivated := noneAll, inputs := noneAll, outputs := noneAll, properties := noneAll } ?_ ?_
  · unfold Trigger.arms
    exact armsGetCons (arm_gets readSimple_gets fun y s h hy => { h with uid := fun z e => by cases e; exact hy }) <|
      armsGetCons (arm_gets readSimple_gets fun y s h hy => { h with name := fun z e => by cases e; exact hy }) <|
      armsGetCons (arm_gets readSimple_gets fun y s h hy => { h with description := fun z e => by cases e; exact hy }) <|
      armsGetCons (arm_gets (list_gets ResourceReference.gets) fun y s h hy => { h with resourceReferences := fun z e => by cases e; exact hy }) <|
      armsGetCons (arm_gets (enum_gets TriggerType.new_stable TriggerType.display_new) fun y s h hy => { h with type := fun z e => by cases e; exact hy }) <|
      armsGetCons (arm_gets TriggerEvent.gets fun y s h hy => { h with event := fun z e => by cases e; exact hy }) <|
      armsGetCons (arm_gets (list_gets Condition.gets) fun y s h hy => { h with conditions := fun z e => by cases e; exact hy }) <|
      armsGetCons (arm_gets readSimple_gets fun y s h hy => { h with timeActivated := fun z e => by cases e; exact hy }) <|
      armsGetCons (arm_gets (list_gets Input.gets) fun y s h hy => { h with inputs := fun z e => by cases e; exact hy }) <|
      armsGetCons (arm_gets (list_gets Output.gets) fun y s h hy => { h with outputs := fun z e => by cases e; exact hy }) <|
      armsGetCons (arm_gets (list_gets Property.gets) fun y s h hy => { h with properties := fun z e => by cases e; exact hy }) <|
      armsGetNil
  · intro el attrs p s x hp hs h
    obtain ⟨uid', e_uid, h⟩ := xbind h
    have e_uid := required_eq e_uid
    obtain ⟨type', e_type, h⟩ := xbind h
    have e_type := required_eq e_type
    cases h
    exact fun hk => { uid := hs.uid _ e_uid,
                      name := fun y hy => hs.name y hy,
                      description := fun y hy => hs.description y hy,
                      resourceReferences := fun y hy z hz => (hs.resourceReferences y hy z hz) (hk.resourceReferences y hy z hz),
                      type := ⟨(hs.type _ e_type).1, (hs.type _ e_type).2⟩,
                      event := fun y hy => (hs.event y hy) (hk.event y hy),
                      conditions := fun y hy z hz => (hs.conditions y hy z hz),
                      timeActivated := fun y hy => hs.timeActivated y hy,
                      inputs := fun y hy z hz => (hs.inputs y hy z hz) (hk.inputs y hy z hz),
                      outputs := fun y hy z hz => (hs.outputs y hy z hz) (hk.outputs y hy z hz),
                      properties := fun y hy z hz => (hs.properties y hy z hz) }

/-- What is known of the local variables of the reader of `Volume`. -/
structure Volume.Vars.Got (s : Volume.Vars) : Prop where
  uid : ∀ y, s.uid = some y → Trimmed y
  name : ∀ y, s.name = some y → Trimmed y
  mode : ∀ y, s.mode = some y → Stable VolumeMode.display VolumeMode.new y ∧ Trimmed (VolumeMode.display y)
  path : ∀ y, s.path = some y → Trimmed y
  sizeAllocated : ∀ y, s.sizeAllocated = some y → Trimmed y
  properties : ∀ y, s.properties = some y → ∀ z ∈ y, Property.XmlOk z

theorem Volume.gets : Gets (Volume.readXml) fun x => Volume.XmlOk x := by
  unfold Volume.readXml
  refine struct_gets (Volume.Vars.Got) { uid := noneAll, name := noneAll, mode := noneAll, path := noneAll, sizeAllocated := noneAll, properties := noneAll } ?_ ?_
  · unfold Volume.arms
    exact armsGetCons (arm_gets readSimple_gets fun y s h hy => { h with uid := fun z e => by cases e; exact hy }) <|
      armsGetCons (arm_gets readSimple_gets fun y s h hy => { h with name := fun z e => by cases e; exact hy }) <|
      armsGetCons (arm_gets (enum_gets VolumeMode.new_stable VolumeMode.display_new) fun y s h hy => { h with mode := fun z e => by cases e; exact hy }) <|
      armsGetCons (arm_gets readSimple_gets fun y s h hy => { h with path := fun z e => by cases e; exact hy }) <|
      armsGetCons (arm_gets readSimple_gets fun y s h hy => { h with sizeAllocated := fun z e => by cases e; exact hy }) <|
      armsGetCons (arm_gets readBool_gets fun y s h _ => { h with  }) <|
      armsGetCons (arm_gets readBool_gets fun y s h _ => { h with  }) <|
      armsGetCons (arm_gets (list_gets Property.gets) fun y s h hy => { h with properties := fun z e => by cases e; exact hy }) <|
      armsGetNil
  · intro el attrs p s x hp hs h
    cases h
    exact { uid := fun y hy => hs.uid y hy,
            name := fun y hy => hs.name y hy,
            mode := option_getD (P := fun z => Stable VolumeMode.display VolumeMode.new z ∧ Trimmed (VolumeMode.display z)) hs.mode ⟨rfl, rfl⟩,
            path := fun y hy => hs.path y hy,
            sizeAllocated := fun y hy => hs.sizeAllocated y hy,
            properties := fun y hy z hz => (hs.properties y hy z hz) }

/-- What is known of the local variables of the reader of `Workspace`. -/
structure Workspace.Vars.Got (s : Workspace.Vars) : Prop where
  uid : ∀ y, s.uid = some y → Trimmed y
  name : ∀ y, s.name = some y → Trimmed y
  aliases : ∀ y, s.aliases = some y → ∀ z ∈ y, Trimmed z
  description : ∀ y, s.description = some y → Trimmed y
  resourceReferences : ∀ y, s.resourceReferences = some y → ∀ z ∈ y, (ResourceReference.XmlKept z → ResourceReference.XmlOk z)
  accessMode : ∀ y, s.accessMode = some y → Stable AccessMode.display AccessMode.new y ∧ Trimmed (AccessMode.display y)
  mountPath : ∀ y, s.mountPath = some y → Trimmed y
  managedDataType : ∀ y, s.managedDataType = some y → Trimmed y
  volumeRequest : ∀ y, s.volumeRequest = some y → Trimmed y
  volume : ∀ y, s.volume = some y → Volume.XmlOk y
  properties : ∀ y, s.properties = some y → ∀ z ∈ y, Property.XmlOk z

theorem Workspace.gets : Gets (Workspace.readXml) fun x => (Workspace.XmlKept x → Workspace.XmlOk x) := by
  unfold Workspace.readXml
  refine struct_gets (Workspace.Vars.Got) { uid := noneAll, name := noneAll, aliases := noneAll, description := noneAll, resourceReferences := noneAll, accessMode := noneAll, mountPath := noneAll, managedDataType := noneAll, volumeRequest := noneAll, volume := noneAll, properties := noneAll } ?_ ?_
  · unfold Workspace.arms
    exact armsGetCons (arm_gets readSimple_gets fun y s h hy => { h with uid := fun z e => by cases e; exact hy }) <|
      armsGetCons (arm_gets readSimple_gets fun y s h hy => { h with name := fun z e => by cases e; exact hy }) <|
      armsGetCons (arm_gets (list_gets readSimple_gets) fun y s h hy => { h with aliases := fun z e => by cases e; exact hy }) <|
      armsGetCons (arm_gets readSimple_gets fun y s h hy => { h with description := fun z e => by cases e; exact hy }) <|
      armsGetCons (arm_gets (list_gets ResourceReference.gets) fun y s h hy => { h with resourceReferences := fun z e => by cases e; exact hy }) <|
      armsGetCons (arm_gets (enum_gets AccessMode.new_stable AccessMode.display_new) fun y s h hy => { h with accessMode := fun z e => by cases e; exact hy }) <|
      armsGetCons (arm_gets readSimple_gets fun y s h hy => { h with mountPath := fun z e => by cases e; exact hy }) <|
      armsGetCons (arm_gets readSimple_gets fun y s h hy => { h with managedDataType := fun z e => by cases e; exact hy }) <|
      armsGetCons (arm_gets readSimple_gets fun y s h hy => { h with volumeRequest := fun z e => by cases e; exact hy }) <|
      armsGetCons (arm_gets Volume.gets fun y s h hy => { h with volume := fun z e => by cases e; exact hy }) <|
      armsGetCons (arm_gets (list_gets Property.gets) fun y s h hy => { h with properties := fun z e => by cases e; exact hy }) <|
      armsGetNil
  · intro el attrs p s x hp hs h
    obtain ⟨uid', e_uid, h⟩ := xbind h
    have e_uid := required_eq e_uid
    cases h
    exact fun hk => { uid := hs.uid _ e_uid,
                      name := fun y hy => hs.name y hy,
                      aliases := fun y hy z hz => hs.aliases y hy z hz,
                      description := fun y hy => hs.description y hy,
                      resourceReferences := fun y hy z hz => (hs.resourceReferences y hy z hz) (hk.resourceReferences y hy z hz),
                      accessMode := fun y hy => ⟨(hs.accessMode y hy).1, (hs.accessMode y hy).2⟩,
                      mountPath := fun y hy => hs.mountPath y hy,
                      managedDataType := fun y hy => hs.managedDataType y hy,
                      volumeRequest := fun y hy => hs.volumeRequest y hy,
                      volume := fun y hy => (hs.volume y hy),
                      properties := fun y hy z hz => (hs.properties y hy z hz) }

theorem WorkflowTask.gets : Gets (WorkflowTask.readXml) fun _ => True := by
  unfold WorkflowTask.readXml
  refine struct_gets (fun _ => True) trivial ?_ fun _ _ _ _ _ _ _ _ => trivial
  unfold WorkflowTask.arms
  exact armsGetCons (arm_gets readSimple_gets fun _ _ _ _ => trivial) <|
      armsGetCons (arm_gets readSimple_gets fun _ _ _ _ => trivial) <|
      armsGetCons (arm_gets readSimple_gets fun _ _ _ _ => trivial) <|
      armsGetCons (arm_gets (list_gets ResourceReference.gets) fun _ _ _ _ => trivial) <|
      armsGetCons (arm_gets (list_gets (enum_gets TaskType.new_stable TaskType.display_new)) fun _ _ _ _ => trivial) <|
      armsGetCons (arm_gets Trigger.gets fun _ _ _ _ => trivial) <|
      armsGetCons (arm_gets (list_gets Step.gets) fun _ _ _ _ => trivial) <|
      armsGetCons (arm_gets (list_gets Input.gets) fun _ _ _ _ => trivial) <|
      armsGetCons (arm_gets (list_gets Output.gets) fun _ _ _ _ => trivial) <|
      armsGetCons (arm_gets readSimple_gets fun _ _ _ _ => trivial) <|
      armsGetCons (arm_gets readSimple_gets fun _ _ _ _ => trivial) <|
      armsGetCons (arm_gets (list_gets Workspace.gets) fun _ _ _ _ => trivial) <|
      armsGetCons (arm_gets (list_gets Dependency.gets) fun _ _ _ _ => trivial) <|
      armsGetCons (arm_gets (list_gets Property.gets) fun _ _ _ _ => trivial) <|
      armsGetNil

/-- What is known of the local variables of the reader of `Workflow`. -/
structure Workflow.Vars.Got (s : Workflow.Vars) : Prop where
  uid : ∀ y, s.uid = some y → Trimmed y
  name : ∀ y, s.name = some y → Trimmed y
  description : ∀ y, s.description = some y → Trimmed y
  resourceReferences : ∀ y, s.resourceReferences = some y → ∀ z ∈ y, (ResourceReference.XmlKept z → ResourceReference.XmlOk z)
  taskTypes : ∀ y, s.taskTypes = some y → ∀ z ∈ y, Stable TaskType.display TaskType.new z ∧ Trimmed (TaskType.display z)
  trigger : ∀ y, s.trigger = some y → (Trigger.XmlKept y → Trigger.XmlOk y)
  steps : ∀ y, s.steps = some y → ∀ z ∈ y, Step.XmlOk z
  inputs : ∀ y, s.inputs = some y → ∀ z ∈ y, (Input.XmlKept z → Input.XmlOk z)
  outputs : ∀ y, s.outputs = some y → ∀ z ∈ y, (Output.XmlKept z → Output.XmlOk z)
  timeStart : ∀ y, s.timeStart = some y → Trimmed y
  timeEnd : ∀ y, s.timeEnd = some y → Trimmed y
  workspaces : ∀ y, s.workspaces = some y → ∀ z ∈ y, (Workspace.XmlKept z → Workspace.XmlOk z)
  properties : ∀ y, s.properties = some y → ∀ z ∈ y, Property.XmlOk z

theorem Workflow.gets : Gets (Workflow.readXml) fun x => (Workflow.XmlKept x → Workflow.XmlOk x) := by
  unfold Workflow.readXml
  refine struct_gets (Workflow.Vars.Got) { uid := noneAll, name := noneAll, description := noneAll, resourceReferences := noneAll, taskTypes := noneAll, trigger := noneAll, steps := noneAll, inputs := noneAll, outputs := noneAll, timeStart := noneAll, timeEnd := noneAll, workspaces := noneAll, properties := noneAll } ?_ ?_
  · unfold Workflow.arms
    exact armsGetCons (arm_gets readSimple_gets fun y s h hy => { h with uid := fun z e => by cases e; exact hy }) <|
      armsGetCons (arm_gets readSimple_gets fun y s h hy => { h with name := fun z e => by cases e; exact hy }) <|
      armsGetCons (arm_gets readSimple_gets fun y s h hy => { h with description := fun z e => by cases e; exact hy }) <|
      armsGetCons (arm_gets (list_gets ResourceReference.gets) fun y s h hy => { h with resourceReferences := fun z e => by cases e; exact hy }) <|
      armsGetCons (arm_gets (list_gets WorkflowTask.gets) fun y s h _ => { h with  }) <|
      armsGetCons (arm_gets (list_gets Dependency.gets) fun y s h _ => { h with  }) <|
      armsGetCons (arm_gets (list_gets (enum_gets TaskType.new_stable TaskType.display_new)) fun y s h hy => { h with taskTypes := fun z e => by cases e; exact hy }) <|
      armsGetCons (arm_gets Trigger.gets fun y s h hy => { h with trigger := fun z e => by cases e; exact hy }) <|
      armsGetCons (arm_gets (list_gets Step.gets) fun y s h hy => { h with steps := fun z e => by cases e; exact hy }) <|
      armsGetCons (arm_gets (list_gets Input.gets) fun y s h hy => { h with inputs := fun z e => by cases e; exact hy }) <|
      armsGetCons (arm_gets (list_gets Output.gets) fun y s h hy => { h with outputs := fun z e => by cases e; exact hy }) <|
      armsGetCons (arm_gets readSimple_gets fun y s h hy => { h with timeStart := fun z e => by cases e; exact hy }) <|
      armsGetCons (arm_gets readSimple_gets fun y s h hy => { h with timeEnd := fun z e => by cases e; exact hy }) <|
      armsGetCons (arm_gets (list_gets Workspace.gets) fun y s h hy => { h with workspaces := fun z e => by cases e; exact hy }) <|
      armsGetCons (arm_gets (list_gets Dependency.gets) fun y s h _ => { h with  }) <|
      armsGetCons (arm_gets (list_gets Property.gets) fun y s h hy => { h with properties := fun z e => by cases e; exact hy }) <|
      armsGetNil
  · intro el attrs p s x hp hs h
    obtain ⟨uid', e_uid, h⟩ := xbind h
    have e_uid := required_eq e_uid
    obtain ⟨taskTypes', e_taskTypes, h⟩ := xbind h
    have e_taskTypes := required_eq e_taskTypes
    cases h
    exact fun hk => { uid := hs.uid _ e_uid,
                      name := fun y hy => hs.name y hy,
                      description := fun y hy => hs.description y hy,
                      resourceReferences := fun y hy z hz => (hs.resourceReferences y hy z hz) (hk.resourceReferences y hy z hz),
                      tasks := fun y hy z hz => absurd hz (by rw [hk.tasks y hy]; exact List.not_mem_nil),
                      taskTypes := fun y hy => ⟨(hs.taskTypes _ e_taskTypes y hy).1, (hs.taskTypes _ e_taskTypes y hy).2⟩,
                      trigger := fun y hy => (hs.trigger y hy) (hk.trigger y hy),
                      steps := fun y hy z hz => (hs.steps y hy z hz),
                      inputs := fun y hy z hz => (hs.inputs y hy z hz) (hk.inputs y hy z hz),
                      outputs := fun y hy z hz => (hs.outputs y hy z hz) (hk.outputs y hy z hz),
                      timeStart := fun y hy => hs.timeStart y hy,
                      timeEnd := fun y hy => hs.timeEnd y hy,
                      workspaces := fun y hy z hz => (hs.workspaces y hy z hz) (hk.workspaces y hy z hz),
                      properties := fun y hy z hz => (hs.properties y hy z hz) }

end Cdx
