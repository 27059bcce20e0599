import Verif.Model.Format.Annotation

set_option linter.unusedVariables false

/-!
# File formats: formulations
-/

namespace Cdx

variable [F32Format]

variable [ReadLimit]

/-- The members that a flattened `ResourceReference` adds to an object (`specs/v1_5/formulation/workflow/resource_reference.rs` 78-86, conversion 88-99). -/
def ResourceReference.toFields : ResourceReference → List (String × Option Json)
  | .ref y => [("ref", some (Json.str y))]
  | .externalReference y => [("externalReference", some (ExternalReference.toJson y))]

/-- A flattened `ResourceReference` from the members of an object (`specs/v1_5/formulation/workflow/resource_reference.rs` 78-86, conversion 101-112). -/
def ResourceReference.ofFields (o : List (String × Json)) : Except String ResourceReference :=
  Json.flatUntagged o
  [("ref", fun j => (Json.string j).map .ref),
   ("externalReference", fun j => (ExternalReference.ofJson j).map .externalReference)]

/-- `ResourceReference` as JSON (`specs/v1_5/formulation/workflow/resource_reference.rs` 78-86, conversion 88-99). -/
def ResourceReference.toJson (x : ResourceReference) : Json := .mk (ResourceReference.toFields x)

/-- `ResourceReference` from JSON (`specs/v1_5/formulation/workflow/resource_reference.rs` 78-86, conversion 101-112). -/
def ResourceReference.ofJson (j : Json) : Except String ResourceReference := do
  let o ← j.fields
  ResourceReference.ofFields o

/-- The content of a `ResourceReference` as XML (`specs/v1_5/formulation/workflow/resource_reference.rs` 118-137): an external
reference writes a `reference` element, although the reader expects `externalReference`. -/
def ResourceReference.writeInner : ResourceReference → List WEvent
  | .ref y => writeSimple "ref" y
  | .externalReference y => ExternalReference.writeXml y

/-- `ResourceReference` as XML (`specs/v1_5/formulation/workflow/resource_reference.rs` 118-137). -/
def ResourceReference.writeXml (tag : String) (x : ResourceReference) : List WEvent :=
  writeElem tag [] (ResourceReference.writeInner x)

/-- The tags that the reader of `ResourceReference` knows (`specs/v1_5/formulation/workflow/resource_reference.rs` 139-195). -/
def ResourceReference.arms : List (String × Arm (Option ResourceReference)) :=
  [("ref", arm readSimple fun y _ => some (.ref y)),
   ("externalReference", arm ExternalReference.readXml fun y _ => some (.externalReference y))]

/-- `ResourceReference` from XML (`specs/v1_5/formulation/workflow/resource_reference.rs` 139-195). -/
def ResourceReference.readXml : XElem ResourceReference :=
  readStruct .fail (fun _ _ => .ok ()) none ResourceReference.arms
    fun el _ x => required "resourceReference" el x

/-- `EnvironmentVar` as JSON (`specs/v1_5/formulation/workflow/mod.rs` 522-526, conversion 528-535). -/
def EnvironmentVar.toJson : EnvironmentVar → Json
  | .property n v => .mk [("name", some (.str n)), ("value", some (.str v))]
  | .value v => .str v

/-- `EnvironmentVar` from JSON (`specs/v1_5/formulation/workflow/mod.rs` 522-526, conversion 537-544): an object with a name and
a value, or a string. -/
def EnvironmentVar.ofJson : Json → Except String EnvironmentVar
  | .str s => .ok (.value s)
  | j => do
    let o ← j.fields
    let n ← Json.req o "name" Json.string
    let v ← Json.req o "value" Json.string
    .ok (.property n v)

/-- `EnvironmentVar` as XML (`specs/v1_5/formulation/workflow/mod.rs` 550-574). -/
def EnvironmentVar.writeXml : EnvironmentVar → List WEvent
  | .property n v => writeElem "environmentVar" (mkAttrs [("name", some n)]) [.chars v]
  | .value v => writeSimple "value" v

/-- An `environmentVar` element (`specs/v1_5/formulation/workflow/mod.rs` 495-501): the text is read before the attribute. -/
def EnvironmentVar.readProperty : XElem EnvironmentVar := fun el attrs evs => do
  let (s, l) ← readSimple el attrs evs
  let y ← (reqAttr el attrs "name").map fun n => EnvironmentVar.property n s
  .ok (y, l)

/-- The tags that the reader of environment variables knows (`specs/v1_5/formulation/workflow/mod.rs` 478-519). -/
def EnvironmentVar.arms : List (String × Arm (List EnvironmentVar)) :=
  [("environmentVar", arm EnvironmentVar.readProperty fun y s => s ++ [y]),
   ("value", arm readSimple fun y s => s ++ [.value y])]

/-- A list of environment variables from XML (`specs/v1_5/formulation/workflow/mod.rs` 478-519). -/
def EnvironmentVar.readAll : XElem (List EnvironmentVar) :=
  readStruct .skip (fun _ _ => .ok ()) [] EnvironmentVar.arms fun _ _ x => .ok x

/-- `Parameter` as JSON (`specs/v1_5/formulation/workflow/input.rs` 238-246, conversion 248-256). -/
def Parameter.toJson (x : Parameter) : Json :=
  .mk [("name", x.name.map Json.str),
    ("value", x.value.map Json.str),
    ("dataType", x.dataType.map Json.str)]

/-- `Parameter` from JSON (`specs/v1_5/formulation/workflow/input.rs` 238-246, conversion 258-266). -/
def Parameter.ofJson (j : Json) : Except String Parameter := do
  let o ← j.fields
  let name' ← Json.opt o "name" Json.string
  let value' ← Json.opt o "value" Json.string
  let dataType' ← Json.opt o "dataType" Json.string
  .ok { name := name',
        value := value',
        dataType := dataType' }

/-- `Parameter` as XML (`specs/v1_5/formulation/workflow/input.rs` 273-294). -/
def Parameter.writeXml (x : Parameter) : List WEvent :=
  writeElem "parameter" [] (
    (writeOpt (writeSimple "name") x.name) ++
    ((writeOpt (writeSimple "value") x.value) ++
    ((writeOpt (writeSimple "dataType") x.dataType))))

/-- The local variables of the reader of `Parameter` (`specs/v1_5/formulation/workflow/input.rs` 296-343). -/
structure Parameter.Vars where
  name : Option String := none
  value : Option String := none
  dataType : Option String := none

/-- The tags that the reader of `Parameter` knows (`specs/v1_5/formulation/workflow/input.rs` 296-343). -/
def Parameter.arms : List (String × Arm Parameter.Vars) :=
  [("name", arm readSimple fun y s => { s with name := some y }),
   ("value", arm readSimple fun y s => { s with value := some y }),
   ("dataType", arm readSimple fun y s => { s with dataType := some y })]

/-- `Parameter` from XML (`specs/v1_5/formulation/workflow/input.rs` 296-343). -/
def Parameter.readXml : XElem Parameter :=
  readStruct .fail (fun _ _ => .ok ())
    ({} : Parameter.Vars) Parameter.arms (fun _ _ vars =>
      .ok { name := vars.name,
            value := vars.value,
            dataType := vars.dataType })

/-- The members that a flattened `RequiredInputField` adds to an object (`specs/v1_5/formulation/workflow/input.rs` 229-235, conversion 29-57). -/
def RequiredInputField.toFields : RequiredInputField → List (String × Option Json)
  | .resource y => [("resource", some (ResourceReference.toJson y))]
  | .parameters y => [("parameters", some ((Json.ofList Parameter.toJson) y))]
  | .environmentVars y => [("environmentVars", some ((Json.ofList EnvironmentVar.toJson) y))]
  | .data y => [("data", some (Attachment.toJson y))]

/-- A flattened `RequiredInputField` from the members of an object (`specs/v1_5/formulation/workflow/input.rs` 229-235, conversion 59-87). -/
def RequiredInputField.ofFields (o : List (String × Json)) : Except String RequiredInputField :=
  Json.flatUntagged o
  [("resource", fun j => (ResourceReference.ofJson j).map .resource),
   ("parameters", fun j => ((Json.array Parameter.ofJson) j).map .parameters),
   ("environmentVars", fun j => ((Json.array EnvironmentVar.ofJson) j).map .environmentVars),
   ("data", fun j => (Attachment.ofJson j).map .data)]

/-- `RequiredInputField` as XML (`specs/v1_5/formulation/workflow/input.rs` 97-117; the reader has no arm for `parameters`). -/
def RequiredInputField.writeXml : RequiredInputField → List WEvent
  | .resource y => (ResourceReference.writeXml "resource") y
  | .parameters y => (writeList "parameters" Parameter.writeXml) y
  | .environmentVars y => (writeList "environmentVars" EnvironmentVar.writeXml) y
  | .data y => (Attachment.writeXml "data") y

/-- `Input` as JSON (`specs/v1_5/formulation/workflow/input.rs` 17-27, conversion 29-57). -/
def Input.toJson (x : Input) : Json :=
  .mk (RequiredInputField.toFields x.required ++
    [("source", x.source.map ResourceReference.toJson),
    ("target", x.target.map ResourceReference.toJson),
    ("properties", x.properties.map (Json.ofList Property.toJson))])

/-- `Input` from JSON (`specs/v1_5/formulation/workflow/input.rs` 17-27, conversion 59-87). -/
def Input.ofJson (j : Json) : Except String Input := do
  let o ← j.fields
  let required' ← RequiredInputField.ofFields o
  let source' ← Json.opt o "source" ResourceReference.ofJson
  let target' ← Json.opt o "target" ResourceReference.ofJson
  let properties' ← Json.opt o "properties" (Json.array Property.ofJson)
  .ok { required := required',
        source := source',
        target := target',
        properties := properties' }

/-- `Input` as XML (`specs/v1_5/formulation/workflow/input.rs` 97-133). -/
def Input.writeXml (x : Input) : List WEvent :=
  writeElem "input" [] (
    (RequiredInputField.writeXml x.required) ++
    ((writeOpt (ResourceReference.writeXml "source") x.source) ++
    ((writeOpt (ResourceReference.writeXml "target") x.target) ++
    ((writeOpt (writeList "properties" Property.writeXml) x.properties)))))

/-- The local variables of the reader of `Input` (`specs/v1_5/formulation/workflow/input.rs` 135-226). -/
structure Input.Vars where
  required : Option RequiredInputField := none
  source : Option ResourceReference := none
  target : Option ResourceReference := none
  properties : Option (List Property) := none

/-- The tags that the reader of `Input` knows (`specs/v1_5/formulation/workflow/input.rs` 135-226). -/
def Input.arms : List (String × Arm Input.Vars) :=
  [("resource", arm ResourceReference.readXml fun y s => { s with required := some (.resource y) }),
   ("environmentVars", arm EnvironmentVar.readAll fun y s => { s with required := some (.environmentVars y) }),
   ("data", arm Attachment.readXml fun y s => { s with required := some (.data y) }),
   ("source", arm ResourceReference.readXml fun y s => { s with source := some y }),
   ("target", arm ResourceReference.readXml fun y s => { s with target := some y }),
   ("properties", arm (readListLax "property" Property.readXml) fun y s => { s with properties := some y })]

/-- `Input` from XML (`specs/v1_5/formulation/workflow/input.rs` 135-226). -/
def Input.readXml : XElem Input :=
  readStruct .fail (fun _ _ => .ok ())
    ({} : Input.Vars) Input.arms (fun el _ vars => do
      let required' ← Cdx.required "resource" el vars.required
      .ok { required := required',
            source := vars.source,
            target := vars.target,
            properties := vars.properties })

/-- The members that a flattened `RequiredOutputField` adds to an object (`specs/v1_5/formulation/workflow/output.rs` 225-231, conversion 30-54). -/
def RequiredOutputField.toFields : RequiredOutputField → List (String × Option Json)
  | .resource y => [("resource", some (ResourceReference.toJson y))]
  | .environmentVars y => [("environmentVars", some ((Json.ofList EnvironmentVar.toJson) y))]
  | .data y => [("data", some (Attachment.toJson y))]

/-- A flattened `RequiredOutputField` from the members of an object (`specs/v1_5/formulation/workflow/output.rs` 225-231, conversion 56-82). -/
def RequiredOutputField.ofFields (o : List (String × Json)) : Except String RequiredOutputField :=
  Json.flatUntagged o
  [("resource", fun j => (ResourceReference.ofJson j).map .resource),
   ("environmentVars", fun j => ((Json.array EnvironmentVar.ofJson) j).map .environmentVars),
   ("data", fun j => (Attachment.ofJson j).map .data)]

/-- `RequiredOutputField` as XML (`specs/v1_5/formulation/workflow/output.rs` 92-112). -/
def RequiredOutputField.writeXml : RequiredOutputField → List WEvent
  | .resource y => (ResourceReference.writeXml "resource") y
  | .environmentVars y => (writeList "environmentVars" EnvironmentVar.writeXml) y
  | .data y => (Attachment.writeXml "data") y

/-- `Output` as JSON (`specs/v1_5/formulation/workflow/output.rs` 16-28, conversion 30-54). -/
def Output.toJson (x : Output) : Json :=
  .mk (RequiredOutputField.toFields x.required ++
    [("type", x.type.map (Json.ofEnum OutputType.display)),
    ("source", x.source.map ResourceReference.toJson),
    ("target", x.target.map ResourceReference.toJson),
    ("properties", x.properties.map (Json.ofList Property.toJson))])

/-- `Output` from JSON (`specs/v1_5/formulation/workflow/output.rs` 16-28, conversion 56-82). -/
def Output.ofJson (j : Json) : Except String Output := do
  let o ← j.fields
  let required' ← RequiredOutputField.ofFields o
  let type' ← Json.opt o "type" (Json.enum OutputType.new)
  let source' ← Json.opt o "source" ResourceReference.ofJson
  let target' ← Json.opt o "target" ResourceReference.ofJson
  let properties' ← Json.opt o "properties" (Json.array Property.ofJson)
  .ok { required := required',
        type := type',
        source := source',
        target := target',
        properties := properties' }

/-- `Output` as XML (`specs/v1_5/formulation/workflow/output.rs` 92-127). -/
def Output.writeXml (x : Output) : List WEvent :=
  writeElem "output" [] (
    (RequiredOutputField.writeXml x.required) ++
    ((writeOpt (fun e => writeSimple "type" (OutputType.display e)) x.type) ++
    ((writeOpt (ResourceReference.writeXml "source") x.source) ++
    ((writeOpt (ResourceReference.writeXml "target") x.target) ++
    ((writeOpt (writeList "properties" Property.writeXml) x.properties))))))

/-- The local variables of the reader of `Output` (`specs/v1_5/formulation/workflow/output.rs` 129-223). -/
structure Output.Vars where
  required : Option RequiredOutputField := none
  type : Option OutputType := none
  source : Option ResourceReference := none
  target : Option ResourceReference := none
  properties : Option (List Property) := none

/-- The tags that the reader of `Output` knows (`specs/v1_5/formulation/workflow/output.rs` 129-223). -/
def Output.arms : List (String × Arm Output.Vars) :=
  [("resource", arm ResourceReference.readXml fun y s => { s with required := some (.resource y) }),
   ("environmentVars", arm EnvironmentVar.readAll fun y s => { s with required := some (.environmentVars y) }),
   ("data", arm Attachment.readXml fun y s => { s with required := some (.data y) }),
   ("type", arm (readSimple.map OutputType.new) fun y s => { s with type := some y }),
   ("source", arm ResourceReference.readXml fun y s => { s with source := some y }),
   ("target", arm ResourceReference.readXml fun y s => { s with target := some y }),
   ("properties", arm (readListLax "property" Property.readXml) fun y s => { s with properties := some y })]

/-- `Output` from XML (`specs/v1_5/formulation/workflow/output.rs` 129-223). -/
def Output.readXml : XElem Output :=
  readStruct .fail (fun _ _ => .ok ())
    ({} : Output.Vars) Output.arms (fun el _ vars => do
      let required' ← Cdx.required "resource" el vars.required
      .ok { required := required',
            type := vars.type,
            source := vars.source,
            target := vars.target,
            properties := vars.properties })

/-- `Command` as JSON (`specs/v1_5/formulation/workflow/step.rs` 132-138, conversion 140-147). -/
def Command.toJson (x : Command) : Json :=
  .mk [("executed", x.executed.map Json.str),
    ("properties", x.properties.map (Json.ofList Property.toJson))]

/-- `Command` from JSON (`specs/v1_5/formulation/workflow/step.rs` 132-138, conversion 149-156). -/
def Command.ofJson (j : Json) : Except String Command := do
  let o ← j.fields
  let executed' ← Json.opt o "executed" Json.string
  let properties' ← Json.opt o "properties" (Json.array Property.ofJson)
  .ok { executed := executed',
        properties := properties' }

/-- `Command` as XML (`specs/v1_5/formulation/workflow/step.rs` 162-175). -/
def Command.writeXml (x : Command) : List WEvent :=
  writeElem "command" [] (
    (writeOpt (writeSimple "executed") x.executed) ++
    ((writeOpt (writeList "properties" Property.writeXml) x.properties)))

/-- The local variables of the reader of `Command` (`specs/v1_5/formulation/workflow/step.rs` 177-222). -/
structure Command.Vars where
  executed : Option String := none
  properties : Option (List Property) := none

/-- The tags that the reader of `Command` knows (`specs/v1_5/formulation/workflow/step.rs` 177-222). -/
def Command.arms : List (String × Arm Command.Vars) :=
  [("executed", arm readSimple fun y s => { s with executed := some y }),
   ("properties", arm (readListLax "property" Property.readXml) fun y s => { s with properties := some y })]

/-- `Command` from XML (`specs/v1_5/formulation/workflow/step.rs` 177-222). -/
def Command.readXml : XElem Command :=
  readStruct .fail (fun _ _ => .ok ())
    ({} : Command.Vars) Command.arms (fun _ _ vars =>
      .ok { executed := vars.executed,
            properties := vars.properties })

/-- `Step` as JSON (`specs/v1_5/formulation/workflow/step.rs` 15-25, conversion 27-36). -/
def Step.toJson (x : Step) : Json :=
  .mk [("commands", x.commands.map (Json.ofList Command.toJson)),
    ("description", x.description.map Json.str),
    ("name", x.name.map Json.str),
    ("properties", x.properties.map (Json.ofList Property.toJson))]

/-- `Step` from JSON (`specs/v1_5/formulation/workflow/step.rs` 15-25, conversion 38-47). -/
def Step.ofJson (j : Json) : Except String Step := do
  let o ← j.fields
  let commands' ← Json.opt o "commands" (Json.array Command.ofJson)
  let description' ← Json.opt o "description" Json.string
  let name' ← Json.opt o "name" Json.string
  let properties' ← Json.opt o "properties" (Json.array Property.ofJson)
  .ok { commands := commands',
        description := description',
        name := name',
        properties := properties' }

/-- `Step` as XML (`specs/v1_5/formulation/workflow/step.rs` 54-73). -/
def Step.writeXml (x : Step) : List WEvent :=
  writeElem "step" [] (
    (writeOpt (writeList "commands" Command.writeXml) x.commands) ++
    ((writeOpt (writeSimple "description") x.description) ++
    ((writeOpt (writeSimple "name") x.name) ++
    ((writeOpt (writeList "properties" Property.writeXml) x.properties)))))

/-- The local variables of the reader of `Step` (`specs/v1_5/formulation/workflow/step.rs` 75-130). -/
structure Step.Vars where
  commands : Option (List Command) := none
  description : Option String := none
  name : Option String := none
  properties : Option (List Property) := none

/-- The tags that the reader of `Step` knows (`specs/v1_5/formulation/workflow/step.rs` 75-130). -/
def Step.arms : List (String × Arm Step.Vars) :=
  [("commands", arm (readList "command" Command.readXml) fun y s => { s with commands := some y }),
   ("description", arm readSimple fun y s => { s with description := some y }),
   ("name", arm readSimple fun y s => { s with name := some y }),
   ("properties", arm (readListLax "property" Property.readXml) fun y s => { s with properties := some y })]

/-- `Step` from XML (`specs/v1_5/formulation/workflow/step.rs` 75-130). -/
def Step.readXml : XElem Step :=
  readStruct .skip (fun _ _ => .ok ())
    ({} : Step.Vars) Step.arms (fun _ _ vars =>
      .ok { commands := vars.commands,
            description := vars.description,
            name := vars.name,
            properties := vars.properties })

/-- `TriggerEvent` as JSON (`specs/v1_5/formulation/workflow/trigger.rs` 236-253, conversion 255-267). -/
def TriggerEvent.toJson (x : TriggerEvent) : Json :=
  .mk [("uid", x.uid.map Json.str),
    ("description", x.description.map Json.str),
    ("timeReceived", x.timeReceived.map Json.str),
    ("data", x.data.map Attachment.toJson),
    ("source", x.source.map ResourceReference.toJson),
    ("target", x.target.map ResourceReference.toJson),
    ("properties", x.properties.map (Json.ofList Property.toJson))]

/-- `TriggerEvent` from JSON (`specs/v1_5/formulation/workflow/trigger.rs` 236-253, conversion 269-281). -/
def TriggerEvent.ofJson (j : Json) : Except String TriggerEvent := do
  let o ← j.fields
  let uid' ← Json.opt o "uid" Json.string
  let description' ← Json.opt o "description" Json.string
  let timeReceived' ← Json.opt o "timeReceived" Json.string
  let data' ← Json.opt o "data" Attachment.ofJson
  let source' ← Json.opt o "source" ResourceReference.ofJson
  let target' ← Json.opt o "target" ResourceReference.ofJson
  let properties' ← Json.opt o "properties" (Json.array Property.ofJson)
  .ok { uid := uid',
        description := description',
        timeReceived := timeReceived',
        data := data',
        source := source',
        target := target',
        properties := properties' }

/-- `TriggerEvent` as XML (`specs/v1_5/formulation/workflow/trigger.rs` 291-308). -/
def TriggerEvent.writeXml (x : TriggerEvent) : List WEvent :=
  writeElem "event" [] (
    (writeOpt (writeSimple "uid") x.uid) ++
    ((writeOpt (writeSimple "description") x.description) ++
    ((writeOpt (writeSimple "timeReceived") x.timeReceived) ++
    ((writeOpt (Attachment.writeXml "data") x.data) ++
    ((writeOpt (ResourceReference.writeXml "source") x.source) ++
    ((writeOpt (ResourceReference.writeXml "target") x.target) ++
    ((writeOpt (writeList "properties" Property.writeXml) x.properties))))))))

/-- The local variables of the reader of `TriggerEvent` (`specs/v1_5/formulation/workflow/trigger.rs` 310-392). -/
structure TriggerEvent.Vars where
  uid : Option String := none
  description : Option String := none
  timeReceived : Option String := none
  data : Option Attachment := none
  source : Option ResourceReference := none
  target : Option ResourceReference := none
  properties : Option (List Property) := none

/-- The tags that the reader of `TriggerEvent` knows (`specs/v1_5/formulation/workflow/trigger.rs` 310-392). -/
def TriggerEvent.arms : List (String × Arm TriggerEvent.Vars) :=
  [("uid", arm readSimple fun y s => { s with uid := some y }),
   ("description", arm readSimple fun y s => { s with description := some y }),
   ("timeReceived", arm readSimple fun y s => { s with timeReceived := some y }),
   ("data", arm Attachment.readXml fun y s => { s with data := some y }),
   ("source", arm ResourceReference.readXml fun y s => { s with source := some y }),
   ("target", arm ResourceReference.readXml fun y s => { s with target := some y }),
   ("properties", arm (readListLax "property" Property.readXml) fun y s => { s with properties := some y })]

/-- `TriggerEvent` from XML (`specs/v1_5/formulation/workflow/trigger.rs` 310-392). -/
def TriggerEvent.readXml : XElem TriggerEvent :=
  readStruct .skip (fun _ _ => .ok ())
    ({} : TriggerEvent.Vars) TriggerEvent.arms (fun _ _ vars =>
      .ok { uid := vars.uid,
            description := vars.description,
            timeReceived := vars.timeReceived,
            data := vars.data,
            source := vars.source,
            target := vars.target,
            properties := vars.properties })

/-- `Condition` as JSON (`specs/v1_5/formulation/workflow/trigger.rs` 394-402, conversion 404-412). -/
def Condition.toJson (x : Condition) : Json :=
  .mk [("description", x.description.map Json.str),
    ("expression", x.expression.map Json.str),
    ("properties", x.properties.map (Json.ofList Property.toJson))]

/-- `Condition` from JSON (`specs/v1_5/formulation/workflow/trigger.rs` 394-402, conversion 414-422). -/
def Condition.ofJson (j : Json) : Except String Condition := do
  let o ← j.fields
  let description' ← Json.opt o "description" Json.string
  let expression' ← Json.opt o "expression" Json.string
  let properties' ← Json.opt o "properties" (Json.array Property.ofJson)
  .ok { description := description',
        expression := expression',
        properties := properties' }

/-- `Condition` as XML (`specs/v1_5/formulation/workflow/trigger.rs` 428-441). -/
def Condition.writeXml (x : Condition) : List WEvent :=
  writeElem "condition" [] (
    (writeOpt (writeSimple "description") x.description) ++
    ((writeOpt (writeSimple "expression") x.expression) ++
    ((writeOpt (writeList "properties" Property.writeXml) x.properties))))

/-- The local variables of the reader of `Condition` (`specs/v1_5/formulation/workflow/trigger.rs` 443-493). -/
structure Condition.Vars where
  description : Option String := none
  expression : Option String := none
  properties : Option (List Property) := none

/-- The tags that the reader of `Condition` knows (`specs/v1_5/formulation/workflow/trigger.rs` 443-493). -/
def Condition.arms : List (String × Arm Condition.Vars) :=
  [("description", arm readSimple fun y s => { s with description := some y }),
   ("expression", arm readSimple fun y s => { s with expression := some y }),
   ("properties", arm (readListLax "property" Property.readXml) fun y s => { s with properties := some y })]

/-- `Condition` from XML (`specs/v1_5/formulation/workflow/trigger.rs` 443-493). -/
def Condition.readXml : XElem Condition :=
  readStruct .fail (fun _ _ => .ok ())
    ({} : Condition.Vars) Condition.arms (fun _ _ vars =>
      .ok { description := vars.description,
            expression := vars.expression,
            properties := vars.properties })

/-- `Trigger` as JSON (`specs/v1_5/formulation/workflow/trigger.rs` 23-48, conversion 50-68). -/
def Trigger.toJson (x : Trigger) : Json :=
  .mk [("bom-ref", some (Json.str x.bomRef)),
    ("uid", some (Json.str x.uid)),
    ("name", x.name.map Json.str),
    ("description", x.description.map Json.str),
    ("resourceReferences", x.resourceReferences.map (Json.ofList ResourceReference.toJson)),
    ("type", some ((Json.ofEnum TriggerType.display) x.type)),
    ("event", x.event.map TriggerEvent.toJson),
    ("conditions", x.conditions.map (Json.ofList Condition.toJson)),
    ("timeActivated", x.timeActivated.map Json.str),
    ("inputs", x.inputs.map (Json.ofList Input.toJson)),
    ("outputs", x.outputs.map (Json.ofList Output.toJson)),
    ("properties", x.properties.map (Json.ofList Property.toJson))]

/-- `Trigger` from JSON (`specs/v1_5/formulation/workflow/trigger.rs` 23-48, conversion 70-87). -/
def Trigger.ofJson (j : Json) : Except String Trigger := do
  let o ← j.fields
  let bomRef' ← Json.req o "bom-ref" Json.string
  let uid' ← Json.req o "uid" Json.string
  let name' ← Json.opt o "name" Json.string
  let description' ← Json.opt o "description" Json.string
  let resourceReferences' ← Json.opt o "resourceReferences" (Json.array ResourceReference.ofJson)
  let type' ← Json.req o "type" (Json.enum TriggerType.new)
  let event' ← Json.opt o "event" TriggerEvent.ofJson
  let conditions' ← Json.opt o "conditions" (Json.array Condition.ofJson)
  let timeActivated' ← Json.opt o "timeActivated" Json.string
  let inputs' ← Json.opt o "inputs" (Json.array Input.ofJson)
  let outputs' ← Json.opt o "outputs" (Json.array Output.ofJson)
  let properties' ← Json.opt o "properties" (Json.array Property.ofJson)
  .ok { bomRef := bomRef',
        uid := uid',
        name := name',
        description := description',
        resourceReferences := resourceReferences',
        type := type',
        event := event',
        conditions := conditions',
        timeActivated := timeActivated',
        inputs := inputs',
        outputs := outputs',
        properties := properties' }

/-- `Trigger` as XML (`specs/v1_5/formulation/workflow/trigger.rs` 101-130). -/
def Trigger.writeXml (x : Trigger) : List WEvent :=
  writeElem "trigger" (mkAttrs [("bom-ref", some x.bomRef)]) (
    ((writeSimple "uid") x.uid) ++
    ((writeOpt (writeSimple "name") x.name) ++
    ((writeOpt (writeSimple "description") x.description) ++
    ((writeOpt (writeList "resourceReferences" (ResourceReference.writeXml "resourceReference")) x.resourceReferences) ++
    (((fun e => writeSimple "type" (TriggerType.display e)) x.type) ++
    ((writeOpt TriggerEvent.writeXml x.event) ++
    ((writeOpt (writeList "conditions" Condition.writeXml) x.conditions) ++
    ((writeOpt (writeSimple "timeActivated") x.timeActivated) ++
    ((writeOpt (writeList "inputs" Input.writeXml) x.inputs) ++
    ((writeOpt (writeList "outputs" Output.writeXml) x.outputs) ++
    ((writeOpt (writeList "properties" Property.writeXml) x.properties))))))))))))

/-- The local variables of the reader of `Trigger` (`specs/v1_5/formulation/workflow/trigger.rs` 132-234). -/
structure Trigger.Vars where
  uid : Option String := none
  name : Option String := none
  description : Option String := none
  resourceReferences : Option (List ResourceReference) := none
  type : Option TriggerType := none
  event : Option TriggerEvent := none
  conditions : Option (List Condition) := none
  timeActivated : Option String := none
  inputs : Option (List Input) := none
  outputs : Option (List Output) := none
  properties : Option (List Property) := none

/-- The tags that the reader of `Trigger` knows (`specs/v1_5/formulation/workflow/trigger.rs` 132-234). -/
def Trigger.arms : List (String × Arm Trigger.Vars) :=
  [("uid", arm readSimple fun y s => { s with uid := some y }),
   ("name", arm readSimple fun y s => { s with name := some y }),
   ("description", arm readSimple fun y s => { s with description := some y }),
   ("resourceReferences", arm (readListLax "resourceReference" ResourceReference.readXml) fun y s => { s with resourceReferences := some y }),
   ("type", arm (readSimple.map TriggerType.new) fun y s => { s with type := some y }),
   ("event", arm TriggerEvent.readXml fun y s => { s with event := some y }),
   ("conditions", arm (readList "condition" Condition.readXml) fun y s => { s with conditions := some y }),
   ("timeActivated", arm readSimple fun y s => { s with timeActivated := some y }),
   ("inputs", arm (readList "input" Input.readXml) fun y s => { s with inputs := some y }),
   ("outputs", arm (readList "output" Output.readXml) fun y s => { s with outputs := some y }),
   ("properties", arm (readListLax "property" Property.readXml) fun y s => { s with properties := some y })]

/-- `Trigger` from XML (`specs/v1_5/formulation/workflow/trigger.rs` 132-234). -/
def Trigger.readXml : XElem Trigger :=
  readStruct .skip (fun el attrs => do
      let a0 ← reqAttr el attrs "bom-ref"
      .ok (a0))
    ({} : Trigger.Vars) Trigger.arms (fun el a0 vars => do
      let uid' ← required "uid" el vars.uid
      let type' ← required "type" el vars.type
      .ok { bomRef := a0,
            uid := uid',
            name := vars.name,
            description := vars.description,
            resourceReferences := vars.resourceReferences,
            type := type',
            event := vars.event,
            conditions := vars.conditions,
            timeActivated := vars.timeActivated,
            inputs := vars.inputs,
            outputs := vars.outputs,
            properties := vars.properties })

/-- `Volume` as JSON (`specs/v1_5/formulation/workflow/workspace/volume.rs` 10-28; the key `size_allocated` is as in the code, conversion 30-43). -/
def Volume.toJson (x : Volume) : Json :=
  .mk [("uid", x.uid.map Json.str),
    ("name", x.name.map Json.str),
    ("mode", some ((Json.ofEnum VolumeMode.display) x.mode)),
    ("path", x.path.map Json.str),
    ("size_allocated", x.sizeAllocated.map Json.str),
    ("persistent", x.persistent.map Json.bool),
    ("remote", x.remote.map Json.bool),
    ("properties", x.properties.map (Json.ofList Property.toJson))]

/-- `Volume` from JSON (`specs/v1_5/formulation/workflow/workspace/volume.rs` 10-28; the key `size_allocated` is as in the code, conversion 45-61). -/
def Volume.ofJson (j : Json) : Except String Volume := do
  let o ← j.fields
  let uid' ← Json.opt o "uid" Json.string
  let name' ← Json.opt o "name" Json.string
  let mode' ← (Json.opt o "mode" (Json.enum VolumeMode.new)).map (·.getD .filesystem)
  let path' ← Json.opt o "path" Json.string
  let sizeAllocated' ← Json.opt o "size_allocated" Json.string
  let persistent' ← Json.opt o "persistent" Json.boolean
  let remote' ← Json.opt o "remote" Json.boolean
  let properties' ← Json.opt o "properties" (Json.array Property.ofJson)
  .ok { uid := uid',
        name := name',
        mode := mode',
        path := path',
        sizeAllocated := sizeAllocated',
        persistent := persistent',
        remote := remote',
        properties := properties' }

/-- `Volume` as XML (`specs/v1_5/formulation/workflow/workspace/volume.rs` 73-116). -/
def Volume.writeXml (x : Volume) : List WEvent :=
  writeElem "volume" [] (
    (writeOpt (writeSimple "uid") x.uid) ++
    ((writeOpt (writeSimple "name") x.name) ++
    (((fun e => writeSimple "mode" (VolumeMode.display e)) x.mode) ++
    ((writeOpt (writeSimple "path") x.path) ++
    ((writeOpt (writeSimple "sizeAllocated") x.sizeAllocated) ++
    ((writeOpt (fun b => writeSimple "persistent" (boolStr b)) x.persistent) ++
    ((writeOpt (fun b => writeSimple "remote" (boolStr b)) x.remote) ++
    ((writeOpt (writeList "properties" Property.writeXml) x.properties)))))))))

/-- The local variables of the reader of `Volume` (`specs/v1_5/formulation/workflow/workspace/volume.rs` 118-150). -/
structure Volume.Vars where
  uid : Option String := none
  name : Option String := none
  mode : Option VolumeMode := none
  path : Option String := none
  sizeAllocated : Option String := none
  persistent : Option Bool := none
  remote : Option Bool := none
  properties : Option (List Property) := none

/-- The tags that the reader of `Volume` knows (`specs/v1_5/formulation/workflow/workspace/volume.rs` 118-150). -/
def Volume.arms : List (String × Arm Volume.Vars) :=
  [("uid", arm readSimple fun y s => { s with uid := some y }),
   ("name", arm readSimple fun y s => { s with name := some y }),
   ("mode", arm (readSimple.map VolumeMode.new) fun y s => { s with mode := some y }),
   ("path", arm readSimple fun y s => { s with path := some y }),
   ("sizeAllocated", arm readSimple fun y s => { s with sizeAllocated := some y }),
   ("persistent", arm readBool fun y s => { s with persistent := some y }),
   ("remote", arm readBool fun y s => { s with remote := some y }),
   ("properties", arm (readListLax "property" Property.readXml) fun y s => { s with properties := some y })]

/-- `Volume` from XML (`specs/v1_5/formulation/workflow/workspace/volume.rs` 118-150). -/
def Volume.readXml : XElem Volume :=
  readStruct .skip (fun _ _ => .ok ())
    ({} : Volume.Vars) Volume.arms (fun _ _ vars =>
      .ok { uid := vars.uid,
            name := vars.name,
            mode := vars.mode.getD .filesystem,
            path := vars.path,
            sizeAllocated := vars.sizeAllocated,
            persistent := vars.persistent,
            remote := vars.remote,
            properties := vars.properties })

/-- `Workspace` as JSON (`specs/v1_5/formulation/workflow/workspace/mod.rs` 21-47, conversion 49-69). -/
def Workspace.toJson (x : Workspace) : Json :=
  .mk [("bom-ref", some (Json.str x.bomRef)),
    ("uid", some (Json.str x.uid)),
    ("name", x.name.map Json.str),
    ("aliases", x.aliases.map (Json.ofList Json.str)),
    ("description", x.description.map Json.str),
    ("resourceReferences", x.resourceReferences.map (Json.ofList ResourceReference.toJson)),
    ("accessMode", x.accessMode.map (Json.ofEnum AccessMode.display)),
    ("mountPath", x.mountPath.map Json.str),
    ("managedDataType", x.managedDataType.map Json.str),
    ("volumeRequest", x.volumeRequest.map Json.str),
    ("volume", x.volume.map Volume.toJson),
    ("properties", x.properties.map (Json.ofList Property.toJson))]

/-- `Workspace` from JSON (`specs/v1_5/formulation/workflow/workspace/mod.rs` 21-47, conversion 71-90). -/
def Workspace.ofJson (j : Json) : Except String Workspace := do
  let o ← j.fields
  let bomRef' ← Json.req o "bom-ref" Json.string
  let uid' ← Json.req o "uid" Json.string
  let name' ← Json.opt o "name" Json.string
  let aliases' ← Json.opt o "aliases" (Json.array Json.string)
  let description' ← Json.opt o "description" Json.string
  let resourceReferences' ← Json.opt o "resourceReferences" (Json.array ResourceReference.ofJson)
  let accessMode' ← Json.opt o "accessMode" (Json.enum AccessMode.new)
  let mountPath' ← Json.opt o "mountPath" Json.string
  let managedDataType' ← Json.opt o "managedDataType" Json.string
  let volumeRequest' ← Json.opt o "volumeRequest" Json.string
  let volume' ← Json.opt o "volume" Volume.ofJson
  let properties' ← Json.opt o "properties" (Json.array Property.ofJson)
  .ok { bomRef := bomRef',
        uid := uid',
        name := name',
        aliases := aliases',
        description := description',
        resourceReferences := resourceReferences',
        accessMode := accessMode',
        mountPath := mountPath',
        managedDataType := managedDataType',
        volumeRequest := volumeRequest',
        volume := volume',
        properties := properties' }

/-- `Workspace` as XML (`specs/v1_5/formulation/workflow/workspace/mod.rs` 107-134). -/
def Workspace.writeXml (x : Workspace) : List WEvent :=
  writeElem "workspace" (mkAttrs [("bom-ref", some x.bomRef)]) (
    ((writeSimple "uid") x.uid) ++
    ((writeOpt (writeSimple "name") x.name) ++
    ((writeOpt (writeList "aliases" (writeSimple "alias")) x.aliases) ++
    ((writeOpt (writeSimple "description") x.description) ++
    ((writeOpt (writeList "resourceReferences" (ResourceReference.writeXml "resourceReference")) x.resourceReferences) ++
    ((writeOpt (fun e => writeSimple "accessMode" (AccessMode.display e)) x.accessMode) ++
    ((writeOpt (writeSimple "mountPath") x.mountPath) ++
    ((writeOpt (writeSimple "managedDataType") x.managedDataType) ++
    ((writeOpt (writeSimple "volumeRequest") x.volumeRequest) ++
    ((writeOpt Volume.writeXml x.volume) ++
    ((writeOpt (writeList "properties" Property.writeXml) x.properties))))))))))))

/-- The local variables of the reader of `Workspace` (`specs/v1_5/formulation/workflow/workspace/mod.rs` 136-177). -/
structure Workspace.Vars where
  uid : Option String := none
  name : Option String := none
  aliases : Option (List String) := none
  description : Option String := none
  resourceReferences : Option (List ResourceReference) := none
  accessMode : Option AccessMode := none
  mountPath : Option String := none
  managedDataType : Option String := none
  volumeRequest : Option String := none
  volume : Option Volume := none
  properties : Option (List Property) := none

/-- The tags that the reader of `Workspace` knows (`specs/v1_5/formulation/workflow/workspace/mod.rs` 136-177). -/
def Workspace.arms : List (String × Arm Workspace.Vars) :=
  [("uid", arm readSimple fun y s => { s with uid := some y }),
   ("name", arm readSimple fun y s => { s with name := some y }),
   ("aliases", arm (readList "alias" readSimple) fun y s => { s with aliases := some y }),
   ("description", arm readSimple fun y s => { s with description := some y }),
   ("resourceReferences", arm (readListLax "resourceReference" ResourceReference.readXml) fun y s => { s with resourceReferences := some y }),
   ("accessMode", arm (readSimple.map AccessMode.new) fun y s => { s with accessMode := some y }),
   ("mountPath", arm readSimple fun y s => { s with mountPath := some y }),
   ("managedDataType", arm readSimple fun y s => { s with managedDataType := some y }),
   ("volumeRequest", arm readSimple fun y s => { s with volumeRequest := some y }),
   ("volume", arm Volume.readXml fun y s => { s with volume := some y }),
   ("properties", arm (readListLax "property" Property.readXml) fun y s => { s with properties := some y })]

/-- `Workspace` from XML (`specs/v1_5/formulation/workflow/workspace/mod.rs` 136-177). -/
def Workspace.readXml : XElem Workspace :=
  readStruct .skip (fun el attrs => do
      let a0 ← reqAttr el attrs "bom-ref"
      .ok (a0))
    ({} : Workspace.Vars) Workspace.arms (fun el a0 vars => do
      let uid' ← required "uid" el vars.uid
      .ok { bomRef := a0,
            uid := uid',
            name := vars.name,
            aliases := vars.aliases,
            description := vars.description,
            resourceReferences := vars.resourceReferences,
            accessMode := vars.accessMode,
            mountPath := vars.mountPath,
            managedDataType := vars.managedDataType,
            volumeRequest := vars.volumeRequest,
            volume := vars.volume,
            properties := vars.properties })

/-- `WorkflowTask` as JSON (`specs/v1_5/formulation/workflow/mod.rs` 281-312, conversion 314-339). -/
def WorkflowTask.toJson (x : WorkflowTask) : Json :=
  .mk [("bom-ref", some (Json.str x.bomRef)),
    ("uid", some (Json.str x.uid)),
    ("name", x.name.map Json.str),
    ("description", x.description.map Json.str),
    ("resourceReferences", x.resourceReferences.map (Json.ofList ResourceReference.toJson)),
    ("taskTypes", some ((Json.ofList (Json.ofEnum TaskType.display)) x.taskTypes)),
    ("trigger", x.trigger.map Trigger.toJson),
    ("steps", x.steps.map (Json.ofList Step.toJson)),
    ("inputs", x.inputs.map (Json.ofList Input.toJson)),
    ("outputs", x.outputs.map (Json.ofList Output.toJson)),
    ("timeStart", x.timeStart.map Json.str),
    ("timeEnd", x.timeEnd.map Json.str),
    ("workspaces", x.workspaces.map (Json.ofList Workspace.toJson)),
    ("runtimeTopology", x.runtimeTopology.map (Json.ofList Dependency.toJson)),
    ("properties", x.properties.map (Json.ofList Property.toJson))]

/-- `WorkflowTask` from JSON (`specs/v1_5/formulation/workflow/mod.rs` 281-312, conversion 341-365). -/
def WorkflowTask.ofJson (j : Json) : Except String WorkflowTask := do
  let o ← j.fields
  let bomRef' ← Json.req o "bom-ref" Json.string
  let uid' ← Json.req o "uid" Json.string
  let name' ← Json.opt o "name" Json.string
  let description' ← Json.opt o "description" Json.string
  let resourceReferences' ← Json.opt o "resourceReferences" (Json.array ResourceReference.ofJson)
  let taskTypes' ← Json.req o "taskTypes" (Json.array (Json.enum TaskType.new))
  let trigger' ← Json.opt o "trigger" Trigger.ofJson
  let steps' ← Json.opt o "steps" (Json.array Step.ofJson)
  let inputs' ← Json.opt o "inputs" (Json.array Input.ofJson)
  let outputs' ← Json.opt o "outputs" (Json.array Output.ofJson)
  let timeStart' ← Json.opt o "timeStart" Json.string
  let timeEnd' ← Json.opt o "timeEnd" Json.string
  let workspaces' ← Json.opt o "workspaces" (Json.array Workspace.ofJson)
  let runtimeTopology' ← Json.opt o "runtimeTopology" (Json.array Dependency.ofJson)
  let properties' ← Json.opt o "properties" (Json.array Property.ofJson)
  .ok { bomRef := bomRef',
        uid := uid',
        name := name',
        description := description',
        resourceReferences := resourceReferences',
        taskTypes := taskTypes',
        trigger := trigger',
        steps := steps',
        inputs := inputs',
        outputs := outputs',
        timeStart := timeStart',
        timeEnd := timeEnd',
        workspaces := workspaces',
        runtimeTopology := runtimeTopology',
        properties := properties' }

/-- `WorkflowTask` as XML (`specs/v1_5/formulation/workflow/mod.rs` 367-405, which does not write the task types). -/
def WorkflowTask.writeXml (x : WorkflowTask) : List WEvent :=
  writeElem "task" (mkAttrs [("bom-ref", some x.bomRef)]) (
    ((writeSimple "uid") x.uid) ++
    ((writeOpt (writeSimple "name") x.name) ++
    ((writeOpt (writeSimple "description") x.description) ++
    ((writeOpt (writeList "resourceReferences" (ResourceReference.writeXml "resourceReference")) x.resourceReferences) ++
    ((writeOpt Trigger.writeXml x.trigger) ++
    ((writeOpt (writeList "steps" Step.writeXml) x.steps) ++
    ((writeOpt (writeList "inputs" Input.writeXml) x.inputs) ++
    ((writeOpt (writeList "outputs" Output.writeXml) x.outputs) ++
    ((writeOpt (writeSimple "timeStart") x.timeStart) ++
    ((writeOpt (writeSimple "timeEnd") x.timeEnd) ++
    ((writeOpt (writeList "workspaces" Workspace.writeXml) x.workspaces) ++
    ((writeOpt (writeList "runtimeTopology" Dependency.writeXml) x.runtimeTopology) ++
    ((writeOpt (writeList "properties" Property.writeXml) x.properties))))))))))))))

/-- The local variables of the reader of `WorkflowTask` (`specs/v1_5/formulation/workflow/mod.rs` 407-456). -/
structure WorkflowTask.Vars where
  uid : Option String := none
  name : Option String := none
  description : Option String := none
  resourceReferences : Option (List ResourceReference) := none
  taskTypes : Option (List TaskType) := none
  trigger : Option Trigger := none
  steps : Option (List Step) := none
  inputs : Option (List Input) := none
  outputs : Option (List Output) := none
  timeStart : Option String := none
  timeEnd : Option String := none
  workspaces : Option (List Workspace) := none
  runtimeTopology : Option (List Dependency) := none
  properties : Option (List Property) := none

/-- The tags that the reader of `WorkflowTask` knows (`specs/v1_5/formulation/workflow/mod.rs` 407-456). -/
def WorkflowTask.arms : List (String × Arm WorkflowTask.Vars) :=
  [("uid", arm readSimple fun y s => { s with uid := some y }),
   ("name", arm readSimple fun y s => { s with name := some y }),
   ("description", arm readSimple fun y s => { s with description := some y }),
   ("resourceReferences", arm (readListLax "resourceReference" ResourceReference.readXml) fun y s => { s with resourceReferences := some y }),
   ("taskTypes", arm (readList "taskType" (readSimple.map TaskType.new)) fun y s => { s with taskTypes := some y }),
   ("trigger", arm Trigger.readXml fun y s => { s with trigger := some y }),
   ("steps", arm (readList "step" Step.readXml) fun y s => { s with steps := some y }),
   ("inputs", arm (readList "input" Input.readXml) fun y s => { s with inputs := some y }),
   ("outputs", arm (readList "output" Output.readXml) fun y s => { s with outputs := some y }),
   ("timeStart", arm readSimple fun y s => { s with timeStart := some y }),
   ("timeEnd", arm readSimple fun y s => { s with timeEnd := some y }),
   ("workspaces", arm (readList "workspace" Workspace.readXml) fun y s => { s with workspaces := some y }),
   ("runtimeTopology", arm (readList "dependency" Dependency.readXml) fun y s => { s with runtimeTopology := some y }),
   ("properties", arm (readListLax "property" Property.readXml) fun y s => { s with properties := some y })]

/-- `WorkflowTask` from XML (`specs/v1_5/formulation/workflow/mod.rs` 407-456). -/
def WorkflowTask.readXml : XElem WorkflowTask :=
  readStruct .skip (fun el attrs => do
      let a0 ← reqAttr el attrs "bom-ref"
      .ok (a0))
    ({} : WorkflowTask.Vars) WorkflowTask.arms (fun el a0 vars => do
      let uid' ← required "uid" el vars.uid
      let taskTypes' ← required "taskTypes" el vars.taskTypes
      .ok { bomRef := a0,
            uid := uid',
            name := vars.name,
            description := vars.description,
            resourceReferences := vars.resourceReferences,
            taskTypes := taskTypes',
            trigger := vars.trigger,
            steps := vars.steps,
            inputs := vars.inputs,
            outputs := vars.outputs,
            timeStart := vars.timeStart,
            timeEnd := vars.timeEnd,
            workspaces := vars.workspaces,
            runtimeTopology := vars.runtimeTopology,
            properties := vars.properties })

/-- `Workflow` as JSON (`specs/v1_5/formulation/workflow/mod.rs` 31-67, conversion 69-96). -/
def Workflow.toJson (x : Workflow) : Json :=
  .mk [("bom-ref", some (Json.str x.bomRef)),
    ("uid", some (Json.str x.uid)),
    ("name", x.name.map Json.str),
    ("description", x.description.map Json.str),
    ("resourceReferences", x.resourceReferences.map (Json.ofList ResourceReference.toJson)),
    ("tasks", x.tasks.map (Json.ofList WorkflowTask.toJson)),
    ("taskDependencies", x.taskDependencies.map (Json.ofList Dependency.toJson)),
    ("taskTypes", some ((Json.ofList (Json.ofEnum TaskType.display)) x.taskTypes)),
    ("trigger", x.trigger.map Trigger.toJson),
    ("steps", x.steps.map (Json.ofList Step.toJson)),
    ("inputs", x.inputs.map (Json.ofList Input.toJson)),
    ("outputs", x.outputs.map (Json.ofList Output.toJson)),
    ("timeStart", x.timeStart.map Json.str),
    ("timeEnd", x.timeEnd.map Json.str),
    ("workspaces", x.workspaces.map (Json.ofList Workspace.toJson)),
    ("runtimeTopology", x.runtimeTopology.map (Json.ofList Dependency.toJson)),
    ("properties", x.properties.map (Json.ofList Property.toJson))]

/-- `Workflow` from JSON (`specs/v1_5/formulation/workflow/mod.rs` 31-67, conversion 98-124). -/
def Workflow.ofJson (j : Json) : Except String Workflow := do
  let o ← j.fields
  let bomRef' ← Json.req o "bom-ref" Json.string
  let uid' ← Json.req o "uid" Json.string
  let name' ← Json.opt o "name" Json.string
  let description' ← Json.opt o "description" Json.string
  let resourceReferences' ← Json.opt o "resourceReferences" (Json.array ResourceReference.ofJson)
  let tasks' ← Json.opt o "tasks" (Json.array WorkflowTask.ofJson)
  let taskDependencies' ← Json.opt o "taskDependencies" (Json.array Dependency.ofJson)
  let taskTypes' ← Json.req o "taskTypes" (Json.array (Json.enum TaskType.new))
  let trigger' ← Json.opt o "trigger" Trigger.ofJson
  let steps' ← Json.opt o "steps" (Json.array Step.ofJson)
  let inputs' ← Json.opt o "inputs" (Json.array Input.ofJson)
  let outputs' ← Json.opt o "outputs" (Json.array Output.ofJson)
  let timeStart' ← Json.opt o "timeStart" Json.string
  let timeEnd' ← Json.opt o "timeEnd" Json.string
  let workspaces' ← Json.opt o "workspaces" (Json.array Workspace.ofJson)
  let runtimeTopology' ← Json.opt o "runtimeTopology" (Json.array Dependency.ofJson)
  let properties' ← Json.opt o "properties" (Json.array Property.ofJson)
  .ok { bomRef := bomRef',
        uid := uid',
        name := name',
        description := description',
        resourceReferences := resourceReferences',
        tasks := tasks',
        taskDependencies := taskDependencies',
        taskTypes := taskTypes',
        trigger := trigger',
        steps := steps',
        inputs := inputs',
        outputs := outputs',
        timeStart := timeStart',
        timeEnd := timeEnd',
        workspaces := workspaces',
        runtimeTopology := runtimeTopology',
        properties := properties' }

/-- `Workflow` as XML (`specs/v1_5/formulation/workflow/mod.rs` 154-199). -/
def Workflow.writeXml (x : Workflow) : List WEvent :=
  writeElem "workflow" (mkAttrs [("bom-ref", some x.bomRef)]) (
    ((writeSimple "uid") x.uid) ++
    ((writeOpt (writeSimple "name") x.name) ++
    ((writeOpt (writeSimple "description") x.description) ++
    ((writeOpt (writeList "resourceReferences" (ResourceReference.writeXml "resourceReference")) x.resourceReferences) ++
    ((writeOpt (writeList "tasks" WorkflowTask.writeXml) x.tasks) ++
    ((writeOpt (writeList "taskDependencies" Dependency.writeXml) x.taskDependencies) ++
    (((writeList "taskTypes" (fun e => writeSimple "taskType" (TaskType.display e))) x.taskTypes) ++
    ((writeOpt Trigger.writeXml x.trigger) ++
    ((writeOpt (writeList "steps" Step.writeXml) x.steps) ++
    ((writeOpt (writeList "inputs" Input.writeXml) x.inputs) ++
    ((writeOpt (writeList "outputs" Output.writeXml) x.outputs) ++
    ((writeOpt (writeSimple "timeStart") x.timeStart) ++
    ((writeOpt (writeSimple "timeEnd") x.timeEnd) ++
    ((writeOpt (writeList "workspaces" Workspace.writeXml) x.workspaces) ++
    ((writeOpt (writeList "runtimeTopology" Dependency.writeXml) x.runtimeTopology) ++
    ((writeOpt (writeList "properties" Property.writeXml) x.properties)))))))))))))))))

/-- The local variables of the reader of `Workflow` (`specs/v1_5/formulation/workflow/mod.rs` 201-254). -/
structure Workflow.Vars where
  uid : Option String := none
  name : Option String := none
  description : Option String := none
  resourceReferences : Option (List ResourceReference) := none
  tasks : Option (List WorkflowTask) := none
  taskDependencies : Option (List Dependency) := none
  taskTypes : Option (List TaskType) := none
  trigger : Option Trigger := none
  steps : Option (List Step) := none
  inputs : Option (List Input) := none
  outputs : Option (List Output) := none
  timeStart : Option String := none
  timeEnd : Option String := none
  workspaces : Option (List Workspace) := none
  runtimeTopology : Option (List Dependency) := none
  properties : Option (List Property) := none

/-- The tags that the reader of `Workflow` knows (`specs/v1_5/formulation/workflow/mod.rs` 201-254). -/
def Workflow.arms : List (String × Arm Workflow.Vars) :=
  [("uid", arm readSimple fun y s => { s with uid := some y }),
   ("name", arm readSimple fun y s => { s with name := some y }),
   ("description", arm readSimple fun y s => { s with description := some y }),
   ("resourceReferences", arm (readListLax "resourceReference" ResourceReference.readXml) fun y s => { s with resourceReferences := some y }),
   ("tasks", arm (readList "task" WorkflowTask.readXml) fun y s => { s with tasks := some y }),
   ("taskDependencies", arm (readList "dependency" Dependency.readXml) fun y s => { s with taskDependencies := some y }),
   ("taskTypes", arm (readList "taskType" (readSimple.map TaskType.new)) fun y s => { s with taskTypes := some y }),
   ("trigger", arm Trigger.readXml fun y s => { s with trigger := some y }),
   ("steps", arm (readList "step" Step.readXml) fun y s => { s with steps := some y }),
   ("inputs", arm (readList "input" Input.readXml) fun y s => { s with inputs := some y }),
   ("outputs", arm (readList "output" Output.readXml) fun y s => { s with outputs := some y }),
   ("timeStart", arm readSimple fun y s => { s with timeStart := some y }),
   ("timeEnd", arm readSimple fun y s => { s with timeEnd := some y }),
   ("workspaces", arm (readList "workspace" Workspace.readXml) fun y s => { s with workspaces := some y }),
   ("runtimeTopology", arm (readList "dependency" Dependency.readXml) fun y s => { s with runtimeTopology := some y }),
   ("properties", arm (readListLax "property" Property.readXml) fun y s => { s with properties := some y })]

/-- `Workflow` from XML (`specs/v1_5/formulation/workflow/mod.rs` 201-254). -/
def Workflow.readXml : XElem Workflow :=
  readStruct .skip (fun el attrs => do
      let a0 ← reqAttr el attrs "bom-ref"
      .ok (a0))
    ({} : Workflow.Vars) Workflow.arms (fun el a0 vars => do
      let uid' ← required "uid" el vars.uid
      let taskTypes' ← required "taskTypes" el vars.taskTypes
      .ok { bomRef := a0,
            uid := uid',
            name := vars.name,
            description := vars.description,
            resourceReferences := vars.resourceReferences,
            tasks := vars.tasks,
            taskDependencies := vars.taskDependencies,
            taskTypes := taskTypes',
            trigger := vars.trigger,
            steps := vars.steps,
            inputs := vars.inputs,
            outputs := vars.outputs,
            timeStart := vars.timeStart,
            timeEnd := vars.timeEnd,
            workspaces := vars.workspaces,
            runtimeTopology := vars.runtimeTopology,
            properties := vars.properties })

/-- `Formula` as JSON (`specs/v1_5/formulation/mod.rs` 24-37; the format has formulations from version 1.5 on, conversion 39-51). -/
def Formula.toJson (v : SpecVersion) (x : Formula) : Json :=
  .mk [("bom-ref", x.bomRef.map Json.str),
    ("components", x.components.map (Json.ofList (Component.toJson v))),
    ("services", x.services.map (Json.ofList (Service.toJson v))),
    ("workflows", x.workflows.map (Json.ofList Workflow.toJson)),
    ("properties", x.properties.map (Json.ofList Property.toJson))]

/-- `Formula` from JSON (`specs/v1_5/formulation/mod.rs` 24-37; the format has formulations from version 1.5 on, conversion 53-63). -/
def Formula.ofJson (v : SpecVersion) (j : Json) : Except String Formula := do
  let o ← j.fields
  let bomRef' ← Json.opt o "bom-ref" Json.string
  let components' ← Json.opt o "components" (Json.array (Component.ofJson v))
  let services' ← Json.opt o "services" (Json.array (Service.ofJson v))
  let workflows' ← Json.opt o "workflows" (Json.array Workflow.ofJson)
  let properties' ← Json.opt o "properties" (Json.array Property.ofJson)
  .ok { bomRef := bomRef',
        components := components',
        services := services',
        workflows := workflows',
        properties := properties' }

/-- `Formula` as XML (`specs/v1_5/formulation/mod.rs` 74-98). -/
def Formula.writeXml (v : SpecVersion) (x : Formula) : List WEvent :=
  writeElem "formula" (mkAttrs [("bom-ref", x.bomRef)]) (
    (writeOpt (writeList "components" (Component.writeXml v)) x.components) ++
    ((writeOpt (writeList "services" (Service.writeXml v)) x.services) ++
    ((writeOpt (writeList "workflows" Workflow.writeXml) x.workflows) ++
    ((writeOpt (writeList "properties" Property.writeXml) x.properties)))))

/-- The local variables of the reader of `Formula` (`specs/v1_5/formulation/mod.rs` 100-127). -/
structure Formula.Vars where
  components : Option (List Component) := none
  services : Option (List Service) := none
  workflows : Option (List Workflow) := none
  properties : Option (List Property) := none

/-- The tags that the reader of `Formula` knows (`specs/v1_5/formulation/mod.rs` 100-127). -/
def Formula.arms (v : SpecVersion) : List (String × Arm Formula.Vars) :=
  [("components", arm (readListLax "component" (Component.readXml v)) fun y s => { s with components := some y }),
   ("services", arm (readListLax "service" (Service.readXml v)) fun y s => { s with services := some y }),
   ("workflows", arm (readList "workflow" Workflow.readXml) fun y s => { s with workflows := some y }),
   ("properties", arm (readListLax "property" Property.readXml) fun y s => { s with properties := some y })]

/-- `Formula` from XML (`specs/v1_5/formulation/mod.rs` 100-127). -/
def Formula.readXml (v : SpecVersion) : XElem Formula :=
  readStruct .fail (fun el attrs => do
      .ok (optAttr attrs "bom-ref"))
    ({} : Formula.Vars) (Formula.arms v) (fun _ a0 vars =>
      .ok { bomRef := a0,
            components := vars.components,
            services := vars.services,
            workflows := vars.workflows,
            properties := vars.properties })

end Cdx
