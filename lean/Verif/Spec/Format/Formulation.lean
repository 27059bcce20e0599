import Verif.Spec.Xml
import Verif.Model.Format.Formulation
import Verif.Spec.Format.Annotation

set_option linter.unusedVariables false

/-!
# What the file formats keep: formulations
-/

namespace Cdx

variable [F32Format]

variable [ReadLimit]

/-- `ResourceReference`s that JSON keeps. -/
def ResourceReference.JsonOk : ResourceReference → Prop
  | .ref y => True
  | .externalReference y => ExternalReference.JsonOk y

/-- `ResourceReference`s that XML keeps: external references are written under a tag that the reader
does not know. -/
def ResourceReference.XmlOk : ResourceReference → Prop
  | .ref y => Trimmed y
  | .externalReference _ => False

/-- `EnvironmentVar`s that XML keeps. -/
def EnvironmentVar.XmlOk : EnvironmentVar → Prop
  | .property _ v => Trimmed v
  | .value v => Trimmed v

/-- `Parameter`s that XML keeps: texts do not begin or end with white space, enumeration values are
read back from their names, numbers are in range, lists of repeated elements are not empty. -/
structure Parameter.XmlOk (x : Parameter) : Prop where
  name : ∀ y, x.name = some y → Trimmed y
  value : ∀ y, x.value = some y → Trimmed y
  dataType : ∀ y, x.dataType = some y → Trimmed y

/-- `RequiredInputField`s that JSON keeps. -/
def RequiredInputField.JsonOk : RequiredInputField → Prop
  | .resource y => ResourceReference.JsonOk y
  | .parameters y => True
  | .environmentVars y => True
  | .data y => True

/-- `RequiredInputField`s that XML keeps. -/
def RequiredInputField.XmlOk : RequiredInputField → Prop
  | .resource x => ResourceReference.XmlOk x
  | .parameters _ => False
  | .environmentVars x => ∀ y ∈ x, EnvironmentVar.XmlOk y
  | .data x => Attachment.XmlOk x

/-- `Input`s that JSON keeps: enumeration values are read back from their names, numbers are in
range. -/
structure Input.JsonOk (x : Input) : Prop where
  required : RequiredInputField.JsonOk x.required
  source : ∀ y, x.source = some y → ResourceReference.JsonOk y
  target : ∀ y, x.target = some y → ResourceReference.JsonOk y

/-- `Input`s that XML keeps: texts do not begin or end with white space, enumeration values are
read back from their names, numbers are in range, lists of repeated elements are not empty. -/
structure Input.XmlOk (x : Input) : Prop where
  required : RequiredInputField.XmlOk x.required
  source : ∀ y, x.source = some y → ResourceReference.XmlOk y
  target : ∀ y, x.target = some y → ResourceReference.XmlOk y
  properties : ∀ y, x.properties = some y → ∀ z ∈ y, Property.XmlOk z

/-- `RequiredOutputField`s that JSON keeps. -/
def RequiredOutputField.JsonOk : RequiredOutputField → Prop
  | .resource y => ResourceReference.JsonOk y
  | .environmentVars y => True
  | .data y => True

/-- `RequiredOutputField`s that XML keeps. -/
def RequiredOutputField.XmlOk : RequiredOutputField → Prop
  | .resource x => ResourceReference.XmlOk x
  | .environmentVars x => ∀ y ∈ x, EnvironmentVar.XmlOk y
  | .data x => Attachment.XmlOk x

/-- `Output`s that JSON keeps: enumeration values are read back from their names, numbers are in
range. -/
structure Output.JsonOk (x : Output) : Prop where
  required : RequiredOutputField.JsonOk x.required
  type : ∀ y, x.type = some y → Stable OutputType.display OutputType.new y
  source : ∀ y, x.source = some y → ResourceReference.JsonOk y
  target : ∀ y, x.target = some y → ResourceReference.JsonOk y

/-- `Output`s that XML keeps: texts do not begin or end with white space, enumeration values are
read back from their names, numbers are in range, lists of repeated elements are not empty. -/
structure Output.XmlOk (x : Output) : Prop where
  required : RequiredOutputField.XmlOk x.required
  type : ∀ y, x.type = some y → Stable OutputType.display OutputType.new y ∧ Trimmed (OutputType.display y)
  source : ∀ y, x.source = some y → ResourceReference.XmlOk y
  target : ∀ y, x.target = some y → ResourceReference.XmlOk y
  properties : ∀ y, x.properties = some y → ∀ z ∈ y, Property.XmlOk z

/-- `Command`s that XML keeps: texts do not begin or end with white space, enumeration values are
read back from their names, numbers are in range, lists of repeated elements are not empty. -/
structure Command.XmlOk (x : Command) : Prop where
  executed : ∀ y, x.executed = some y → Trimmed y
  properties : ∀ y, x.properties = some y → ∀ z ∈ y, Property.XmlOk z

/-- `Step`s that XML keeps: texts do not begin or end with white space, enumeration values are
read back from their names, numbers are in range, lists of repeated elements are not empty. -/
structure Step.XmlOk (x : Step) : Prop where
  commands : ∀ y, x.commands = some y → ∀ z ∈ y, Command.XmlOk z
  description : ∀ y, x.description = some y → Trimmed y
  name : ∀ y, x.name = some y → Trimmed y
  properties : ∀ y, x.properties = some y → ∀ z ∈ y, Property.XmlOk z

/-- `TriggerEvent`s that JSON keeps: enumeration values are read back from their names, numbers are in
range. -/
structure TriggerEvent.JsonOk (x : TriggerEvent) : Prop where
  source : ∀ y, x.source = some y → ResourceReference.JsonOk y
  target : ∀ y, x.target = some y → ResourceReference.JsonOk y

/-- `TriggerEvent`s that XML keeps: texts do not begin or end with white space, enumeration values are
read back from their names, numbers are in range, lists of repeated elements are not empty. -/
structure TriggerEvent.XmlOk (x : TriggerEvent) : Prop where
  uid : ∀ y, x.uid = some y → Trimmed y
  description : ∀ y, x.description = some y → Trimmed y
  timeReceived : ∀ y, x.timeReceived = some y → Trimmed y
  data : ∀ y, x.data = some y → Attachment.XmlOk y
  source : ∀ y, x.source = some y → ResourceReference.XmlOk y
  target : ∀ y, x.target = some y → ResourceReference.XmlOk y
  properties : ∀ y, x.properties = some y → ∀ z ∈ y, Property.XmlOk z

/-- `Condition`s that XML keeps: texts do not begin or end with white space, enumeration values are
read back from their names, numbers are in range, lists of repeated elements are not empty. -/
structure Condition.XmlOk (x : Condition) : Prop where
  description : ∀ y, x.description = some y → Trimmed y
  expression : ∀ y, x.expression = some y → Trimmed y
  properties : ∀ y, x.properties = some y → ∀ z ∈ y, Property.XmlOk z

/-- `Trigger`s that JSON keeps: enumeration values are read back from their names, numbers are in
range. -/
structure Trigger.JsonOk (x : Trigger) : Prop where
  resourceReferences : ∀ y, x.resourceReferences = some y → ∀ z ∈ y, ResourceReference.JsonOk z
  type : Stable TriggerType.display TriggerType.new x.type
  event : ∀ y, x.event = some y → TriggerEvent.JsonOk y
  inputs : ∀ y, x.inputs = some y → ∀ z ∈ y, Input.JsonOk z
  outputs : ∀ y, x.outputs = some y → ∀ z ∈ y, Output.JsonOk z

/-- `Trigger`s that XML keeps: texts do not begin or end with white space, enumeration values are
read back from their names, numbers are in range, lists of repeated elements are not empty. -/
structure Trigger.XmlOk (x : Trigger) : Prop where
  uid : Trimmed x.uid
  name : ∀ y, x.name = some y → Trimmed y
  description : ∀ y, x.description = some y → Trimmed y
  resourceReferences : ∀ y, x.resourceReferences = some y → ∀ z ∈ y, ResourceReference.XmlOk z
  type : Stable TriggerType.display TriggerType.new x.type ∧ Trimmed (TriggerType.display x.type)
  event : ∀ y, x.event = some y → TriggerEvent.XmlOk y
  conditions : ∀ y, x.conditions = some y → ∀ z ∈ y, Condition.XmlOk z
  timeActivated : ∀ y, x.timeActivated = some y → Trimmed y
  inputs : ∀ y, x.inputs = some y → ∀ z ∈ y, Input.XmlOk z
  outputs : ∀ y, x.outputs = some y → ∀ z ∈ y, Output.XmlOk z
  properties : ∀ y, x.properties = some y → ∀ z ∈ y, Property.XmlOk z

/-- `Volume`s that JSON keeps: enumeration values are read back from their names, numbers are in
range. -/
structure Volume.JsonOk (x : Volume) : Prop where
  mode : Stable VolumeMode.display VolumeMode.new x.mode

/-- `Volume`s that XML keeps: texts do not begin or end with white space, enumeration values are
read back from their names, numbers are in range, lists of repeated elements are not empty. -/
structure Volume.XmlOk (x : Volume) : Prop where
  uid : ∀ y, x.uid = some y → Trimmed y
  name : ∀ y, x.name = some y → Trimmed y
  mode : Stable VolumeMode.display VolumeMode.new x.mode ∧ Trimmed (VolumeMode.display x.mode)
  path : ∀ y, x.path = some y → Trimmed y
  sizeAllocated : ∀ y, x.sizeAllocated = some y → Trimmed y
  properties : ∀ y, x.properties = some y → ∀ z ∈ y, Property.XmlOk z

/-- `Workspace`s that JSON keeps: enumeration values are read back from their names, numbers are in
range. -/
structure Workspace.JsonOk (x : Workspace) : Prop where
  resourceReferences : ∀ y, x.resourceReferences = some y → ∀ z ∈ y, ResourceReference.JsonOk z
  accessMode : ∀ y, x.accessMode = some y → Stable AccessMode.display AccessMode.new y
  volume : ∀ y, x.volume = some y → Volume.JsonOk y

/-- `Workspace`s that XML keeps: texts do not begin or end with white space, enumeration values are
read back from their names, numbers are in range, lists of repeated elements are not empty. -/
structure Workspace.XmlOk (x : Workspace) : Prop where
  uid : Trimmed x.uid
  name : ∀ y, x.name = some y → Trimmed y
  aliases : ∀ y, x.aliases = some y → ∀ z ∈ y, Trimmed z
  description : ∀ y, x.description = some y → Trimmed y
  resourceReferences : ∀ y, x.resourceReferences = some y → ∀ z ∈ y, ResourceReference.XmlOk z
  accessMode : ∀ y, x.accessMode = some y → Stable AccessMode.display AccessMode.new y ∧ Trimmed (AccessMode.display y)
  mountPath : ∀ y, x.mountPath = some y → Trimmed y
  managedDataType : ∀ y, x.managedDataType = some y → Trimmed y
  volumeRequest : ∀ y, x.volumeRequest = some y → Trimmed y
  volume : ∀ y, x.volume = some y → Volume.XmlOk y
  properties : ∀ y, x.properties = some y → ∀ z ∈ y, Property.XmlOk z

/-- `WorkflowTask`s that JSON keeps: enumeration values are read back from their names, numbers are in
range. -/
structure WorkflowTask.JsonOk (x : WorkflowTask) : Prop where
  resourceReferences : ∀ y, x.resourceReferences = some y → ∀ z ∈ y, ResourceReference.JsonOk z
  taskTypes : ∀ y ∈ x.taskTypes, Stable TaskType.display TaskType.new y
  trigger : ∀ y, x.trigger = some y → Trigger.JsonOk y
  inputs : ∀ y, x.inputs = some y → ∀ z ∈ y, Input.JsonOk z
  outputs : ∀ y, x.outputs = some y → ∀ z ∈ y, Output.JsonOk z
  workspaces : ∀ y, x.workspaces = some y → ∀ z ∈ y, Workspace.JsonOk z

/-- `WorkflowTask`s that XML keeps: texts do not begin or end with white space, enumeration values are
read back from their names, numbers are in range, lists of repeated elements are not empty. -/
structure WorkflowTask.XmlOk (x : WorkflowTask) : Prop where
  taskTypes : False
  uid : Trimmed x.uid
  name : ∀ y, x.name = some y → Trimmed y
  description : ∀ y, x.description = some y → Trimmed y
  resourceReferences : ∀ y, x.resourceReferences = some y → ∀ z ∈ y, ResourceReference.XmlOk z
  trigger : ∀ y, x.trigger = some y → Trigger.XmlOk y
  steps : ∀ y, x.steps = some y → ∀ z ∈ y, Step.XmlOk z
  inputs : ∀ y, x.inputs = some y → ∀ z ∈ y, Input.XmlOk z
  outputs : ∀ y, x.outputs = some y → ∀ z ∈ y, Output.XmlOk z
  timeStart : ∀ y, x.timeStart = some y → Trimmed y
  timeEnd : ∀ y, x.timeEnd = some y → Trimmed y
  workspaces : ∀ y, x.workspaces = some y → ∀ z ∈ y, Workspace.XmlOk z
  properties : ∀ y, x.properties = some y → ∀ z ∈ y, Property.XmlOk z

/-- `Workflow`s that JSON keeps: enumeration values are read back from their names, numbers are in
range. -/
structure Workflow.JsonOk (x : Workflow) : Prop where
  resourceReferences : ∀ y, x.resourceReferences = some y → ∀ z ∈ y, ResourceReference.JsonOk z
  tasks : ∀ y, x.tasks = some y → ∀ z ∈ y, WorkflowTask.JsonOk z
  taskTypes : ∀ y ∈ x.taskTypes, Stable TaskType.display TaskType.new y
  trigger : ∀ y, x.trigger = some y → Trigger.JsonOk y
  inputs : ∀ y, x.inputs = some y → ∀ z ∈ y, Input.JsonOk z
  outputs : ∀ y, x.outputs = some y → ∀ z ∈ y, Output.JsonOk z
  workspaces : ∀ y, x.workspaces = some y → ∀ z ∈ y, Workspace.JsonOk z

/-- `Workflow`s that XML keeps: texts do not begin or end with white space, enumeration values are
read back from their names, numbers are in range, lists of repeated elements are not empty. -/
structure Workflow.XmlOk (x : Workflow) : Prop where
  uid : Trimmed x.uid
  name : ∀ y, x.name = some y → Trimmed y
  description : ∀ y, x.description = some y → Trimmed y
  resourceReferences : ∀ y, x.resourceReferences = some y → ∀ z ∈ y, ResourceReference.XmlOk z
  tasks : ∀ y, x.tasks = some y → ∀ z ∈ y, WorkflowTask.XmlOk z
  taskTypes : ∀ y ∈ x.taskTypes, Stable TaskType.display TaskType.new y ∧ Trimmed (TaskType.display y)
  trigger : ∀ y, x.trigger = some y → Trigger.XmlOk y
  steps : ∀ y, x.steps = some y → ∀ z ∈ y, Step.XmlOk z
  inputs : ∀ y, x.inputs = some y → ∀ z ∈ y, Input.XmlOk z
  outputs : ∀ y, x.outputs = some y → ∀ z ∈ y, Output.XmlOk z
  timeStart : ∀ y, x.timeStart = some y → Trimmed y
  timeEnd : ∀ y, x.timeEnd = some y → Trimmed y
  workspaces : ∀ y, x.workspaces = some y → ∀ z ∈ y, Workspace.XmlOk z
  properties : ∀ y, x.properties = some y → ∀ z ∈ y, Property.XmlOk z

/-- What version `v` of the format has of a `Formula`. -/
def Formula.at (v : SpecVersion) (x : Formula) : Formula :=
  { x with components := x.components.map (List.map (Component.at v)),
           services := x.services.map (List.map (Service.at v)) }

/-- `Formula`s that JSON keeps: enumeration values are read back from their names, numbers are in
range. -/
structure Formula.JsonOk (v : SpecVersion) (x : Formula) : Prop where
  components : ∀ y, x.components = some y → ∀ z ∈ y, Component.JsonOk v z
  services : ∀ y, x.services = some y → ∀ z ∈ y, Service.JsonOk v z
  workflows : ∀ y, x.workflows = some y → ∀ z ∈ y, Workflow.JsonOk z

/-- `Formula`s that XML keeps: texts do not begin or end with white space, enumeration values are
read back from their names, numbers are in range, lists of repeated elements are not empty. -/
structure Formula.XmlOk (v : SpecVersion) (x : Formula) : Prop where
  components : ∀ y, x.components = some y → ∀ z ∈ y, Component.XmlOk v z
  services : ∀ y, x.services = some y → ∀ z ∈ y, Service.XmlOk v z
  workflows : ∀ y, x.workflows = some y → ∀ z ∈ y, Workflow.XmlOk z
  properties : ∀ y, x.properties = some y → ∀ z ∈ y, Property.XmlOk z

end Cdx
