import Verif.Model.Format.Parts

set_option linter.unusedVariables false

/-!
# File formats: data, model cards, lifecycles
-/

namespace Cdx

/-- `DataGovernanceResponsibleParty` as JSON (`specs/v1_5/data_governance.rs` 166-169, conversion 171-184). -/
def DataGovernanceResponsibleParty.toJson : DataGovernanceResponsibleParty → Json
  | .organization y => .obj [("Organization", OrganizationalEntity.toJson y)]
  | .contact y => .obj [("Contact", OrganizationalContact.toJson y)]

/-- `DataGovernanceResponsibleParty` from JSON (`specs/v1_5/data_governance.rs` 166-169, conversion 186-197). -/
def DataGovernanceResponsibleParty.ofJson : Json → Except String DataGovernanceResponsibleParty :=
  Json.tagged
  [("Organization", fun j => (OrganizationalEntity.ofJson j).map .organization),
   ("Contact", fun j => (OrganizationalContact.ofJson j).map .contact)]

/-- The content of a `DataGovernanceResponsibleParty` as XML (`specs/v1_5/data_governance.rs` 82-84, 92-94, 102-104, 202-218). -/
def DataGovernanceResponsibleParty.writeInner : DataGovernanceResponsibleParty → List WEvent
  | .organization y => (OrganizationalEntity.writeXml "organization") y
  | .contact y => (OrganizationalContact.writeXml "contact") y

/-- `DataGovernanceResponsibleParty` as XML (`specs/v1_5/data_governance.rs` 82-84, 92-94, 102-104, 202-218). -/
def DataGovernanceResponsibleParty.writeXml (tag : String) (x : DataGovernanceResponsibleParty) : List WEvent :=
  writeElem tag [] (DataGovernanceResponsibleParty.writeInner x)

/-- The tags that the reader of `DataGovernanceResponsibleParty` knows (`specs/v1_5/data_governance.rs` 220-269). -/
def DataGovernanceResponsibleParty.arms : List (String × Arm (Option DataGovernanceResponsibleParty)) :=
  [("organization", arm OrganizationalEntity.readXml fun y _ => some (.organization y)),
   ("contact", arm OrganizationalContact.readXml fun y _ => some (.contact y))]

/-- `DataGovernanceResponsibleParty` from XML (`specs/v1_5/data_governance.rs` 220-269). -/
def DataGovernanceResponsibleParty.readXml : XElem DataGovernanceResponsibleParty :=
  readStruct .fail (fun _ _ => .ok ()) none DataGovernanceResponsibleParty.arms fun el _ x => required "organization or contact" el x

/-- `DataGovernance` as JSON (`specs/v1_5/data_governance.rs` 35-42, conversion 44-52). -/
def DataGovernance.toJson (x : DataGovernance) : Json :=
  .mk [("custodians", x.custodians.map (Json.ofList DataGovernanceResponsibleParty.toJson)),
    ("stewards", x.stewards.map (Json.ofList DataGovernanceResponsibleParty.toJson)),
    ("owners", x.owners.map (Json.ofList DataGovernanceResponsibleParty.toJson))]

/-- `DataGovernance` from JSON (`specs/v1_5/data_governance.rs` 35-42, conversion 54-62). -/
def DataGovernance.ofJson (j : Json) : Except String DataGovernance := do
  let o ← j.fields
  let custodians' ← Json.opt o "custodians" (Json.array DataGovernanceResponsibleParty.ofJson)
  let stewards' ← Json.opt o "stewards" (Json.array DataGovernanceResponsibleParty.ofJson)
  let owners' ← Json.opt o "owners" (Json.array DataGovernanceResponsibleParty.ofJson)
  .ok { custodians := custodians',
        stewards := stewards',
        owners := owners' }

/-- `DataGovernance` as XML (`specs/v1_5/data_governance.rs` 71-113). -/
def DataGovernance.writeXml (tag : String) (x : DataGovernance) : List WEvent :=
  writeElem tag [] (
    (writeOpt (writeList "owners" (DataGovernanceResponsibleParty.writeXml "owner")) x.owners) ++
    ((writeOpt (writeList "custodians" (DataGovernanceResponsibleParty.writeXml "custodian")) x.custodians) ++
    ((writeOpt (writeList "stewards" (DataGovernanceResponsibleParty.writeXml "steward")) x.stewards))))

/-- The local variables of the reader of `DataGovernance` (`specs/v1_5/data_governance.rs` 115-163). -/
structure DataGovernance.Vars where
  owners : Option (List DataGovernanceResponsibleParty) := none
  custodians : Option (List DataGovernanceResponsibleParty) := none
  stewards : Option (List DataGovernanceResponsibleParty) := none

/-- The tags that the reader of `DataGovernance` knows (`specs/v1_5/data_governance.rs` 115-163). -/
def DataGovernance.arms : List (String × Arm DataGovernance.Vars) :=
  [("owners", arm (readList "owner" DataGovernanceResponsibleParty.readXml) fun y s => { s with owners := some y }),
   ("custodians", arm (readList "custodian" DataGovernanceResponsibleParty.readXml) fun y s => { s with custodians := some y }),
   ("stewards", arm (readList "steward" DataGovernanceResponsibleParty.readXml) fun y s => { s with stewards := some y })]

/-- `DataGovernance` from XML (`specs/v1_5/data_governance.rs` 115-163). -/
def DataGovernance.readXml : XElem DataGovernance :=
  readStruct .ignore (fun _ _ => .ok ())
    ({} : DataGovernance.Vars) DataGovernance.arms (fun _ _ vars =>
      .ok { owners := vars.owners,
            custodians := vars.custodians,
            stewards := vars.stewards })

/-- `Attachment` as JSON (`specs/v1_5/attachment.rs` 38-45, conversion 47-55). -/
def Attachment.toJson (x : Attachment) : Json :=
  .mk [("content", some (Json.str x.content)),
    ("contentType", x.contentType.map Json.str),
    ("encoding", x.encoding.map Json.str)]

/-- `Attachment` from JSON (`specs/v1_5/attachment.rs` 38-45, conversion 57-65). -/
def Attachment.ofJson (j : Json) : Except String Attachment := do
  let o ← j.fields
  let content' ← Json.req o "content" Json.string
  let contentType' ← Json.opt o "contentType" Json.string
  let encoding' ← Json.opt o "encoding" Json.string
  .ok { content := content',
        contentType := contentType',
        encoding := encoding' }

/-- `Attachment` as XML (`specs/v1_5/attachment.rs` 70-93): the content type is written as a second
attribute `encoding`. -/
def Attachment.writeXml (tag : String) (x : Attachment) : List WEvent :=
  writeElem tag (mkAttrs [("encoding", x.encoding), ("encoding", x.contentType)]) [.chars x.content]

/-- The loop in the reader of `Attachment` (`specs/v1_5/attachment.rs` 108-125): the last text before
the end tag, while everything else is dropped. -/
def Attachment.lastText (el : XName) : Option String → XRead (Option String)
  | _, [] => .error .eof
  | _, .chars s :: l => Attachment.lastText el (some s) l
  | st, .stop n :: l => if n = el then .ok (st, l) else Attachment.lastText el st l
  | st, _ :: l => Attachment.lastText el st l

/-- The text of an `Attachment` (`specs/v1_5/attachment.rs` 106-130). -/
def Attachment.readContent : XElem String := fun el _ evs => do
  let (o, l) ← Attachment.lastText el none evs
  let s ← required "inner characters" el o
  .ok (s, l)

/-- `Attachment` from XML (`specs/v1_5/attachment.rs` 95-138). -/
def Attachment.readXml : XElem Attachment :=
  readWith (fun _ attrs => .ok (optAttr attrs "content-type", optAttr attrs "encoding"))
    Attachment.readContent
    fun (a0, a1) s => { content := s, contentType := a0, encoding := a1 }

/-- `Graphic` as JSON (`specs/v1_5/component_data.rs` 581-586, conversion 588-595). -/
def Graphic.toJson (x : Graphic) : Json :=
  .mk [("name", x.name.map Json.str),
    ("image", x.image.map Attachment.toJson)]

/-- `Graphic` from JSON (`specs/v1_5/component_data.rs` 581-586, conversion 597-604). -/
def Graphic.ofJson (j : Json) : Except String Graphic := do
  let o ← j.fields
  let name' ← Json.opt o "name" Json.string
  let image' ← Json.opt o "image" Attachment.ofJson
  .ok { name := name',
        image := image' }

/-- `Graphic` as XML (`specs/v1_5/component_data.rs` 608-627). -/
def Graphic.writeXml (x : Graphic) : List WEvent :=
  writeElem "graphic" [] (
    (writeOpt (writeSimple "name") x.name) ++
    ((writeOpt (Attachment.writeXml "image") x.image)))

/-- The local variables of the reader of `Graphic` (`specs/v1_5/component_data.rs` 629-673). -/
structure Graphic.Vars where
  name : Option String := none
  image : Option Attachment := none

/-- The tags that the reader of `Graphic` knows (`specs/v1_5/component_data.rs` 629-673). -/
def Graphic.arms : List (String × Arm Graphic.Vars) :=
  [("name", arm readSimple fun y s => { s with name := some y }),
   ("image", arm Attachment.readXml fun y s => { s with image := some y })]

/-- `Graphic` from XML (`specs/v1_5/component_data.rs` 629-673). -/
def Graphic.readXml : XElem Graphic :=
  readStruct .ignore (fun _ _ => .ok ())
    ({} : Graphic.Vars) Graphic.arms (fun _ _ vars =>
      .ok { name := vars.name,
            image := vars.image })

/-- `GraphicsCollection` as JSON (`specs/v1_5/component_data.rs` 406-411, 507, conversion 413-420, 515-519). -/
def GraphicsCollection.toJson (x : GraphicsCollection) : Json :=
  .mk [("description", x.description.map Json.str),
    ("collection", x.collection.map (Json.ofList Graphic.toJson))]

/-- `GraphicsCollection` from JSON (`specs/v1_5/component_data.rs` 406-411, 507, conversion 422-429, 521-525). -/
def GraphicsCollection.ofJson (j : Json) : Except String GraphicsCollection := do
  let o ← j.fields
  let description' ← Json.opt o "description" Json.string
  let collection' ← Json.opt o "collection" (Json.array Graphic.ofJson)
  .ok { description := description',
        collection := collection' }

/-- `GraphicsCollection` as XML (`specs/v1_5/component_data.rs` 434-454, 529-544). -/
def GraphicsCollection.writeXml (tag : String) (x : GraphicsCollection) : List WEvent :=
  writeElem tag [] (
    (writeOpt (writeSimple "description") x.description) ++
    ((writeOpt (writeList "collection" Graphic.writeXml) x.collection)))

/-- The local variables of the reader of `GraphicsCollection` (`specs/v1_5/component_data.rs` 458-503, 546-578). -/
structure GraphicsCollection.Vars where
  description : Option String := none
  collection : Option (List Graphic) := none

/-- The tags that the reader of `GraphicsCollection` knows (`specs/v1_5/component_data.rs` 458-503, 546-578). -/
def GraphicsCollection.arms : List (String × Arm GraphicsCollection.Vars) :=
  [("description", arm readSimple fun y s => { s with description := some y }),
   ("collection", arm (readListWith .ignore "graphic" Graphic.readXml) fun y s => { s with collection := some y })]

/-- `GraphicsCollection` from XML (`specs/v1_5/component_data.rs` 458-503, 546-578). -/
def GraphicsCollection.readXml : XElem GraphicsCollection :=
  readStruct .ignore (fun _ _ => .ok ())
    ({} : GraphicsCollection.Vars) GraphicsCollection.arms (fun _ _ vars =>
      .ok { description := vars.description,
            collection := vars.collection })

/-- `DataContents` as JSON (`specs/v1_5/component_data.rs` 283-291, conversion 293-301). -/
def DataContents.toJson (x : DataContents) : Json :=
  .mk [("attachment", x.attachment.map Attachment.toJson),
    ("url", x.url.map Json.str),
    ("properties", x.properties.map (Json.ofList Property.toJson))]

/-- `DataContents` from JSON (`specs/v1_5/component_data.rs` 283-291, conversion 303-311). -/
def DataContents.ofJson (j : Json) : Except String DataContents := do
  let o ← j.fields
  let attachment' ← Json.opt o "attachment" Attachment.ofJson
  let url' ← Json.opt o "url" Json.string
  let properties' ← Json.opt o "properties" (Json.array Property.ofJson)
  .ok { attachment := attachment',
        url := url',
        properties := properties' }

/-- `DataContents` as XML (`specs/v1_5/component_data.rs` 315-338). -/
def DataContents.writeXml (x : DataContents) : List WEvent :=
  writeElem "contents" [] (
    (writeOpt (Attachment.writeXml "attachment") x.attachment) ++
    ((writeOpt (writeSimple "url") x.url) ++
    ((writeOpt (writeList "properties" Property.writeXml) x.properties))))

/-- The local variables of the reader of `DataContents` (`specs/v1_5/component_data.rs` 343-401). -/
structure DataContents.Vars where
  attachment : Option Attachment := none
  url : Option String := none
  properties : Option (List Property) := none

/-- The tags that the reader of `DataContents` knows (`specs/v1_5/component_data.rs` 343-401). -/
def DataContents.arms : List (String × Arm DataContents.Vars) :=
  [("attachment", arm Attachment.readXml fun y s => { s with attachment := some y }),
   ("url", arm readSimple fun y s => { s with url := some y }),
   ("properties", arm (readListLax "property" Property.readXml) fun y s => { s with properties := some y })]

/-- `DataContents` from XML (`specs/v1_5/component_data.rs` 343-401). -/
def DataContents.readXml : XElem DataContents :=
  readStruct .ignore (fun _ _ => .ok ())
    ({} : DataContents.Vars) DataContents.arms (fun _ _ vars =>
      .ok { attachment := vars.attachment,
            url := vars.url,
            properties := vars.properties })

/-- `ComponentData` as JSON (`specs/v1_5/component_data.rs` 47-69, conversion 71-85). -/
def ComponentData.toJson (x : ComponentData) : Json :=
  .mk [("bomRef", x.bomRef.map Json.str),
    ("type", some ((Json.ofEnum ComponentDataType.display) x.dataType)),
    ("name", x.name.map Json.str),
    ("contents", x.contents.map DataContents.toJson),
    ("classification", x.classification.map Json.str),
    ("sensitiveData", x.sensitiveData.map Json.str),
    ("graphics", x.graphics.map GraphicsCollection.toJson),
    ("description", x.description.map Json.str),
    ("governance", x.governance.map DataGovernance.toJson)]

/-- `ComponentData` from JSON (`specs/v1_5/component_data.rs` 47-69, conversion 87-101). -/
def ComponentData.ofJson (j : Json) : Except String ComponentData := do
  let o ← j.fields
  let bomRef' ← Json.opt o "bomRef" Json.string
  let dataType' ← Json.req o "type" (Json.enum ComponentDataType.new)
  let name' ← Json.opt o "name" Json.string
  let contents' ← Json.opt o "contents" DataContents.ofJson
  let classification' ← Json.opt o "classification" Json.string
  let sensitiveData' ← Json.opt o "sensitiveData" Json.string
  let graphics' ← Json.opt o "graphics" GraphicsCollection.ofJson
  let description' ← Json.opt o "description" Json.string
  let governance' ← Json.opt o "governance" DataGovernance.ofJson
  .ok { bomRef := bomRef',
        dataType := dataType',
        name := name',
        contents := contents',
        classification := classification',
        sensitiveData := sensitiveData',
        graphics := graphics',
        description := description',
        governance := governance' }

/-- `ComponentData` as XML (`specs/v1_5/component_data.rs` 111-169). -/
def ComponentData.writeXml (tag : String) (x : ComponentData) : List WEvent :=
  writeElem tag (mkAttrs [("bom-ref", x.bomRef)]) (
    ((fun e => writeSimple "type" (ComponentDataType.display e)) x.dataType) ++
    ((writeOpt (writeSimple "name") x.name) ++
    ((writeOpt DataContents.writeXml x.contents) ++
    ((writeOpt (writeSimple "classification") x.classification) ++
    ((writeOpt (writeSimple "sensitiveData") x.sensitiveData) ++
    ((writeOpt (GraphicsCollection.writeXml "graphics") x.graphics) ++
    ((writeOpt (writeSimple "description") x.description) ++
    ((writeOpt (DataGovernance.writeXml "governance") x.governance)))))))))

/-- The local variables of the reader of `ComponentData` (`specs/v1_5/component_data.rs` 173-280). -/
structure ComponentData.Vars where
  dataType : Option ComponentDataType := none
  name : Option String := none
  contents : Option DataContents := none
  classification : Option String := none
  sensitiveData : Option String := none
  graphics : Option GraphicsCollection := none
  description : Option String := none
  governance : Option DataGovernance := none

/-- The tags that the reader of `ComponentData` knows (`specs/v1_5/component_data.rs` 173-280). -/
def ComponentData.arms : List (String × Arm ComponentData.Vars) :=
  [("type", arm (readSimple.map ComponentDataType.new) fun y s => { s with dataType := some y }),
   ("name", arm readSimple fun y s => { s with name := some y }),
   ("contents", arm DataContents.readXml fun y s => { s with contents := some y }),
   ("classification", arm readSimple fun y s => { s with classification := some y }),
   ("sensitiveData", arm readSimple fun y s => { s with sensitiveData := some y }),
   ("graphics", arm GraphicsCollection.readXml fun y s => { s with graphics := some y }),
   ("description", arm readSimple fun y s => { s with description := some y }),
   ("governance", arm DataGovernance.readXml fun y s => { s with governance := some y })]

/-- `ComponentData` from XML (`specs/v1_5/component_data.rs` 173-280). -/
def ComponentData.readXml : XElem ComponentData :=
  readStruct .ignore (fun el attrs => do
      .ok (optAttr attrs "bom-ref"))
    ({} : ComponentData.Vars) ComponentData.arms (fun el a0 vars => do
      let dataType' ← required "type" el vars.dataType
      .ok { bomRef := a0,
            dataType := dataType',
            name := vars.name,
            contents := vars.contents,
            classification := vars.classification,
            sensitiveData := vars.sensitiveData,
            graphics := vars.graphics,
            description := vars.description,
            governance := vars.governance })

/-- `ModelParametersApproach` as JSON (`specs/v1_5/modelcard.rs` 367-371, conversion 373-379). -/
def ModelParametersApproach.toJson (x : ModelParametersApproach) : Json :=
  .mk [("type", x.approachType.map (Json.ofEnum ApproachType.display))]

/-- `ModelParametersApproach` from JSON (`specs/v1_5/modelcard.rs` 367-371, conversion 381-389). -/
def ModelParametersApproach.ofJson (j : Json) : Except String ModelParametersApproach := do
  let o ← j.fields
  let approachType' ← Json.opt o "type" (Json.enum ApproachType.new)
  .ok { approachType := approachType' }

/-- `ModelParametersApproach` as XML (`specs/v1_5/modelcard.rs` 393-407). -/
def ModelParametersApproach.writeXml (x : ModelParametersApproach) : List WEvent :=
  writeElem "approach" [] (
    (writeOpt (fun e => writeSimple "type" (ApproachType.display e)) x.approachType))

/-- The local variables of the reader of `ModelParametersApproach` (`specs/v1_5/modelcard.rs` 409-441). -/
structure ModelParametersApproach.Vars where
  approachType : Option ApproachType := none

/-- The tags that the reader of `ModelParametersApproach` knows (`specs/v1_5/modelcard.rs` 409-441). -/
def ModelParametersApproach.arms : List (String × Arm ModelParametersApproach.Vars) :=
  [("type", arm (readSimple.map ApproachType.new) fun y s => { s with approachType := some y })]

/-- `ModelParametersApproach` from XML (`specs/v1_5/modelcard.rs` 409-441). -/
def ModelParametersApproach.readXml : XElem ModelParametersApproach :=
  readStruct .ignore (fun _ _ => .ok ())
    ({} : ModelParametersApproach.Vars) ModelParametersApproach.arms (fun _ _ vars =>
      .ok { approachType := vars.approachType })

/-- `Dataset` as JSON (`specs/v1_5/modelcard.rs` 514-518, conversion 520-527). -/
def Dataset.toJson : Dataset → Json
  | .component y => ComponentData.toJson y
  | .reference r => .str r

/-- `Dataset` from JSON (`specs/v1_5/modelcard.rs` 514-518, conversion 529-538): the first variant
that can be read. -/
def Dataset.ofJson (j : Json) : Except String Dataset :=
  match ComponentData.ofJson j with
  | .ok y => .ok (.component y)
  | .error _ => j.string.map .reference

/-- `Dataset` as XML (`specs/v1_5/modelcard.rs` 545-563). -/
def Dataset.writeXml : Dataset → List WEvent
  | .component y => ComponentData.writeXml "dataset" y
  | .reference r => writeElem "dataset" [] (writeSimple "ref" r)

/-- `Dataset` from XML (`specs/v1_5/modelcard.rs` 565-582): always a component. -/
def Dataset.readXml : XElem Dataset := ComponentData.readXml.map .component

/-- `MLParameter` as JSON (`specs/v1_5/modelcard.rs` 1165-1168, conversion 1179-1185). -/
def MLParameter.toJson (x : MLParameter) : Json :=
  .mk [("format", x.format.map Json.str)]

/-- `MLParameter` from JSON (`specs/v1_5/modelcard.rs` 1165-1168, conversion 1187-1193). -/
def MLParameter.ofJson (j : Json) : Except String MLParameter := do
  let o ← j.fields
  let format' ← Json.opt o "format" Json.string
  .ok { format := format' }

/-- `MLParameter` as XML (`specs/v1_5/modelcard.rs` 1043-1045, 1115-1117, 1195-1206). -/
def MLParameter.writeXml (tag : String) (x : MLParameter) : List WEvent :=
  writeElem tag [] (
    (writeOpt (writeSimple "format") x.format))

/-- The local variables of the reader of `MLParameter` (`specs/v1_5/modelcard.rs` 1208-1237). -/
structure MLParameter.Vars where
  format : Option String := none

/-- The tags that the reader of `MLParameter` knows (`specs/v1_5/modelcard.rs` 1208-1237). -/
def MLParameter.arms : List (String × Arm MLParameter.Vars) :=
  [("format", arm readSimple fun y s => { s with format := some y })]

/-- `MLParameter` from XML (`specs/v1_5/modelcard.rs` 1208-1237). -/
def MLParameter.readXml : XElem MLParameter :=
  readStruct .ignore (fun _ _ => .ok ())
    ({} : MLParameter.Vars) MLParameter.arms (fun _ _ vars =>
      .ok { format := vars.format })

/-- `ModelParameters` as JSON (`specs/v1_5/modelcard.rs` 177-193, 444-445, 1021, 1093, conversion 195-207). -/
def ModelParameters.toJson (x : ModelParameters) : Json :=
  .mk [("approach", x.approach.map ModelParametersApproach.toJson),
    ("task", x.task.map Json.str),
    ("architectureFamily", x.architectureFamily.map Json.str),
    ("modelArchitecture", x.modelArchitecture.map Json.str),
    ("datasets", x.datasets.map (Json.ofList Dataset.toJson)),
    ("inputs", x.inputs.map (Json.ofList MLParameter.toJson)),
    ("outputs", x.outputs.map (Json.ofList MLParameter.toJson))]

/-- `ModelParameters` from JSON (`specs/v1_5/modelcard.rs` 177-193, 444-445, 1021, 1093, conversion 209-221). -/
def ModelParameters.ofJson (j : Json) : Except String ModelParameters := do
  let o ← j.fields
  let approach' ← Json.opt o "approach" ModelParametersApproach.ofJson
  let task' ← Json.opt o "task" Json.string
  let architectureFamily' ← Json.opt o "architectureFamily" Json.string
  let modelArchitecture' ← Json.opt o "modelArchitecture" Json.string
  let datasets' ← Json.opt o "datasets" (Json.array Dataset.ofJson)
  let inputs' ← Json.opt o "inputs" (Json.array MLParameter.ofJson)
  let outputs' ← Json.opt o "outputs" (Json.array MLParameter.ofJson)
  .ok { approach := approach',
        task := task',
        architectureFamily := architectureFamily',
        modelArchitecture := modelArchitecture',
        datasets := datasets',
        inputs := inputs',
        outputs := outputs' }

/-- `ModelParameters` as XML (`specs/v1_5/modelcard.rs` 233-272, 459-474, 1035-1052, 1107-1124). -/
def ModelParameters.writeXml (x : ModelParameters) : List WEvent :=
  writeElem "modelParameters" [] (
    (writeOpt ModelParametersApproach.writeXml x.approach) ++
    ((writeOpt (writeSimple "task") x.task) ++
    ((writeOpt (writeSimple "architectureFamily") x.architectureFamily) ++
    ((writeOpt (writeSimple "modelArchitecture") x.modelArchitecture) ++
    ((writeOpt (writeList "datasets" Dataset.writeXml) x.datasets) ++
    ((writeOpt (writeList "inputs" (MLParameter.writeXml "input")) x.inputs) ++
    ((writeOpt (writeList "outputs" (MLParameter.writeXml "output")) x.outputs))))))))

/-- The local variables of the reader of `ModelParameters` (`specs/v1_5/modelcard.rs` 274-364, 476-510, 1054-1090, 1126-1162). -/
structure ModelParameters.Vars where
  approach : Option ModelParametersApproach := none
  task : Option String := none
  architectureFamily : Option String := none
  modelArchitecture : Option String := none
  datasets : Option (List Dataset) := none
  inputs : Option (List MLParameter) := none
  outputs : Option (List MLParameter) := none

/-- The tags that the reader of `ModelParameters` knows (`specs/v1_5/modelcard.rs` 274-364, 476-510, 1054-1090, 1126-1162). -/
def ModelParameters.arms : List (String × Arm ModelParameters.Vars) :=
  [("approach", arm ModelParametersApproach.readXml fun y s => { s with approach := some y }),
   ("task", arm readSimple fun y s => { s with task := some y }),
   ("architectureFamily", arm readSimple fun y s => { s with architectureFamily := some y }),
   ("modelArchitecture", arm readSimple fun y s => { s with modelArchitecture := some y }),
   ("datasets", arm (readList "dataset" Dataset.readXml) fun y s => { s with datasets := some y }),
   ("inputs", arm (readListWith .ignore "input" MLParameter.readXml) fun y s => { s with inputs := some y }),
   ("outputs", arm (readListWith .ignore "output" MLParameter.readXml) fun y s => { s with outputs := some y })]

/-- `ModelParameters` from XML (`specs/v1_5/modelcard.rs` 274-364, 476-510, 1054-1090, 1126-1162). -/
def ModelParameters.readXml : XElem ModelParameters :=
  readStruct .ignore (fun _ _ => .ok ())
    ({} : ModelParameters.Vars) ModelParameters.arms (fun _ _ vars =>
      .ok { approach := vars.approach,
            task := vars.task,
            architectureFamily := vars.architectureFamily,
            modelArchitecture := vars.modelArchitecture,
            datasets := vars.datasets,
            inputs := vars.inputs,
            outputs := vars.outputs })

/-- `ConfidenceInterval` as JSON (`specs/v1_5/modelcard.rs` 891-897, conversion 908-915). -/
def ConfidenceInterval.toJson (x : ConfidenceInterval) : Json :=
  .mk [("lowerBound", x.lowerBound.map Json.str),
    ("upperBound", x.upperBound.map Json.str)]

/-- `ConfidenceInterval` from JSON (`specs/v1_5/modelcard.rs` 891-897, conversion 899-906). -/
def ConfidenceInterval.ofJson (j : Json) : Except String ConfidenceInterval := do
  let o ← j.fields
  let lowerBound' ← Json.opt o "lowerBound" Json.string
  let upperBound' ← Json.opt o "upperBound" Json.string
  .ok { lowerBound := lowerBound',
        upperBound := upperBound' }

/-- `ConfidenceInterval` as XML (`specs/v1_5/modelcard.rs` 920-939). -/
def ConfidenceInterval.writeXml (x : ConfidenceInterval) : List WEvent :=
  writeElem "confidenceInterval" [] (
    (writeOpt (writeSimple "lowerBound") x.lowerBound) ++
    ((writeOpt (writeSimple "upperBound") x.upperBound)))

/-- The local variables of the reader of `ConfidenceInterval` (`specs/v1_5/modelcard.rs` 941-985). -/
structure ConfidenceInterval.Vars where
  lowerBound : Option String := none
  upperBound : Option String := none

/-- The tags that the reader of `ConfidenceInterval` knows (`specs/v1_5/modelcard.rs` 941-985). -/
def ConfidenceInterval.arms : List (String × Arm ConfidenceInterval.Vars) :=
  [("lowerBound", arm readSimple fun y s => { s with lowerBound := some y }),
   ("upperBound", arm readSimple fun y s => { s with upperBound := some y })]

/-- `ConfidenceInterval` from XML (`specs/v1_5/modelcard.rs` 941-985). -/
def ConfidenceInterval.readXml : XElem ConfidenceInterval :=
  readStruct .ignore (fun _ _ => .ok ())
    ({} : ConfidenceInterval.Vars) ConfidenceInterval.arms (fun _ _ vars =>
      .ok { lowerBound := vars.lowerBound,
            upperBound := vars.upperBound })

/-- `PerformanceMetric` as JSON (`specs/v1_5/modelcard.rs` 764-773, conversion 786-795). -/
def PerformanceMetric.toJson (x : PerformanceMetric) : Json :=
  .mk [("type", x.metricType.map Json.str),
    ("value", x.value.map Json.str),
    ("slice", x.slice.map Json.str),
    ("confidence_interval", x.confidenceInterval.map ConfidenceInterval.toJson)]

/-- `PerformanceMetric` from JSON (`specs/v1_5/modelcard.rs` 764-773, conversion 775-784). -/
def PerformanceMetric.ofJson (j : Json) : Except String PerformanceMetric := do
  let o ← j.fields
  let metricType' ← Json.opt o "type" Json.string
  let value' ← Json.opt o "value" Json.string
  let slice' ← Json.opt o "slice" Json.string
  let confidenceInterval' ← Json.opt o "confidence_interval" ConfidenceInterval.ofJson
  .ok { metricType := metricType',
        value := value',
        slice := slice',
        confidenceInterval := confidenceInterval' }

/-- `PerformanceMetric` as XML (`specs/v1_5/modelcard.rs` 801-828). -/
def PerformanceMetric.writeXml (x : PerformanceMetric) : List WEvent :=
  writeElem "performanceMetric" [] (
    (writeOpt (writeSimple "type") x.metricType) ++
    ((writeOpt (writeSimple "value") x.value) ++
    ((writeOpt (writeSimple "slice") x.slice) ++
    ((writeOpt ConfidenceInterval.writeXml x.confidenceInterval)))))

/-- The local variables of the reader of `PerformanceMetric` (`specs/v1_5/modelcard.rs` 830-888). -/
structure PerformanceMetric.Vars where
  metricType : Option String := none
  value : Option String := none
  slice : Option String := none
  confidenceInterval : Option ConfidenceInterval := none

/-- The tags that the reader of `PerformanceMetric` knows (`specs/v1_5/modelcard.rs` 830-888). -/
def PerformanceMetric.arms : List (String × Arm PerformanceMetric.Vars) :=
  [("type", arm readSimple fun y s => { s with metricType := some y }),
   ("value", arm readSimple fun y s => { s with value := some y }),
   ("slice", arm readSimple fun y s => { s with slice := some y }),
   ("confidenceInterval", arm ConfidenceInterval.readXml fun y s => { s with confidenceInterval := some y })]

/-- `PerformanceMetric` from XML (`specs/v1_5/modelcard.rs` 830-888). -/
def PerformanceMetric.readXml : XElem PerformanceMetric :=
  readStruct .ignore (fun _ _ => .ok ())
    ({} : PerformanceMetric.Vars) PerformanceMetric.arms (fun _ _ vars =>
      .ok { metricType := vars.metricType,
            value := vars.value,
            slice := vars.slice,
            confidenceInterval := vars.confidenceInterval })

/-- `QuantitativeAnalysis` as JSON (`specs/v1_5/modelcard.rs` 585-591, 691-692, conversion 593-600). -/
def QuantitativeAnalysis.toJson (x : QuantitativeAnalysis) : Json :=
  .mk [("performanceMetrics", x.performanceMetrics.map (Json.ofList PerformanceMetric.toJson)),
    ("graphics", x.graphics.map GraphicsCollection.toJson)]

/-- `QuantitativeAnalysis` from JSON (`specs/v1_5/modelcard.rs` 585-591, 691-692, conversion 602-609). -/
def QuantitativeAnalysis.ofJson (j : Json) : Except String QuantitativeAnalysis := do
  let o ← j.fields
  let performanceMetrics' ← Json.opt o "performanceMetrics" (Json.array PerformanceMetric.ofJson)
  let graphics' ← Json.opt o "graphics" GraphicsCollection.ofJson
  .ok { performanceMetrics := performanceMetrics',
        graphics := graphics' }

/-- `QuantitativeAnalysis` as XML (`specs/v1_5/modelcard.rs` 615-634, 706-721). -/
def QuantitativeAnalysis.writeXml (x : QuantitativeAnalysis) : List WEvent :=
  writeElem "quantitativeAnalysis" [] (
    (writeOpt (writeList "performanceMetrics" PerformanceMetric.writeXml) x.performanceMetrics) ++
    ((writeOpt (GraphicsCollection.writeXml "graphics") x.graphics)))

/-- The local variables of the reader of `QuantitativeAnalysis` (`specs/v1_5/modelcard.rs` 636-688, 723-761). -/
structure QuantitativeAnalysis.Vars where
  performanceMetrics : Option (List PerformanceMetric) := none
  graphics : Option GraphicsCollection := none

/-- The tags that the reader of `QuantitativeAnalysis` knows (`specs/v1_5/modelcard.rs` 636-688, 723-761). -/
def QuantitativeAnalysis.arms : List (String × Arm QuantitativeAnalysis.Vars) :=
  [("performanceMetrics", arm (readListWith .ignore "performanceMetric" PerformanceMetric.readXml) fun y s => { s with performanceMetrics := some y }),
   ("graphics", arm GraphicsCollection.readXml fun y s => { s with graphics := some y })]

/-- `QuantitativeAnalysis` from XML (`specs/v1_5/modelcard.rs` 636-688, 723-761). -/
def QuantitativeAnalysis.readXml : XElem QuantitativeAnalysis :=
  readStruct .ignore (fun _ _ => .ok ())
    ({} : QuantitativeAnalysis.Vars) QuantitativeAnalysis.arms (fun _ _ vars =>
      .ok { performanceMetrics := vars.performanceMetrics,
            graphics := vars.graphics })

/-- `Considerations` as JSON (`specs/v1_5/modelcard.rs` 988-989, conversion 991-995). -/
def Considerations.toJson (_ : Considerations) : Json := .obj []

/-- `Considerations` from JSON (`specs/v1_5/modelcard.rs` 988-989, conversion 997-1001). -/
def Considerations.ofJson (j : Json) : Except String Considerations := j.fields.map fun _ => {}

/-- `Considerations` as XML (`specs/v1_5/modelcard.rs` 1005-1018). -/
def Considerations.writeXml (_ : Considerations) : List WEvent := writeElem "considerations" [] []

/-- `ModelCard` as JSON (`specs/v1_5/modelcard.rs` 41-53, conversion 55-65). -/
def ModelCard.toJson (x : ModelCard) : Json :=
  .mk [("bomRef", x.bomRef.map Json.str),
    ("modelParameters", x.modelParameters.map ModelParameters.toJson),
    ("quantitativeAnalysis", x.quantitativeAnalysis.map QuantitativeAnalysis.toJson),
    ("considerations", x.considerations.map Considerations.toJson),
    ("properties", x.properties.map (Json.ofList Property.toJson))]

/-- `ModelCard` from JSON (`specs/v1_5/modelcard.rs` 41-53, conversion 67-77). -/
def ModelCard.ofJson (j : Json) : Except String ModelCard := do
  let o ← j.fields
  let bomRef' ← Json.opt o "bomRef" Json.string
  let modelParameters' ← Json.opt o "modelParameters" ModelParameters.ofJson
  let quantitativeAnalysis' ← Json.opt o "quantitativeAnalysis" QuantitativeAnalysis.ofJson
  let considerations' ← Json.opt o "considerations" Considerations.ofJson
  let properties' ← Json.opt o "properties" (Json.array Property.ofJson)
  .ok { bomRef := bomRef',
        modelParameters := modelParameters',
        quantitativeAnalysis := quantitativeAnalysis',
        considerations := considerations',
        properties := properties' }

/-- `ModelCard` as XML (`specs/v1_5/modelcard.rs` 83-116). -/
def ModelCard.writeXml (x : ModelCard) : List WEvent :=
  writeElem "modelCard" (mkAttrs [("bom-ref", x.bomRef)]) (
    (writeOpt ModelParameters.writeXml x.modelParameters) ++
    ((writeOpt QuantitativeAnalysis.writeXml x.quantitativeAnalysis) ++
    ((writeOpt Considerations.writeXml x.considerations) ++
    ((writeOpt (writeList "properties" Property.writeXml) x.properties)))))

/-- The local variables of the reader of `ModelCard` (`specs/v1_5/modelcard.rs` 118-174). -/
structure ModelCard.Vars where
  modelParameters : Option ModelParameters := none
  quantitativeAnalysis : Option QuantitativeAnalysis := none

/-- The tags that the reader of `ModelCard` knows (`specs/v1_5/modelcard.rs` 118-174). -/
def ModelCard.arms : List (String × Arm ModelCard.Vars) :=
  [("modelParameters", arm ModelParameters.readXml fun y s => { s with modelParameters := some y }),
   ("quantitativeAnalysis", arm QuantitativeAnalysis.readXml fun y s => { s with quantitativeAnalysis := some y })]

/-- `ModelCard` from XML (`specs/v1_5/modelcard.rs` 118-174). -/
def ModelCard.readXml : XElem ModelCard :=
  readStruct .ignore (fun el attrs => do
      .ok (optAttr attrs "bom-ref"))
    ({} : ModelCard.Vars) ModelCard.arms (fun _ a0 vars =>
      .ok { bomRef := a0,
            modelParameters := vars.modelParameters,
            quantitativeAnalysis := vars.quantitativeAnalysis })

/-- `VulnerabilityProofOfConcept` as JSON (`specs/v1_5/proof_of_concept.rs` 34-42, conversion 54-62). -/
def VulnerabilityProofOfConcept.toJson (x : VulnerabilityProofOfConcept) : Json :=
  .mk [("reproductionSteps", x.reproductionSteps.map Json.str),
    ("environment", x.environment.map Json.str),
    ("supportingMaterial", x.supportingMaterial.map (Json.ofList Attachment.toJson))]

/-- `VulnerabilityProofOfConcept` from JSON (`specs/v1_5/proof_of_concept.rs` 34-42, conversion 44-52). -/
def VulnerabilityProofOfConcept.ofJson (j : Json) : Except String VulnerabilityProofOfConcept := do
  let o ← j.fields
  let reproductionSteps' ← Json.opt o "reproductionSteps" Json.string
  let environment' ← Json.opt o "environment" Json.string
  let supportingMaterial' ← Json.opt o "supportingMaterial" (Json.array Attachment.ofJson)
  .ok { reproductionSteps := reproductionSteps',
        environment := environment',
        supportingMaterial := supportingMaterial' }

/-- `VulnerabilityProofOfConcept` as XML (`specs/v1_5/proof_of_concept.rs` 70-99). -/
def VulnerabilityProofOfConcept.writeXml (x : VulnerabilityProofOfConcept) : List WEvent :=
  writeElem "proofOfConcept" [] (
    (writeOpt (writeSimple "reproductionSteps") x.reproductionSteps) ++
    ((writeOpt (writeSimple "environment") x.environment) ++
    ((writeOpt (writeList "supportingMaterial" (Attachment.writeXml "attachment")) x.supportingMaterial))))

/-- The local variables of the reader of `VulnerabilityProofOfConcept` (`specs/v1_5/proof_of_concept.rs` 101-151). -/
structure VulnerabilityProofOfConcept.Vars where
  reproductionSteps : Option String := none
  environment : Option String := none
  supportingMaterial : Option (List Attachment) := none

/-- The tags that the reader of `VulnerabilityProofOfConcept` knows (`specs/v1_5/proof_of_concept.rs` 101-151). -/
def VulnerabilityProofOfConcept.arms : List (String × Arm VulnerabilityProofOfConcept.Vars) :=
  [("reproductionSteps", arm readSimple fun y s => { s with reproductionSteps := some y }),
   ("environment", arm readSimple fun y s => { s with environment := some y }),
   ("supportingMaterial", arm (readList "attachment" Attachment.readXml) fun y s => { s with supportingMaterial := some y })]

/-- `VulnerabilityProofOfConcept` from XML (`specs/v1_5/proof_of_concept.rs` 101-151). -/
def VulnerabilityProofOfConcept.readXml : XElem VulnerabilityProofOfConcept :=
  readStruct .ignore (fun _ _ => .ok ())
    ({} : VulnerabilityProofOfConcept.Vars) VulnerabilityProofOfConcept.arms (fun _ _ vars =>
      .ok { reproductionSteps := vars.reproductionSteps,
            environment := vars.environment,
            supportingMaterial := vars.supportingMaterial })

/-- `DataClassification` as JSON (`specs/common/service.rs` 701-706, conversion 718-725). -/
def DataClassification.toJson (x : DataClassification) : Json :=
  .mk [("flow", some ((Json.ofEnum DataFlowType.display) x.flow)),
    ("classification", some (Json.str x.classification))]

/-- `DataClassification` from JSON (`specs/common/service.rs` 701-706, conversion 727-734). -/
def DataClassification.ofJson (j : Json) : Except String DataClassification := do
  let o ← j.fields
  let flow' ← Json.req o "flow" (Json.enum DataFlowType.new)
  let classification' ← Json.req o "classification" Json.string
  .ok { flow := flow',
        classification := classification' }

/-- `DataClassification` as XML (`specs/common/service.rs` 739-756). -/
def DataClassification.writeXml (x : DataClassification) : List WEvent :=
  writeElem "classification" (mkAttrs [("flow", some (DataFlowType.display x.flow))]) [.chars x.classification]

/-- `DataClassification` from XML (`specs/common/service.rs` 758-775). -/
def DataClassification.readXml : XElem DataClassification :=
  readWith (fun el attrs => do
      let a0 ← reqAttr el attrs "flow"
      .ok (a0)) readSimple
    fun a0 s => { flow := DataFlowType.new a0, classification := s }

/-- `ServiceData` as JSON (`specs/v1_5/service_data.rs` 37-51, conversion 53-68), with the members
of the flattened classification. -/
def ServiceData.toJson (x : ServiceData) : Json :=
  .mk [("name", x.name.map Json.str),
    ("description", x.description.map Json.str),
    ("flow", some (Json.ofEnum DataFlowType.display x.classification.flow)),
    ("classification", some (Json.str x.classification.classification)),
    ("governance", x.governance.map DataGovernance.toJson),
    ("source", x.source.map (Json.ofList Json.str)),
    ("destination", x.destination.map (Json.ofList Json.str))]

/-- `ServiceData` from JSON (`specs/v1_5/service_data.rs` 37-51, conversion 70-83). -/
def ServiceData.ofJson (j : Json) : Except String ServiceData := do
  let o ← j.fields
  let name' ← Json.opt o "name" Json.string
  let description' ← Json.opt o "description" Json.string
  let classification' ← DataClassification.ofJson (.obj o)
  let governance' ← Json.opt o "governance" DataGovernance.ofJson
  let source' ← Json.opt o "source" (Json.array Json.string)
  let destination' ← Json.opt o "destination" (Json.array Json.string)
  .ok { name := name',
        description := description',
        classification := classification',
        governance := governance',
        source := source',
        destination := destination' }

/-- `ServiceData` as XML (`specs/v1_5/service_data.rs` 170-215): the description is written as a
second attribute `name`. -/
def ServiceData.writeXml (x : ServiceData) : List WEvent :=
  writeElem "dataflow" (mkAttrs [("name", x.name), ("name", x.description)]) (
    (DataClassification.writeXml x.classification) ++
    ((writeOpt (DataGovernance.writeXml "governance") x.governance) ++
    ((writeOpt (writeList "source" (writeSimple "url")) x.source) ++
    (writeOpt (writeList "destination" (writeSimple "url")) x.destination))))

/-- The local variables of the reader of `ServiceData` (`specs/v1_5/service_data.rs` 105-108). -/
structure ServiceData.Vars where
  classification : Option DataClassification := none
  governance : Option DataGovernance := none
  source : Option (List String) := none
  destination : Option (List String) := none

/-- The tags that the reader of `ServiceData` knows (`specs/v1_5/service_data.rs` 115-146). -/
def ServiceData.arms : List (String × Arm ServiceData.Vars) :=
  [("classification", arm DataClassification.readXml fun y s => { s with classification := some y }),
   ("governance", arm DataGovernance.readXml fun y s => { s with governance := some y }),
   ("source", arm (readList "url" readSimple) fun y s => { s with source := some y }),
   ("destination", arm (readList "url" readSimple) fun y s => { s with destination := some y })]

/-- `ServiceData` from XML (`specs/v1_5/service_data.rs` 94-168). -/
def ServiceData.readXml : XElem ServiceData :=
  readStruct .ignore (fun _ attrs => .ok (optAttr attrs "name", optAttr attrs "description"))
    ({} : ServiceData.Vars) ServiceData.arms (fun el (a0, a1) vars => do
      let classification' ← required "classification" el vars.classification
      .ok { name := a0,
            description := a1,
            classification := classification',
            governance := vars.governance,
            source := vars.source,
            destination := vars.destination })

/-- `Data` as JSON (`specs/common/service.rs` 540-548, conversion 550-566): before version 1.5, only
the classifications of data flows are written. -/
def ServiceDataChoice.toJson (v : SpecVersion) : ServiceDataChoice → Json
  | .classification l => Json.ofList DataClassification.toJson l
  | .serviceData l =>
    since15 v (Json.ofList ServiceData.toJson l)
      (Json.ofList DataClassification.toJson (l.map (·.classification)))

/-- `Data` from JSON (`specs/common/service.rs` 540-548, conversion 568-578): the first variant that
can be read. -/
def ServiceDataChoice.ofJson (v : SpecVersion) (j : Json) : Except String ServiceDataChoice :=
  match Json.array DataClassification.ofJson j with
  | .ok l => .ok (.classification l)
  | .error e => since15 v ((Json.array ServiceData.ofJson j).map .serviceData) (.error e)

/-- The content of `Data` as XML (`specs/common/service.rs` 678-699). -/
def ServiceDataChoice.writeInner (v : SpecVersion) : ServiceDataChoice → List WEvent
  | .classification l => l.flatMap DataClassification.writeXml
  | .serviceData l =>
    since15 v (l.flatMap ServiceData.writeXml)
      ((l.map (·.classification)).flatMap DataClassification.writeXml)

/-- `Data` as XML, with the tag (`specs/common/service.rs` 312-316, 678-699). -/
def ServiceDataChoice.writeXml (v : SpecVersion) (x : ServiceDataChoice) : List WEvent :=
  writeElem "data" [] (ServiceDataChoice.writeInner v x)

/-- The local variables of the reader of `Data` (`specs/common/service.rs` 593, 633-634). -/
structure ServiceDataChoice.Vars where
  classifications : List DataClassification := []
  serviceData : List ServiceData := []

/-- The tags that the reader of `Data` knows (`specs/common/service.rs` 600-610, 641-661). -/
def ServiceDataChoice.arms (v : SpecVersion) : List (String × Arm ServiceDataChoice.Vars) :=
  [("classification", arm DataClassification.readXml fun y s =>
      { s with classifications := s.classifications ++ [y] })] ++
  since15 v [("dataflow", arm ServiceData.readXml fun y s =>
      { s with serviceData := s.serviceData ++ [y] })] []

/-- `Data` from XML (`specs/common/service.rs` 583-676). -/
def ServiceDataChoice.readXml (v : SpecVersion) : XElem ServiceDataChoice :=
  readStruct .ignore (fun _ _ => .ok ()) ({} : ServiceDataChoice.Vars) (ServiceDataChoice.arms v)
    fun _ _ vars =>
      .ok (if vars.serviceData.isEmpty then .classification vars.classifications
           else .serviceData vars.serviceData)

/-- `Swid` as JSON (`specs/common/component.rs` 694-709, conversion 711-723). -/
def Swid.toJson (x : Swid) : Json :=
  .mk [("tagId", some (Json.str x.tagId)),
    ("name", some (Json.str x.name)),
    ("version", x.version.map Json.str),
    ("tagVersion", x.tagVersion.map Json.nat),
    ("patch", x.patch.map Json.bool),
    ("text", x.text.map AttachedText.toJson),
    ("url", x.url.map Json.str)]

/-- `Swid` from JSON (`specs/common/component.rs` 694-709, conversion 725-737). -/
def Swid.ofJson (j : Json) : Except String Swid := do
  let o ← j.fields
  let tagId' ← Json.req o "tagId" Json.string
  let name' ← Json.req o "name" Json.string
  let version' ← Json.opt o "version" Json.string
  let tagVersion' ← Json.opt o "tagVersion" Json.u32
  let patch' ← Json.opt o "patch" Json.boolean
  let text' ← Json.opt o "text" AttachedText.ofJson
  let url' ← Json.opt o "url" Json.string
  .ok { tagId := tagId',
        name := name',
        version := version',
        tagVersion := tagVersion',
        patch := patch',
        text := text',
        url := url' }

/-- `u32::from_xml_value` (`xml.rs` 405-423). -/
def parseU32Attr (el value : String) : Except XErr Nat :=
  match parseU32 value with
  | some n => .ok n
  | none => .error (.invalid value "xs:integer" el)

/-- An optional attribute that is parsed (`specs/common/component.rs` 804-816). -/
def optParse {α : Type} (f : String → Except XErr α) : Option String → Except XErr (Option α)
  | some s => (f s).map some
  | none => .ok none

/-- `Swid` as XML (`specs/common/component.rs` 748-790). -/
def Swid.writeXml (x : Swid) : List WEvent :=
  writeElem "swid" (mkAttrs [("tagId", some x.tagId), ("name", some x.name), ("version", x.version),
      ("tagVersion", x.tagVersion.map showNat), ("patch", x.patch.map boolStr)]) (
    (writeOpt (AttachedText.writeXml "text") x.text) ++
    (writeOpt (writeSimple "url") x.url))

/-- The local variables of the reader of `Swid` (`specs/common/component.rs` 817-818). -/
structure Swid.Vars where
  text : Option AttachedText := none
  url : Option String := none

/-- The tags that the reader of `Swid` knows (`specs/common/component.rs` 822-836). -/
def Swid.arms : List (String × Arm Swid.Vars) :=
  [("text", arm AttachedText.readXml fun y s => { s with text := some y }),
   ("url", arm readSimple fun y s => { s with url := some y })]

/-- `Swid` from XML (`specs/common/component.rs` 792-857). -/
def Swid.readXml : XElem Swid :=
  readStruct .skip (fun el attrs => do
      let a0 ← reqAttr el attrs "tagId"
      let a1 ← reqAttr el attrs "name"
      let a3 ← optParse (parseU32Attr "tagVersion") (optAttr attrs "tagVersion")
      let a4 ← optParse (parseBool "patch") (optAttr attrs "patch")
      .ok (a0, a1, optAttr attrs "version", a3, a4))
    ({} : Swid.Vars) Swid.arms (fun _ (a0, a1, a2, a3, a4) vars =>
      .ok { tagId := a0, name := a1, version := a2, tagVersion := a3, patch := a4,
            text := vars.text, url := vars.url })

/-- `LifecycleDescription` as JSON (`specs/v1_5/lifecycles.rs` 218-223, conversion 225-232). -/
def LifecycleDescription.toJson (x : LifecycleDescription) : Json :=
  .mk [("name", some (Json.str x.name)),
    ("description", x.description.map Json.str)]

/-- `LifecycleDescription` from JSON (`specs/v1_5/lifecycles.rs` 218-223, conversion 234-241). -/
def LifecycleDescription.ofJson (j : Json) : Except String LifecycleDescription := do
  let o ← j.fields
  let name' ← Json.req o "name" Json.string
  let description' ← Json.opt o "description" Json.string
  .ok { name := name',
        description := description' }

/-- `Lifecycle` as JSON (`specs/v1_5/lifecycles.rs` 88-94, 195-196, conversion 96-103): a phase is
tagged, a description is not. -/
def Lifecycle.toJson : Lifecycle → Json
  | .phase p => .obj [("phase", .str (Phase.display p))]
  | .description d => LifecycleDescription.toJson d

/-- `Lifecycle` from JSON (`specs/v1_5/lifecycles.rs` 88-94, 195-196, conversion 105-112). -/
def Lifecycle.ofJson (j : Json) : Except String Lifecycle :=
  match Json.tagged [("phase", fun j => (Json.enum Phase.new j).map .phase)] j with
  | .ok x => .ok x
  | .error _ => (LifecycleDescription.ofJson j).map .description

/-- `Lifecycle` as XML (`specs/v1_5/lifecycles.rs` 114-137). -/
def Lifecycle.writeXml : Lifecycle → List WEvent
  | .phase p => writeElem "lifecycle" [] (writeSimple "phase" (Phase.display p))
  | .description d => writeElem "lifecycle" []
      (writeSimple "name" d.name ++ writeOpt (writeSimple "description") d.description)

/-- The local variables of the reader of `Lifecycle` (`specs/v1_5/lifecycles.rs` 148-150). -/
structure Lifecycle.Vars where
  phase : Option String := none
  name : Option String := none
  description : Option String := none

/-- The tags that the reader of `Lifecycle` knows (`specs/v1_5/lifecycles.rs` 159-172). -/
def Lifecycle.arms : List (String × Arm Lifecycle.Vars) :=
  [("phase", arm readSimple fun y s => { s with phase := some y }),
   ("name", arm readSimple fun y s => { s with name := some y }),
   ("description", arm readSimple fun y s => { s with description := some y })]

/-- `Lifecycle` from XML (`specs/v1_5/lifecycles.rs` 139-192). -/
def Lifecycle.readXml : XElem Lifecycle :=
  readStruct .fail (fun _ _ => .ok ()) ({} : Lifecycle.Vars) Lifecycle.arms fun el _ vars =>
    match vars.phase, vars.name, vars.description with
    | some p, none, none => .ok (.phase (Phase.new p))
    | none, some n, d => .ok (.description { name := n, description := d })
    | _, _, _ => .error (.missing "phase or name" el.localName)

end Cdx
