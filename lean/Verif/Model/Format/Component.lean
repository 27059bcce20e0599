import Verif.Model.Limit
import Verif.Model.Format.Evidence

set_option linter.unusedVariables false

/-!
# File formats: components
-/

namespace Cdx

variable [F32Format]

variable [ReadLimit]

mutual

/-- An optional list of `Component`s as JSON. -/
def Component.toJsonOpt (v : SpecVersion) : Option (List Component) → Option Json
  | none => none
  | some l => some (.arr (Component.toJsonAll v l))
termination_by structural l => l

/-- A list of `Component`s as JSON. -/
def Component.toJsonAll (v : SpecVersion) : List Component → List Json
  | [] => []
  | x :: l => Component.toJson v x :: Component.toJsonAll v l
termination_by structural l => l

/-- An optional `Pedigree` as JSON. -/
def Pedigree.toJsonOpt (v : SpecVersion) : Option Pedigree → Option Json
  | none => none
  | some x => some (Pedigree.toJson v x)
termination_by structural x => x

/-- `Pedigree` as JSON (`specs/common/component.rs` 1082-1097, conversion 1099-1112). -/
def Pedigree.toJson (v : SpecVersion) : Pedigree → Json
  | ⟨ancestors, descendants, variants, commits, patches, notes⟩ =>
  .mk [("ancestors", Component.toJsonOpt v ancestors),
    ("descendants", Component.toJsonOpt v descendants),
    ("variants", Component.toJsonOpt v variants),
    ("commits", commits.map (Json.ofList Commit.toJson)),
    ("patches", patches.map (Json.ofList Patch.toJson)),
    ("notes", notes.map Json.str)]
termination_by structural x => x

/-- `Component` as JSON (`specs/common/component.rs` 126-186, 859-872, 1359-1372, conversion 188-233). -/
def Component.toJson (v : SpecVersion) : Component → Json
  | ⟨componentType, mimeType, bomRef, supplier, author, publisher, group, name, version, description, scope, hashes, licenses, copyright, cpe, purl, swid, modified, pedigree, externalReferences, properties, components, evidence, signature, modelCard, data⟩ =>
  .mk ([("type", some ((Json.ofEnum Classification.display) componentType)),
    ("mime-type", mimeType.map Json.str),
    ("bom-ref", bomRef.map Json.str),
    ("supplier", supplier.map OrganizationalEntity.toJson),
    ("author", author.map Json.str),
    ("publisher", publisher.map Json.str),
    ("group", group.map Json.str),
    ("name", some (Json.str name)),
    ("version", version.map Json.str),
    ("description", description.map Json.str),
    ("scope", scope.map (Json.ofEnum Scope.display)),
    ("hashes", hashes.map (Json.ofList Hash.toJson)),
    ("licenses", licenses.map (Licenses.toJson v)),
    ("copyright", copyright.map Json.str),
    ("cpe", cpe.map Json.str),
    ("purl", purl.map Json.str),
    ("swid", swid.map Swid.toJson),
    ("modified", modified.map Json.bool),
    ("pedigree", Pedigree.toJsonOpt v pedigree),
    ("externalReferences", externalReferences.map (Json.ofList ExternalReference.toJson)),
    ("properties", properties.map (Json.ofList Property.toJson)),
    ("components", Component.toJsonOpt v components),
    ("evidence", evidence.map (ComponentEvidence.toJson v))] ++
    since14 v [("signature", signature.map Signature.toJson)] [] ++
    since15 v [("modelCard", modelCard.map ModelCard.toJson),
    ("data", data.map ComponentData.toJson)] [])
termination_by structural x => x

end

mutual

/-- An optional list of `Component`s as XML. -/
def Component.writeXmlOpt (v : SpecVersion) (tag : String) : Option (List Component) → List WEvent
  | none => []
  | some l => writeElem tag [] (Component.writeXmlAll v l)
termination_by structural l => l

/-- A list of `Component`s as XML, without a tag around it. -/
def Component.writeXmlAll (v : SpecVersion) : List Component → List WEvent
  | [] => []
  | x :: l => Component.writeXml v x ++ Component.writeXmlAll v l
termination_by structural l => l

/-- An optional `Pedigree` as XML. -/
def Pedigree.writeXmlOpt (v : SpecVersion) : Option Pedigree → List WEvent
  | none => []
  | some x => Pedigree.writeXml v x
termination_by structural x => x

/-- `Pedigree` as XML (`specs/common/component.rs` 1134-1167). -/
def Pedigree.writeXml (v : SpecVersion) : Pedigree → List WEvent
  | ⟨ancestors, descendants, variants, commits, patches, notes⟩ =>
  writeElem "pedigree" [] (
    (Component.writeXmlOpt v "ancestors" ancestors) ++
    ((Component.writeXmlOpt v "descendants" descendants) ++
    ((Component.writeXmlOpt v "variants" variants) ++
    ((writeOpt (writeList "commits" Commit.writeXml) commits) ++
    ((writeOpt (writeList "patches" Patch.writeXml) patches) ++
    ((writeOpt (writeSimple "notes") notes)))))))
termination_by structural x => x

/-- `Component` as XML (`specs/common/component.rs` 302-428, 876-883). -/
def Component.writeXml (v : SpecVersion) : Component → List WEvent
  | ⟨componentType, mimeType, bomRef, supplier, author, publisher, group, name, version, description, scope, hashes, licenses, copyright, cpe, purl, swid, modified, pedigree, externalReferences, properties, components, evidence, signature, modelCard, data⟩ =>
  writeElem "component" (mkAttrs [("type", some (Classification.display componentType)), ("mime-type", mimeType), ("bom-ref", bomRef)]) (
    (writeOpt (fun c => if OrganizationalEntity.willWrite c then OrganizationalEntity.writeXml "supplier" c else []) supplier) ++
    ((writeOpt (writeSimple "author") author) ++
    ((writeOpt (writeSimple "publisher") publisher) ++
    ((writeOpt (writeSimple "group") group) ++
    (((writeSimple "name") name) ++
    ((writeOpt (writeSimple "version") version) ++
    ((writeOpt (writeSimple "description") description) ++
    ((writeOpt (fun e => writeSimple "scope" (Scope.display e)) scope) ++
    ((writeOpt (writeList "hashes" Hash.writeXml) hashes) ++
    ((writeOpt (Licenses.writeXml v) licenses) ++
    ((writeOpt (writeSimple "copyright") copyright) ++
    ((writeOpt (writeSimple "cpe") cpe) ++
    ((writeOpt (writeSimple "purl") purl) ++
    ((writeOpt Swid.writeXml swid) ++
    ((writeOpt (fun b => writeSimple "modified" (boolStr b)) modified) ++
    ((Pedigree.writeXmlOpt v pedigree) ++
    ((writeOpt (writeList "externalReferences" ExternalReference.writeXml) externalReferences) ++
    ((writeOpt (writeList "properties" Property.writeXml) properties) ++
    ((Component.writeXmlOpt v "components" components) ++
    ((writeOpt (fun c => if ComponentEvidence.willWrite c then ComponentEvidence.writeXml v c else []) evidence) ++
    ((since14 v (writeOpt Signature.writeXml signature) []) ++
    ((since15 v (writeOpt ModelCard.writeXml modelCard) []) ++
    ((since15 v (writeOpt (ComponentData.writeXml "data") data) []))))))))))))))))))))))))
termination_by structural x => x

end

/-- `Pedigree` from JSON (`specs/common/component.rs` 1082-1097, conversion 1114-1125), with the reader of nested values. -/
def Pedigree.ofJsonWith (sub : Json → Except String Component) (v : SpecVersion) (j : Json) : Except String Pedigree := do
  let o ← j.fields
  let ancestors' ← Json.opt o "ancestors" (Json.array sub)
  let descendants' ← Json.opt o "descendants" (Json.array sub)
  let variants' ← Json.opt o "variants" (Json.array sub)
  let commits' ← Json.opt o "commits" (Json.array Commit.ofJson)
  let patches' ← Json.opt o "patches" (Json.array Patch.ofJson)
  let notes' ← Json.opt o "notes" Json.string
  .ok { ancestors := ancestors',
        descendants := descendants',
        variants := variants',
        commits := commits',
        patches := patches',
        notes := notes' }

/-- The local variables of the reader of `Pedigree` (`specs/common/component.rs` 1182-1264). -/
structure Pedigree.Vars where
  ancestors : Option (List Component) := none
  descendants : Option (List Component) := none
  variants : Option (List Component) := none
  commits : Option (List Commit) := none
  patches : Option (List Patch) := none
  notes : Option String := none

/-- The tags that the reader of `Pedigree` knows (`specs/common/component.rs` 1182-1264). -/
def Pedigree.armsWith (sub : XElem Component) (v : SpecVersion) : List (String × Arm Pedigree.Vars) :=
  [("ancestors", arm (readListLax "component" sub) fun y s => { s with ancestors := some y }),
   ("descendants", arm (readListLax "component" sub) fun y s => { s with descendants := some y }),
   ("variants", arm (readListLax "component" sub) fun y s => { s with variants := some y }),
   ("commits", arm (readListLax "commit" Commit.readXml) fun y s => { s with commits := some y }),
   ("patches", arm (readListLax "patch" Patch.readXml) fun y s => { s with patches := some y }),
   ("notes", arm readSimple fun y s => { s with notes := some y })]

/-- `Pedigree` from XML (`specs/common/component.rs` 1182-1264), with the reader of nested values. -/
def Pedigree.readXmlWith (sub : XElem Component) (v : SpecVersion) : XElem Pedigree :=
  readStruct .skip (fun _ _ => .ok ())
    ({} : Pedigree.Vars) (Pedigree.armsWith sub v) (fun _ _ vars =>
      .ok { ancestors := vars.ancestors,
            descendants := vars.descendants,
            variants := vars.variants,
            commits := vars.commits,
            patches := vars.patches,
            notes := vars.notes })

/-- `Component` from JSON (`specs/common/component.rs` 126-186, 859-872, 1359-1372, conversion 235-280), with the reader of nested values. -/
def Component.ofJsonWith (sub : Json → Except String Component) (v : SpecVersion) (j : Json) : Except String Component := do
  let o ← j.fields
  let componentType' ← Json.req o "type" (Json.enum Classification.new)
  let mimeType' ← Json.opt o "mime-type" Json.string
  let bomRef' ← Json.opt o "bom-ref" Json.string
  let supplier' ← Json.opt o "supplier" OrganizationalEntity.ofJson
  let author' ← Json.opt o "author" Json.string
  let publisher' ← Json.opt o "publisher" Json.string
  let group' ← Json.opt o "group" Json.string
  let name' ← Json.req o "name" Json.string
  let version' ← since14 v (Json.opt o "version" Json.string)
    ((Json.req o "version" Json.string).map some)
  let description' ← Json.opt o "description" Json.string
  let scope' ← Json.opt o "scope" (Json.enum Scope.new)
  let hashes' ← Json.opt o "hashes" (Json.array Hash.ofJson)
  let licenses' ← Json.opt o "licenses" (Licenses.ofJson v)
  let copyright' ← Json.opt o "copyright" Json.string
  let cpe' ← Json.opt o "cpe" Json.string
  let purl' ← Json.opt o "purl" Json.string
  let swid' ← Json.opt o "swid" Swid.ofJson
  let modified' ← Json.opt o "modified" Json.boolean
  let pedigree' ← Json.opt o "pedigree" (Pedigree.ofJsonWith sub v)
  let externalReferences' ← Json.opt o "externalReferences" (Json.array ExternalReference.ofJson)
  let properties' ← Json.opt o "properties" (Json.array Property.ofJson)
  let components' ← Json.opt o "components" (Json.array sub)
  let evidence' ← Json.opt o "evidence" (ComponentEvidence.ofJson v)
  let signature' ← since14 v (Json.opt o "signature" Signature.ofJson) (.ok none)
  let modelCard' ← since15 v (Json.opt o "modelCard" ModelCard.ofJson) (.ok none)
  let data' ← since15 v (Json.opt o "data" ComponentData.ofJson) (.ok none)
  .ok { componentType := componentType',
        mimeType := mimeType',
        bomRef := bomRef',
        supplier := supplier',
        author := author',
        publisher := publisher',
        group := group',
        name := name',
        version := version',
        description := description',
        scope := scope',
        hashes := hashes',
        licenses := licenses',
        copyright := copyright',
        cpe := cpe',
        purl := purl',
        swid := swid',
        modified := modified',
        pedigree := pedigree',
        externalReferences := externalReferences',
        properties := properties',
        components := components',
        evidence := evidence',
        signature := signature',
        modelCard := modelCard',
        data := data' }

/-- The local variables of the reader of `Component` (`specs/common/component.rs` 437-692, 885-896). -/
structure Component.Vars where
  supplier : Option OrganizationalEntity := none
  author : Option String := none
  publisher : Option String := none
  group : Option String := none
  name : Option String := none
  version : Option String := none
  description : Option String := none
  scope : Option Scope := none
  hashes : Option (List Hash) := none
  licenses : Option Licenses := none
  copyright : Option String := none
  cpe : Option String := none
  purl : Option String := none
  swid : Option Swid := none
  modified : Option Bool := none
  pedigree : Option Pedigree := none
  externalReferences : Option (List ExternalReference) := none
  properties : Option (List Property) := none
  components : Option (List Component) := none
  evidence : Option ComponentEvidence := none
  signature : Option Signature := none
  modelCard : Option ModelCard := none
  data : Option ComponentData := none

/-- The tags that the reader of `Component` knows (`specs/common/component.rs` 437-692, 885-896). -/
def Component.armsWith (sub : XElem Component) (v : SpecVersion) : List (String × Arm Component.Vars) :=
  [("supplier", arm OrganizationalEntity.readXml fun y s => { s with supplier := some y }),
   ("author", arm readSimple fun y s => { s with author := some y }),
   ("publisher", arm readSimple fun y s => { s with publisher := some y }),
   ("group", arm readSimple fun y s => { s with group := some y }),
   ("name", arm readSimple fun y s => { s with name := some y }),
   ("version", arm readSimple fun y s => { s with version := some y }),
   ("description", arm readSimple fun y s => { s with description := some y }),
   ("scope", arm (readSimple.map Scope.new) fun y s => { s with scope := some y }),
   ("hashes", arm (readList "hash" Hash.readXml) fun y s => { s with hashes := some y }),
   ("licenses", arm (Licenses.readXml v) fun y s => { s with licenses := some y }),
   ("copyright", arm readSimple fun y s => { s with copyright := some y }),
   ("cpe", arm readSimple fun y s => { s with cpe := some y }),
   ("purl", arm readSimple fun y s => { s with purl := some y }),
   ("swid", arm Swid.readXml fun y s => { s with swid := some y }),
   ("modified", arm readBool fun y s => { s with modified := some y }),
   ("pedigree", arm (Pedigree.readXmlWith sub v) fun y s => { s with pedigree := some y }),
   ("externalReferences", arm (readList "reference" ExternalReference.readXml) fun y s => { s with externalReferences := some y }),
   ("properties", arm (readListLax "property" Property.readXml) fun y s => { s with properties := some y }),
   ("components", arm (readListLax "component" sub) fun y s => { s with components := some y }),
   ("evidence", arm (ComponentEvidence.readXml v) fun y s => { s with evidence := some y })] ++
  since14 v [("signature", arm Signature.readXml fun y s => { s with signature := some y })] [] ++
  since15 v [("modelCard", arm ModelCard.readXml fun y s => { s with modelCard := some y }),
   ("data", arm ComponentData.readXml fun y s => { s with data := some y })] []

/-- `Component` from XML (`specs/common/component.rs` 437-692, 885-896), with the reader of nested values. -/
def Component.readXmlWith (sub : XElem Component) (v : SpecVersion) : XElem Component :=
  readStruct .skip (fun el attrs => do
      let a0 ← reqAttr el attrs "type"
      .ok (a0, optAttr attrs "mime-type", optAttr attrs "bom-ref"))
    ({} : Component.Vars) (Component.armsWith sub v) (fun el (a0, a1, a2) vars => do
      let name' ← required "name" el vars.name
      let version' ← since14 v (.ok vars.version) ((required "version" el vars.version).map some)
      .ok { componentType := Classification.new a0,
            mimeType := a1,
            bomRef := a2,
            supplier := vars.supplier,
            author := vars.author,
            publisher := vars.publisher,
            group := vars.group,
            name := name',
            version := version',
            description := vars.description,
            scope := vars.scope,
            hashes := vars.hashes,
            licenses := vars.licenses,
            copyright := vars.copyright,
            cpe := vars.cpe,
            purl := vars.purl,
            swid := vars.swid,
            modified := vars.modified,
            pedigree := vars.pedigree,
            externalReferences := vars.externalReferences,
            properties := vars.properties,
            components := vars.components,
            evidence := vars.evidence,
            signature := vars.signature,
            modelCard := vars.modelCard,
            data := vars.data })

/-- `Component` from JSON, with at most `n` levels of nested `Component`s: the code recurses without a limit of
its own (`specs/common/component.rs` 84-124, 437-692, 1182-1264). -/
def Component.ofJsonN (v : SpecVersion) : Nat → Json → Except String Component
  | 0, _ => .error "recursion limit exceeded"
  | n + 1, j => Component.ofJsonWith (Component.ofJsonN v n) v j

/-- `Component` from JSON, as deep as the limit on reading allows. -/
def Component.ofJson (v : SpecVersion) : Json → Except String Component := Component.ofJsonN v ReadLimit.limit

/-- `Component` from XML, with at most `n` levels of nested `Component`s: the code recurses without a limit of
its own (`specs/common/component.rs` 84-124, 437-692, 1182-1264). -/
def Component.readXmlN (v : SpecVersion) : Nat → XElem Component
  | 0 => fun _ _ _ => .error .depth
  | n + 1 => Component.readXmlWith (Component.readXmlN v n) v

/-- `Component` from XML, as deep as the limit on reading allows. -/
def Component.readXml (v : SpecVersion) : XElem Component := Component.readXmlN v ReadLimit.limit

end Cdx
