import Verif.Model.Format.Component

set_option linter.unusedVariables false

/-!
# File formats: tools and metadata
-/

namespace Cdx

variable [F32Format]

variable [ReadLimit]

/-- `Tool` as JSON (`specs/common/tool.rs` 218-232, conversion 234-245). -/
def Tool.toJson (v : SpecVersion) (x : Tool) : Json :=
  .mk ([("vendor", x.vendor.map Json.str),
    ("name", x.name.map Json.str),
    ("version", x.version.map Json.str),
    ("hashes", x.hashes.map (Json.ofList Hash.toJson))] ++
    since14 v [("externalReferences", x.externalReferences.map (Json.ofList ExternalReference.toJson))] [])

/-- `Tool` from JSON (`specs/common/tool.rs` 218-232, conversion 247-260). -/
def Tool.ofJson (v : SpecVersion) (j : Json) : Except String Tool := do
  let o ← j.fields
  let vendor' ← Json.opt o "vendor" Json.string
  let name' ← Json.opt o "name" Json.string
  let version' ← Json.opt o "version" Json.string
  let hashes' ← Json.opt o "hashes" (Json.array Hash.ofJson)
  let externalReferences' ← since14 v (Json.opt o "externalReferences" (Json.array ExternalReference.ofJson)) (.ok none)
  .ok { vendor := vendor',
        name := name',
        version := version',
        hashes := hashes',
        externalReferences := externalReferences' }

/-- `Tool` as XML (`specs/common/tool.rs` 268-304). -/
def Tool.writeXml (v : SpecVersion) (x : Tool) : List WEvent :=
  writeElem "tool" [] (
    (writeOpt (writeSimple "vendor") x.vendor) ++
    ((writeOpt (writeSimple "name") x.name) ++
    ((writeOpt (writeSimple "version") x.version) ++
    ((writeOpt (writeList "hashes" Hash.writeXml) x.hashes) ++
    ((since14 v (writeOpt (writeList "externalReferences" ExternalReference.writeXml) x.externalReferences) []))))))

/-- The local variables of the reader of `Tool` (`specs/common/tool.rs` 318-386). -/
structure Tool.Vars where
  vendor : Option String := none
  name : Option String := none
  version : Option String := none
  hashes : Option (List Hash) := none
  externalReferences : Option (List ExternalReference) := none

/-- The tags that the reader of `Tool` knows (`specs/common/tool.rs` 318-386). -/
def Tool.arms (v : SpecVersion) : List (String × Arm Tool.Vars) :=
  [("vendor", arm readSimple fun y s => { s with vendor := some y }),
   ("name", arm readSimple fun y s => { s with name := some y }),
   ("version", arm readSimple fun y s => { s with version := some y }),
   ("hashes", arm (readList "hash" Hash.readXml) fun y s => { s with hashes := some y })] ++
  since14 v [("externalReferences", arm (readList "reference" ExternalReference.readXml) fun y s => { s with externalReferences := some y })] []

/-- `Tool` from XML (`specs/common/tool.rs` 318-386). -/
def Tool.readXml (v : SpecVersion) : XElem Tool :=
  readStruct .skip (fun _ _ => .ok ())
    ({} : Tool.Vars) (Tool.arms v) (fun _ _ vars =>
      .ok { vendor := vars.vendor,
            name := vars.name,
            version := vars.version,
            hashes := vars.hashes,
            externalReferences := vars.externalReferences })

/-- `Tools` as JSON (`specs/common/tool.rs` 44-57, conversion 59-77): before version 1.5 tools
described by components and services become an empty list. -/
def Tools.toJson (v : SpecVersion) : Tools → Json
  | .list l => Json.ofList (Tool.toJson v) l
  | .object s c =>
    since15 v
      (.mk [("services", s.map (Json.ofList (Service.toJson v))),
        ("components", c.map (Json.ofList (Component.toJson v)))])
      (.arr [])

/-- The second form of `Tools` from JSON (`specs/common/tool.rs` 50-56, conversion 83-90). -/
def Tools.objectOfJson (v : SpecVersion) (j : Json) : Except String Tools := do
  let o ← j.fields
  let s ← Json.opt o "services" (Json.array (Service.ofJson v))
  let c ← Json.opt o "components" (Json.array (Component.ofJson v))
  .ok (.object s c)

/-- `Tools` from JSON (`specs/common/tool.rs` 44-57, conversion 79-93): the forms are tried in
order. -/
def Tools.ofJson (v : SpecVersion) (j : Json) : Except String Tools :=
  match Json.array (Tool.ofJson v) j with
  | .ok l => .ok (.list l)
  | .error e => since15 v (Tools.objectOfJson v j) (.error e)

/-- `Tools` as XML (`specs/common/tool.rs` 101-131, conversion 59-77). -/
def Tools.writeXml (v : SpecVersion) : Tools → List WEvent
  | .list l => writeList "tools" (Tool.writeXml v) l
  | .object s c =>
    writeElem "tools" [] (since15 v
      (writeOpt (writeList "services" (Service.writeXml v)) s ++
        writeOpt (writeList "components" (Component.writeXml v)) c) [])

/-- The variables of the reader of `Tools` (`specs/common/tool.rs` 142-147). -/
structure Tools.Vars where
  tools : Option (List Tool) := none
  components : Option (List Component) := none
  services : Option (List Service) := none

/-- The tags that the reader of `Tools` knows (`specs/common/tool.rs` 153-192). -/
def Tools.arms (v : SpecVersion) : List (String × Arm Tools.Vars) :=
  [("tool", arm (Tool.readXml v) fun y s => { s with tools := some (s.tools.getD [] ++ [y]) })] ++
  since15 v [("components", arm (readListLax "component" (Component.readXml v)) fun y s => { s with components := some y }),
   ("services", arm (readListLax "service" (Service.readXml v)) fun y s => { s with services := some y })] []

/-- `Tools` from XML (`specs/common/tool.rs` 133-216, conversion 79-93). Before version 1.5 the
variables `components` and `services` do not exist; here they stay empty. -/
def Tools.readXml (v : SpecVersion) : XElem Tools :=
  readStruct .fail (fun _ _ => .ok ()) ({} : Tools.Vars) (Tools.arms v) fun el _ vars =>
    match vars.tools with
    | some l =>
      if vars.components.isSome || vars.services.isSome then
        .error (.missing "tool array or services & components" el.localName)
      else .ok (.list l)
    | none => since15 v (.ok (.object vars.services vars.components)) (.ok (.list []))

/-- `Metadata` as JSON (`specs/common/metadata.rs` 51-73, conversion 75-92). -/
def Metadata.toJson (v : SpecVersion) (x : Metadata) : Json :=
  .mk ([("timestamp", x.timestamp.map Json.str),
    ("tools", x.tools.map (Tools.toJson v)),
    ("authors", x.authors.map (Json.ofList OrganizationalContact.toJson)),
    ("component", x.component.map (Component.toJson v)),
    ("manufacture", x.manufacture.map OrganizationalEntity.toJson),
    ("supplier", x.supplier.map OrganizationalEntity.toJson),
    ("licenses", x.licenses.map (Licenses.toJson v)),
    ("properties", x.properties.map (Json.ofList Property.toJson))] ++
    since15 v [("lifecycles", x.lifecycles.map (Json.ofList Lifecycle.toJson))] [])

/-- `Metadata` from JSON (`specs/common/metadata.rs` 51-73, conversion 94-111). -/
def Metadata.ofJson (v : SpecVersion) (j : Json) : Except String Metadata := do
  let o ← j.fields
  let timestamp' ← Json.opt o "timestamp" Json.string
  let tools' ← Json.opt o "tools" (Tools.ofJson v)
  let authors' ← Json.opt o "authors" (Json.array OrganizationalContact.ofJson)
  let component' ← Json.opt o "component" (Component.ofJson v)
  let manufacture' ← Json.opt o "manufacture" OrganizationalEntity.ofJson
  let supplier' ← Json.opt o "supplier" OrganizationalEntity.ofJson
  let licenses' ← Json.opt o "licenses" (Licenses.ofJson v)
  let properties' ← Json.opt o "properties" (Json.array Property.ofJson)
  let lifecycles' ← since15 v (Json.opt o "lifecycles" (Json.array Lifecycle.ofJson)) (.ok none)
  .ok { timestamp := timestamp',
        tools := tools',
        authors := authors',
        component := component',
        manufacture := manufacture',
        supplier := supplier',
        licenses := licenses',
        properties := properties',
        lifecycles := lifecycles' }

/-- `Metadata` as XML (`specs/common/metadata.rs` 121-175). -/
def Metadata.writeXml (v : SpecVersion) (x : Metadata) : List WEvent :=
  writeElem "metadata" [] (
    (writeOpt (writeSimple "timestamp") x.timestamp) ++
    ((writeOpt (Tools.writeXml v) x.tools) ++
    ((writeOpt (writeList "authors" (fun c => if OrganizationalContact.willWrite c then OrganizationalContact.writeXml "author" c else [])) x.authors) ++
    ((writeOpt (Component.writeXml v) x.component) ++
    ((writeOpt (OrganizationalEntity.writeXml "manufacture") x.manufacture) ++
    ((writeOpt (OrganizationalEntity.writeXml "supplier") x.supplier) ++
    ((writeOpt (Licenses.writeXml v) x.licenses) ++
    ((writeOpt (writeList "properties" Property.writeXml) x.properties) ++
    ((since15 v (writeOpt (writeList "lifecycles" Lifecycle.writeXml) x.lifecycles) []))))))))))

/-- The local variables of the reader of `Metadata` (`specs/common/metadata.rs` 196-316). -/
structure Metadata.Vars where
  timestamp : Option String := none
  tools : Option Tools := none
  authors : Option (List OrganizationalContact) := none
  component : Option Component := none
  manufacture : Option OrganizationalEntity := none
  supplier : Option OrganizationalEntity := none
  licenses : Option Licenses := none
  properties : Option (List Property) := none
  lifecycles : Option (List Lifecycle) := none

/-- The tags that the reader of `Metadata` knows (`specs/common/metadata.rs` 196-316). -/
def Metadata.arms (v : SpecVersion) : List (String × Arm Metadata.Vars) :=
  [("timestamp", arm readSimple fun y s => { s with timestamp := some y }),
   ("tools", arm (Tools.readXml v) fun y s => { s with tools := some y }),
   ("authors", arm (readList "author" OrganizationalContact.readXml) fun y s => { s with authors := some y }),
   ("component", arm (Component.readXml v) fun y s => { s with component := some y }),
   ("manufacture", arm OrganizationalEntity.readXml fun y s => { s with manufacture := some y }),
   ("supplier", arm OrganizationalEntity.readXml fun y s => { s with supplier := some y }),
   ("licenses", arm (Licenses.readXml v) fun y s => { s with licenses := some y }),
   ("properties", arm (readListLax "property" Property.readXml) fun y s => { s with properties := some y })] ++
  since15 v [("lifecycles", arm (readList "lifecycle" Lifecycle.readXml) fun y s => { s with lifecycles := some y })] []

/-- `Metadata` from XML (`specs/common/metadata.rs` 196-316). -/
def Metadata.readXml (v : SpecVersion) : XElem Metadata :=
  readStruct .skip (fun _ _ => .ok ())
    ({} : Metadata.Vars) (Metadata.arms v) (fun _ _ vars =>
      .ok { timestamp := vars.timestamp,
            tools := vars.tools,
            authors := vars.authors,
            component := vars.component,
            manufacture := vars.manufacture,
            supplier := vars.supplier,
            licenses := vars.licenses,
            properties := vars.properties,
            lifecycles := vars.lifecycles })

end Cdx
