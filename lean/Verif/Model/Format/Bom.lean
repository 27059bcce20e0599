import Verif.Model.Checks
import Verif.Model.Format.Formulation

set_option linter.unusedVariables false

/-!
# File formats: documents
-/

namespace Cdx

variable [F32Format]

variable [ReadLimit]

/-- `SpecVersion::from_str` (`models/bom.rs` 67-78). -/
def SpecVersion.ofString : String → Option SpecVersion
  | "1.3" => some .v1_3
  | "1.4" => some .v1_4
  | "1.5" => some .v1_5
  | _ => none

/-- `SpecVersion` from JSON (`models/bom.rs` 48-59, derived). The form `{"1.3": null}`, which the
JSON library takes for a variant without data as well, is left out. -/
def SpecVersion.ofJson : Json → Except String SpecVersion
  | .str s =>
    match SpecVersion.ofString s with
    | some v => .ok v
    | none => .error "unknown variant"
  | _ => .error "invalid type"

/-- `BomFormat` from JSON (`specs/common/bom.rs` 487-490, derived), with the same simplification. -/
def Bom.formatOfJson : Json → Except String Unit
  | .str "CycloneDX" => .ok ()
  | _ => .error "unknown variant"

/-- `Bom` as JSON (`specs/common/bom.rs` 79-114, conversion 116-151). -/
def Bom.toJson (v : SpecVersion) (x : Bom) : Json :=
  .mk ([("bomFormat", some (Json.str "CycloneDX")),
    ("specVersion", some (Json.str v.display)),
    ("version", some (Json.nat x.version)),
    ("serialNumber", x.serialNumber.map Json.str),
    ("metadata", x.metadata.map (Metadata.toJson v)),
    ("components", x.components.map (Json.ofList (Component.toJson v))),
    ("services", x.services.map (Json.ofList (Service.toJson v))),
    ("externalReferences", x.externalReferences.map (Json.ofList ExternalReference.toJson)),
    ("dependencies", x.dependencies.map (Json.ofList Dependency.toJson)),
    ("compositions", x.compositions.map (Json.ofList (Composition.toJson v)))] ++
    since14 v [("vulnerabilities", x.vulnerabilities.map (Json.ofList (Vulnerability.toJson v))),
    ("signature", x.signature.map Signature.toJson)] [] ++
    since15 v [("annotations", x.annotations.map (Json.ofList (Annotation.toJson v))),
    ("properties", x.properties.map (Json.ofList Property.toJson)),
    ("formulation", x.formulation.map (Json.ofList (Formula.toJson v)))] [])

/-- `Bom` from JSON (`specs/common/bom.rs` 79-114, conversion 153-187). -/
def Bom.ofJson (v : SpecVersion) (j : Json) : Except String Bom := do
  let o ← j.fields
  let bomFormat' ← Json.req o "bomFormat" Bom.formatOfJson
  let specVersion' ← Json.req o "specVersion" SpecVersion.ofJson
  let version' ← Json.req o "version" Json.u32
  let serialNumber' ← Json.opt o "serialNumber" Json.string
  let metadata' ← Json.opt o "metadata" (Metadata.ofJson v)
  let components' ← Json.opt o "components" (Json.array (Component.ofJson v))
  let services' ← Json.opt o "services" (Json.array (Service.ofJson v))
  let externalReferences' ← Json.opt o "externalReferences" (Json.array ExternalReference.ofJson)
  let dependencies' ← Json.opt o "dependencies" (Json.array Dependency.ofJson)
  let compositions' ← Json.opt o "compositions" (Json.array (Composition.ofJson v))
  let vulnerabilities' ← since14 v (Json.opt o "vulnerabilities" (Json.array (Vulnerability.ofJson v))) (.ok none)
  let signature' ← since14 v (Json.opt o "signature" Signature.ofJson) (.ok none)
  let annotations' ← since15 v (Json.opt o "annotations" (Json.array (Annotation.ofJson v))) (.ok none)
  let properties' ← since15 v (Json.opt o "properties" (Json.array Property.ofJson)) (.ok none)
  let formulation' ← since15 v (Json.opt o "formulation" (Json.array (Formula.ofJson v))) (.ok none)
  .ok { specVersion := specVersion',
        version := version',
        serialNumber := serialNumber',
        metadata := metadata',
        components := components',
        services := services',
        externalReferences := externalReferences',
        dependencies := dependencies',
        compositions := compositions',
        vulnerabilities := vulnerabilities',
        signature := signature',
        annotations := annotations',
        properties := properties',
        formulation := formulation' }

/-- `Bom` as XML (`specs/common/bom.rs` 193-256). -/
def Bom.writeXml (v : SpecVersion) (x : Bom) : List WEvent :=
  writeElem "bom" (mkAttrs [("serialNumber", x.serialNumber), ("version", some (showNat x.version))]) (
    (writeOpt (Metadata.writeXml v) x.metadata) ++
    ((writeOpt (writeList "components" (Component.writeXml v)) x.components) ++
    ((writeOpt (writeList "services" (Service.writeXml v)) x.services) ++
    ((writeOpt (writeList "externalReferences" ExternalReference.writeXml) x.externalReferences) ++
    ((writeOpt (writeList "dependencies" Dependency.writeXml) x.dependencies) ++
    ((writeOpt (writeList "compositions" (Composition.writeXml v)) x.compositions) ++
    ((since15 v (writeOpt (writeList "properties" Property.writeXml) x.properties) []) ++
    ((since14 v (writeOpt (writeList "vulnerabilities" (Vulnerability.writeXml v)) x.vulnerabilities) []) ++
    ((since15 v (writeOpt (writeList "formulation" (Formula.writeXml v)) x.formulation) []))))))))))

/-- The local variables of the reader of `Bom` (`specs/common/bom.rs` 277-485). -/
structure Bom.Vars where
  metadata : Option Metadata := none
  components : Option (List Component) := none
  services : Option (List Service) := none
  externalReferences : Option (List ExternalReference) := none
  dependencies : Option (List Dependency) := none
  compositions : Option (List Composition) := none
  properties : Option (List Property) := none
  vulnerabilities : Option (List Vulnerability) := none
  signature : Option Signature := none
  annotations : Option (List Annotation) := none
  formulation : Option (List Formula) := none

/-- The tags that the reader of `Bom` knows (`specs/common/bom.rs` 277-485). -/
def Bom.arms (v : SpecVersion) : List (String × Arm Bom.Vars) :=
  [("metadata", arm (Metadata.readXml v) fun y s => { s with metadata := some y }),
   ("components", arm (readListLax "component" (Component.readXml v)) fun y s => { s with components := some y }),
   ("services", arm (readListLax "service" (Service.readXml v)) fun y s => { s with services := some y }),
   ("externalReferences", arm (readList "reference" ExternalReference.readXml) fun y s => { s with externalReferences := some y }),
   ("dependencies", arm (readList "dependency" Dependency.readXml) fun y s => { s with dependencies := some y }),
   ("compositions", arm (readListLax "composition" (Composition.readXml v)) fun y s => { s with compositions := some y })] ++
  since14 v [("vulnerabilities", arm (readListLax "vulnerability" (Vulnerability.readXml v)) fun y s => { s with vulnerabilities := some y }),
   ("signature", arm Signature.readXml fun y s => { s with signature := some y })] [] ++
  since15 v [("properties", arm (readListLax "property" Property.readXml) fun y s => { s with properties := some y }),
   ("annotations", arm (readList "annotation" (Annotation.readXml v)) fun y s => { s with annotations := some y }),
   ("formulation", arm (readList "formula" (Formula.readXml v)) fun y s => { s with formulation := some y })] []


/-- The version attribute of the root (`specs/common/bom.rs` 307-312). -/
def Bom.versionOfAttrs (attrs : List (String × String)) : Except XErr Nat :=
  match optAttr attrs "version" with
  | some s => parseU32Attr "version" s
  | none => .ok 1

/-- The namespace of the format (`specs/common/bom.rs` 72-77). -/
def SpecVersion.namespace : SpecVersion → String
  | .v1_3 => "http://cyclonedx.org/schema/bom/1.3"
  | .v1_4 => "http://cyclonedx.org/schema/bom/1.4"
  | .v1_5 => "http://cyclonedx.org/schema/bom/1.5"

/-- The loop over the children of the root (`specs/common/bom.rs` 338-452): its end tag is found by
the local name. -/
def Bom.readBody (v : SpecVersion) (el : XName) : XRead Bom.Vars := fun evs =>
  readLoop .skip (fun n => n.localName = "bom") el (Bom.arms v) (evs.length + 1) {} evs

/-- `Bom::read_xml_document` (`specs/common/bom.rs` 277-485) and the conversion of the result
(153-187), on the events of a document. -/
def Bom.readDocument (v : SpecVersion) : List XEvent → Except XErr Bom
  | .startDocument :: .start n attrs ns :: l =>
    if n.localName = "bom" then
      if ns = some v.namespace then do
        let version ← Bom.versionOfAttrs attrs
        let serialNumber := optAttr attrs "serialNumber"
        let (vars, l) ← Bom.readBody v n l
        match l with
        | .endDocument :: _ =>
          .ok { version := version,
                serialNumber := serialNumber,
                specVersion := v,
                metadata := vars.metadata,
                components := vars.components,
                services := vars.services,
                externalReferences := vars.externalReferences,
                dependencies := vars.dependencies,
                compositions := vars.compositions,
                properties := vars.properties,
                vulnerabilities := vars.vulnerabilities,
                signature := vars.signature,
                annotations := vars.annotations,
                formulation := vars.formulation }
        | [] => .error .eof
        | _ :: _ => .error (.unexpected "bom")
      else .error (.namespace ns)
    else .error (.unexpected "bom")
  | [] => .error .eof
  | [.startDocument] => .error .eof
  | _ => .error (.unexpected "bom")

mutual
/-- Whether the conversion of a component for version 1.3 succeeds (`specs/common/component.rs`
188-233): the component and all components in it, also those in pedigrees, have versions. -/
def Component.converts13 : Component → Bool
  | ⟨_, _, _, _, _, _, _, _, version, _, _, _, _, _, _, _, _, _, pedigree, _, _, components, _, _, _, _⟩ =>
    version.isSome && Pedigree.converts13Opt pedigree && Component.converts13Opt components

/-- Whether the conversion of an optional pedigree succeeds (`specs/common/component.rs`
1099-1112). -/
def Pedigree.converts13Opt : Option Pedigree → Bool
  | none => true
  | some ⟨ancestors, descendants, variants, _, _, _⟩ =>
    Component.converts13Opt ancestors && Component.converts13Opt descendants &&
      Component.converts13Opt variants

/-- Whether the conversion of an optional list of components succeeds (`specs/common/component.rs`
70-76). -/
def Component.converts13Opt : Option (List Component) → Bool
  | none => true
  | some l => Component.converts13All l

/-- Whether the conversion of a list of components succeeds (`utilities.rs` 34-41). -/
def Component.converts13All : List Component → Bool
  | [] => true
  | x :: l => Component.converts13 x && Component.converts13All l
end

/-- Whether the conversion to the structures of a version succeeds (`specs/common/bom.rs` 116-151,
`specs/common/metadata.rs` 75-92): only the conversion of components can fail, and only for
version 1.3, where tools, vulnerabilities, annotations and formulations hold no components. -/
def Bom.converts (v : SpecVersion) (b : Bom) : Bool :=
  match v with
  | .v1_3 =>
    (match b.metadata with
      | some m => (match m.component with | some c => c.converts13 | none => true)
      | none => true) && Component.converts13Opt b.components
  | .v1_4 | .v1_5 => true

/-- `Bom::output_as_json` (`models/bom.rs` 164-175, 227-235, 274-282, 314-322), up to the layout of
the text, which is left to the JSON library. -/
def Bom.outputJson (v : SpecVersion) (b : Bom) : Except String Json :=
  if b.converts v then .ok (b.toJson v) else .error "version missing"

/-- What `Bom::output_as_xml` hands to the XML library (`models/bom.rs` 189-200, 237-247, 284-294,
324-334): the default namespace of the root and the events. -/
def Bom.outputXml (v : SpecVersion) (b : Bom) : Except String (String × List WEvent) :=
  if b.converts v then .ok (v.namespace, b.writeXml v) else .error "version missing"

/-- `Bom::parse_from_json_with_version` (`models/bom.rs` 151-162, 202-208, 249-255, 296-302) after the
JSON library has parsed the text. -/
def Bom.parseJsonWith (v : SpecVersion) (j : Json) : Except String Bom := Bom.ofJson v j

/-- `Bom::parse_json_value` (`models/bom.rs` 135-149). -/
def Bom.parseJsonValue (j : Json) : Except String Bom :=
  match j with
  | .obj o =>
    match o.lookup "specVersion" with
    | some (.str s) =>
      match SpecVersion.ofString s with
      | some v => Bom.ofJson v j
      | none => .error "unsupported specVersion"
    | some _ => .error "unsupported specVersion"
    | none => .error "no specVersion"
  | _ => .error "no specVersion"

/-- `Bom::parse_from_json` (`models/bom.rs` 127-131) after the JSON library has parsed the text. -/
def Bom.parseJson (j : Json) : Except String Bom := Bom.parseJsonValue j.toValue

/-- `Bom::parse_from_xml_with_version` (`models/bom.rs` 177-187, 217-225, 264-272, 304-312) on the
events of the XML library. -/
def Bom.parseXmlWith (v : SpecVersion) (evs : List XEvent) : Except XErr Bom :=
  Bom.readDocument v evs

/-- The events that the XML library reports when it reads the document that it wrote for a root with
default namespace `ns` and the given events. -/
def document (ns : String) (w : List WEvent) : List XEvent :=
  .startDocument :: (deliver (some ns) [] w ++ [.endDocument])

end Cdx
