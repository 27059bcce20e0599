import Verif.Model.Limit
import Verif.Model.Format.Data

set_option linter.unusedVariables false

/-!
# File formats: services
-/

namespace Cdx

variable [ReadLimit]

mutual

/-- An optional list of `Service`s as JSON. -/
def Service.toJsonOpt (v : SpecVersion) : Option (List Service) → Option Json
  | none => none
  | some l => some (.arr (Service.toJsonAll v l))
termination_by structural l => l

/-- A list of `Service`s as JSON. -/
def Service.toJsonAll (v : SpecVersion) : List Service → List Json
  | [] => []
  | x :: l => Service.toJson v x :: Service.toJsonAll v l
termination_by structural l => l

/-- `Service` as JSON (`specs/common/service.rs` 113-149, conversion 151-207). -/
def Service.toJson (v : SpecVersion) : Service → Json
  | ⟨bomRef, provider, group, name, version, description, endpoints, authenticated, xTrustBoundary, data, licenses, externalReferences, properties, services, signature, trustZone⟩ =>
  .mk ([("bom-ref", bomRef.map Json.str),
    ("provider", provider.map OrganizationalEntity.toJson),
    ("group", group.map Json.str),
    ("name", some (Json.str name)),
    ("version", version.map Json.str),
    ("description", description.map Json.str),
    ("endpoints", endpoints.map (Json.ofList Json.str)),
    ("authenticated", authenticated.map Json.bool),
    ("x-trust-boundary", xTrustBoundary.map Json.bool),
    ("data", data.map (ServiceDataChoice.toJson v)),
    ("licenses", licenses.map (Licenses.toJson v)),
    ("externalReferences", externalReferences.map (Json.ofList ExternalReference.toJson)),
    ("properties", properties.map (Json.ofList Property.toJson)),
    ("services", Service.toJsonOpt v services)] ++
    since14 v [("signature", signature.map Signature.toJson)] [] ++
    since15 v [("trustZone", trustZone.map Json.str)] [])
termination_by structural x => x

end

mutual

/-- An optional list of `Service`s as XML. -/
def Service.writeXmlOpt (v : SpecVersion) (tag : String) : Option (List Service) → List WEvent
  | none => []
  | some l => writeElem tag [] (Service.writeXmlAll v l)
termination_by structural l => l

/-- A list of `Service`s as XML, without a tag around it. -/
def Service.writeXmlAll (v : SpecVersion) : List Service → List WEvent
  | [] => []
  | x :: l => Service.writeXml v x ++ Service.writeXmlAll v l
termination_by structural l => l

/-- `Service` as XML (`specs/common/service.rs` 257-350). -/
def Service.writeXml (v : SpecVersion) : Service → List WEvent
  | ⟨bomRef, provider, group, name, version, description, endpoints, authenticated, xTrustBoundary, data, licenses, externalReferences, properties, services, signature, trustZone⟩ =>
  writeElem "service" (mkAttrs [("bom-ref", bomRef)]) (
    (writeOpt (OrganizationalEntity.writeXml "provider") provider) ++
    ((writeOpt (writeSimple "group") group) ++
    (((writeSimple "name") name) ++
    ((writeOpt (writeSimple "version") version) ++
    ((writeOpt (writeSimple "description") description) ++
    ((writeOpt (writeList "endpoints" (writeSimple "endpoint")) endpoints) ++
    ((writeOpt (fun b => writeSimple "authenticated" (boolStr b)) authenticated) ++
    ((writeOpt (fun b => writeSimple "x-trust-boundary" (boolStr b)) xTrustBoundary) ++
    ((writeOpt (ServiceDataChoice.writeXml v) data) ++
    ((writeOpt (Licenses.writeXml v) licenses) ++
    ((writeOpt (writeList "externalReferences" ExternalReference.writeXml) externalReferences) ++
    ((writeOpt (writeList "properties" Property.writeXml) properties) ++
    ((Service.writeXmlOpt v "services" services) ++
    ((since14 v (writeOpt Signature.writeXml signature) []) ++
    ((since15 v (writeOpt (writeSimple "trustZone") trustZone) []))))))))))))))))
termination_by structural x => x

end

/-- `Service` from JSON (`specs/common/service.rs` 113-149, conversion 209-238), with the reader of nested values. -/
def Service.ofJsonWith (sub : Json → Except String Service) (v : SpecVersion) (j : Json) : Except String Service := do
  let o ← j.fields
  let bomRef' ← Json.opt o "bom-ref" Json.string
  let provider' ← Json.opt o "provider" OrganizationalEntity.ofJson
  let group' ← Json.opt o "group" Json.string
  let name' ← Json.req o "name" Json.string
  let version' ← Json.opt o "version" Json.string
  let description' ← Json.opt o "description" Json.string
  let endpoints' ← Json.opt o "endpoints" (Json.array Json.string)
  let authenticated' ← Json.opt o "authenticated" Json.boolean
  let xTrustBoundary' ← Json.opt o "x-trust-boundary" Json.boolean
  let data' ← Json.opt o "data" (ServiceDataChoice.ofJson v)
  let licenses' ← Json.opt o "licenses" (Licenses.ofJson v)
  let externalReferences' ← Json.opt o "externalReferences" (Json.array ExternalReference.ofJson)
  let properties' ← Json.opt o "properties" (Json.array Property.ofJson)
  let services' ← Json.opt o "services" (Json.array sub)
  let signature' ← since14 v (Json.opt o "signature" Signature.ofJson) (.ok none)
  let trustZone' ← since15 v (Json.opt o "trustZone" Json.string) (.ok none)
  .ok { bomRef := bomRef',
        provider := provider',
        group := group',
        name := name',
        version := version',
        description := description',
        endpoints := endpoints',
        authenticated := authenticated',
        xTrustBoundary := xTrustBoundary',
        data := data',
        licenses := licenses',
        externalReferences := externalReferences',
        properties := properties',
        services := services',
        signature := signature',
        trustZone := trustZone' }

/-- The local variables of the reader of `Service` (`specs/common/service.rs` 356-538). -/
structure Service.Vars where
  provider : Option OrganizationalEntity := none
  group : Option String := none
  name : Option String := none
  version : Option String := none
  description : Option String := none
  endpoints : Option (List String) := none
  authenticated : Option Bool := none
  xTrustBoundary : Option Bool := none
  data : Option ServiceDataChoice := none
  licenses : Option Licenses := none
  externalReferences : Option (List ExternalReference) := none
  properties : Option (List Property) := none
  services : Option (List Service) := none
  signature : Option Signature := none
  trustZone : Option String := none

/-- The tags that the reader of `Service` knows (`specs/common/service.rs` 356-538). -/
def Service.armsWith (sub : XElem Service) (v : SpecVersion) : List (String × Arm Service.Vars) :=
  [("provider", arm OrganizationalEntity.readXml fun y s => { s with provider := some y }),
   ("group", arm readSimple fun y s => { s with group := some y }),
   ("name", arm readSimple fun y s => { s with name := some y }),
   ("version", arm readSimple fun y s => { s with version := some y }),
   ("description", arm readSimple fun y s => { s with description := some y }),
   ("endpoints", arm (readList "endpoint" readSimple) fun y s => { s with endpoints := some y }),
   ("authenticated", arm readBool fun y s => { s with authenticated := some y }),
   ("x-trust-boundary", arm readBool fun y s => { s with xTrustBoundary := some y }),
   ("data", arm (ServiceDataChoice.readXml v) fun y s => { s with data := some y }),
   ("licenses", arm (Licenses.readXml v) fun y s => { s with licenses := some y }),
   ("externalReferences", arm (readList "reference" ExternalReference.readXml) fun y s => { s with externalReferences := some y }),
   ("properties", arm (readListLax "property" Property.readXml) fun y s => { s with properties := some y }),
   ("services", arm (readListLax "service" sub) fun y s => { s with services := some y })] ++
  since14 v [("signature", arm Signature.readXml fun y s => { s with signature := some y })] [] ++
  since15 v [("trustZone", arm readSimple fun y s => { s with trustZone := some y })] []

/-- `Service` from XML (`specs/common/service.rs` 356-538), with the reader of nested values. -/
def Service.readXmlWith (sub : XElem Service) (v : SpecVersion) : XElem Service :=
  readStruct .skip (fun el attrs => do
      .ok (optAttr attrs "bom-ref"))
    ({} : Service.Vars) (Service.armsWith sub v) (fun el a0 vars => do
      let name' ← required "name" el vars.name
      .ok { bomRef := a0,
            provider := vars.provider,
            group := vars.group,
            name := name',
            version := vars.version,
            description := vars.description,
            endpoints := vars.endpoints,
            authenticated := vars.authenticated,
            xTrustBoundary := vars.xTrustBoundary,
            data := vars.data,
            licenses := vars.licenses,
            externalReferences := vars.externalReferences,
            properties := vars.properties,
            services := vars.services,
            signature := vars.signature,
            trustZone := vars.trustZone })

/-- `Service` from JSON, with at most `n` levels of nested `Service`s: the code recurses without a limit of
its own (`specs/common/service.rs` 83-111, 356-538). -/
def Service.ofJsonN (v : SpecVersion) : Nat → Json → Except String Service
  | 0, _ => .error "recursion limit exceeded"
  | n + 1, j => Service.ofJsonWith (Service.ofJsonN v n) v j

/-- `Service` from JSON, as deep as the limit on reading allows. -/
def Service.ofJson (v : SpecVersion) : Json → Except String Service := Service.ofJsonN v ReadLimit.limit

/-- `Service` from XML, with at most `n` levels of nested `Service`s: the code recurses without a limit of
its own (`specs/common/service.rs` 83-111, 356-538). -/
def Service.readXmlN (v : SpecVersion) : Nat → XElem Service
  | 0 => fun _ _ _ => .error .depth
  | n + 1 => Service.readXmlWith (Service.readXmlN v n) v

/-- `Service` from XML, as deep as the limit on reading allows. -/
def Service.readXml (v : SpecVersion) : XElem Service := Service.readXmlN v ReadLimit.limit

end Cdx
