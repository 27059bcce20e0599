import Verif.Model.Format.Basic

set_option linter.unusedVariables false

/-!
# File formats: licenses
-/

namespace Cdx

/-- `LicenseContact` as JSON (`specs/v1_5/licensing.rs` 93-97, conversion 108-115). -/
def LicenseContact.toJson : LicenseContact → Json
  | .organization y => .obj [("organization", OrganizationalEntity.toJson y)]
  | .contact y => .obj [("individual", OrganizationalContact.toJson y)]

/-- `LicenseContact` from JSON (`specs/v1_5/licensing.rs` 93-97, conversion 99-106). -/
def LicenseContact.ofJson : Json → Except String LicenseContact :=
  Json.tagged
  [("organization", fun j => (OrganizationalEntity.ofJson j).map .organization),
   ("individual", fun j => (OrganizationalContact.ofJson j).map .contact)]

/-- The content of a `LicenseContact` as XML (`specs/v1_5/licensing.rs` 120-148). -/
def LicenseContact.writeInner : LicenseContact → List WEvent
  | .organization y => (OrganizationalEntity.writeXml "organization") y
  | .contact y => (OrganizationalContact.writeXml "individual") y

/-- `LicenseContact` as XML (`specs/v1_5/licensing.rs` 120-148). -/
def LicenseContact.writeXml (tag : String) (x : LicenseContact) : List WEvent :=
  writeElem tag [] (LicenseContact.writeInner x)

/-- The tags that the reader of `LicenseContact` knows (`specs/v1_5/licensing.rs` 150-201). -/
def LicenseContact.arms : List (String × Arm (Option LicenseContact)) :=
  [("organization", arm OrganizationalEntity.readXml fun y _ => some (.organization y)),
   ("individual", arm OrganizationalContact.readXml fun y _ => some (.contact y))]

/-- `LicenseContact` from XML (`specs/v1_5/licensing.rs` 150-201). -/
def LicenseContact.readXml : XElem LicenseContact :=
  readStruct .fail (fun _ _ => .ok ()) none LicenseContact.arms fun el _ x => required "contact" el x

/-- `Licensing` as JSON (`specs/v1_5/licensing.rs` 37-47, conversion 73-90). -/
def Licensing.toJson (x : Licensing) : Json :=
  .mk [("altIds", some (Json.orNull (Json.ofList Json.str) x.altIds)),
    ("licensor", some (Json.orNull LicenseContact.toJson x.licensor)),
    ("licensee", some (Json.orNull LicenseContact.toJson x.licensee)),
    ("purchaser", some (Json.orNull LicenseContact.toJson x.purchaser)),
    ("purchaseOrder", some (Json.orNull Json.str x.purchaseOrder)),
    ("licenseTypes", some (Json.orNull (Json.ofList (Json.ofEnum LicenseType.display)) x.licenseTypes)),
    ("lastRenewal", some (Json.orNull Json.str x.lastRenewal)),
    ("expiration", some (Json.orNull Json.str x.expiration))]

/-- `Licensing` from JSON (`specs/v1_5/licensing.rs` 37-47, conversion 49-71). -/
def Licensing.ofJson (j : Json) : Except String Licensing := do
  let o ← j.fields
  let altIds' ← Json.opt o "altIds" (Json.array Json.string)
  let licensor' ← Json.opt o "licensor" LicenseContact.ofJson
  let licensee' ← Json.opt o "licensee" LicenseContact.ofJson
  let purchaser' ← Json.opt o "purchaser" LicenseContact.ofJson
  let purchaseOrder' ← Json.opt o "purchaseOrder" Json.string
  let licenseTypes' ← Json.opt o "licenseTypes" (Json.array (Json.enum LicenseType.new))
  let lastRenewal' ← Json.opt o "lastRenewal" Json.string
  let expiration' ← Json.opt o "expiration" Json.string
  .ok { altIds := altIds',
        licensor := licensor',
        licensee := licensee',
        purchaser := purchaser',
        purchaseOrder := purchaseOrder',
        licenseTypes := licenseTypes',
        lastRenewal := lastRenewal',
        expiration := expiration' }

/-- `Licensing` as XML (`specs/v1_5/licensing.rs` 215-270). -/
def Licensing.writeXml (x : Licensing) : List WEvent :=
  writeElem "licensing" [] (
    (writeOpt (writeList "altIds" (writeSimple "altId")) x.altIds) ++
    ((writeOpt (LicenseContact.writeXml "licensor") x.licensor) ++
    ((writeOpt (LicenseContact.writeXml "licensee") x.licensee) ++
    ((writeOpt (LicenseContact.writeXml "purchaser") x.purchaser) ++
    ((writeOpt (writeSimple "purchaseOrder") x.purchaseOrder) ++
    ((writeOpt (writeList "licenseTypes" (fun e => writeSimple "licenseType" (LicenseType.display e))) x.licenseTypes) ++
    ((writeOpt (writeSimple "lastRenewal") x.lastRenewal) ++
    ((writeOpt (writeSimple "expiration") x.expiration)))))))))

/-- The local variables of the reader of `Licensing` (`specs/v1_5/licensing.rs` 272-372). -/
structure Licensing.Vars where
  altIds : Option (List String) := none
  licensor : Option LicenseContact := none
  licensee : Option LicenseContact := none
  purchaser : Option LicenseContact := none
  purchaseOrder : Option String := none
  licenseTypes : Option (List LicenseType) := none
  lastRenewal : Option String := none
  expiration : Option String := none

/-- The tags that the reader of `Licensing` knows (`specs/v1_5/licensing.rs` 272-372). -/
def Licensing.arms : List (String × Arm Licensing.Vars) :=
  [("altIds", arm (readList "altId" readSimple) fun y s => { s with altIds := some y }),
   ("licensor", arm LicenseContact.readXml fun y s => { s with licensor := some y }),
   ("licensee", arm LicenseContact.readXml fun y s => { s with licensee := some y }),
   ("purchaser", arm LicenseContact.readXml fun y s => { s with purchaser := some y }),
   ("purchaseOrder", arm readSimple fun y s => { s with purchaseOrder := some y }),
   ("licenseTypes", arm (readList "licenseType" (readSimple.map LicenseType.new)) fun y s => { s with licenseTypes := some y }),
   ("lastRenewal", arm readSimple fun y s => { s with lastRenewal := some y }),
   ("expiration", arm readSimple fun y s => { s with expiration := some y })]

/-- `Licensing` from XML (`specs/v1_5/licensing.rs` 272-372). -/
def Licensing.readXml : XElem Licensing :=
  readStruct .fail (fun _ _ => .ok ())
    ({} : Licensing.Vars) Licensing.arms (fun _ _ vars =>
      .ok { altIds := vars.altIds,
            licensor := vars.licensor,
            licensee := vars.licensee,
            purchaser := vars.purchaser,
            purchaseOrder := vars.purchaseOrder,
            licenseTypes := vars.licenseTypes,
            lastRenewal := vars.lastRenewal,
            expiration := vars.expiration })

/-- The members that a flattened `LicenseIdentifier` adds to an object (`specs/common/license.rs` 413-419, conversion 421-428). -/
def LicenseIdentifier.toFields : LicenseIdentifier → List (String × Option Json)
  | .spdxId y => [("id", some (Json.str y))]
  | .name y => [("name", some (Json.str y))]

/-- A flattened `LicenseIdentifier` from the members of an object (`specs/common/license.rs` 413-419, conversion 430-437). -/
def LicenseIdentifier.ofFields (o : List (String × Json)) : Except String LicenseIdentifier :=
  Json.flatVariant o
  [("id", fun j => (Json.string j).map .spdxId),
   ("name", fun j => (Json.string j).map .name)]

/-- `LicenseIdentifier` as XML (`specs/common/license.rs` 442-458). -/
def LicenseIdentifier.writeXml : LicenseIdentifier → List WEvent
  | .spdxId y => (writeSimple "id") y
  | .name y => (writeSimple "name") y

/-- `License` as JSON (`specs/common/license.rs` 197-215, conversion 217-231).
Simplification: members of later versions come last; the order of members is not significant (C80). -/
def License.toJson (v : SpecVersion) (x : License) : Json :=
  .mk (LicenseIdentifier.toFields x.licenseIdentifier ++
    [("text", x.text.map AttachedText.toJson),
    ("url", x.url.map Json.str)] ++
    since15 v [("bomRef", x.bomRef.map Json.str),
    ("licensing", x.licensing.map Licensing.toJson),
    ("properties", x.properties.map (Json.ofList Property.toJson))] [])

/-- `License` from JSON (`specs/common/license.rs` 197-215, conversion 233-253). -/
def License.ofJson (v : SpecVersion) (j : Json) : Except String License := do
  let o ← j.fields
  let bomRef' ← since15 v (Json.opt o "bomRef" Json.string) (.ok none)
  let licenseIdentifier' ← LicenseIdentifier.ofFields o
  let text' ← Json.opt o "text" AttachedText.ofJson
  let url' ← Json.opt o "url" Json.string
  let licensing' ← since15 v (Json.opt o "licensing" Licensing.ofJson) (.ok none)
  let properties' ← since15 v (Json.opt o "properties" (Json.array Property.ofJson)) (.ok none)
  .ok { bomRef := bomRef',
        licenseIdentifier := licenseIdentifier',
        text := text',
        url := url',
        licensing := licensing',
        properties := properties' }

/-- `License` as XML (`specs/common/license.rs` 263-303). -/
def License.writeXml (v : SpecVersion) (x : License) : List WEvent :=
  writeElem "license" (mkAttrs [("bom-ref", since15 v x.bomRef none)]) (
    (LicenseIdentifier.writeXml x.licenseIdentifier) ++
    ((writeOpt (AttachedText.writeXml "text") x.text) ++
    ((writeOpt (writeSimple "url") x.url) ++
    ((since15 v (writeOpt (writeList "properties" Property.writeXml) x.properties) [])))))

/-- The local variables of the reader of `License` (`specs/common/license.rs` 305-411). -/
structure License.Vars where
  licenseIdentifier : Option LicenseIdentifier := none
  text : Option AttachedText := none
  url : Option String := none
  licensing : Option Licensing := none
  properties : Option (List Property) := none

/-- The tags that the reader of `License` knows (`specs/common/license.rs` 305-411). -/
def License.arms (v : SpecVersion) : List (String × Arm License.Vars) :=
  [("id", armOnce readInner (fun s => s.licenseIdentifier.isSome) fun y s =>
      { s with licenseIdentifier := some (.spdxId y) }),
   ("name", armOnce readInner (fun s => s.licenseIdentifier.isSome) fun y s =>
      { s with licenseIdentifier := some (.name y) }),
   ("text", arm AttachedText.readXml fun y s => { s with text := some y }),
   ("url", arm readSimple fun y s => { s with url := some y })] ++
  since15 v [("licensing", arm Licensing.readXml fun y s => { s with licensing := some y }),
   ("properties", arm (readListLax "property" Property.readXml) fun y s => { s with properties := some y })] []

/-- `License` from XML (`specs/common/license.rs` 305-411). -/
def License.readXml (v : SpecVersion) : XElem License :=
  readStruct .skip (fun el attrs => do
      .ok (since15 v (optAttr attrs "bom-ref") none))
    ({} : License.Vars) (License.arms v) (fun el a0 vars => do
      let licenseIdentifier' ← required "id or name" el vars.licenseIdentifier
      .ok { bomRef := a0,
            licenseIdentifier := licenseIdentifier',
            text := vars.text,
            url := vars.url,
            licensing := vars.licensing,
            properties := vars.properties })

/-- `SpdxExpression` as JSON (`specs/common/license.rs` 504-510, conversion 531-538). -/
def SpdxExpression.toJson (x : SpdxExpression) : Json :=
  .mk [("bomRef", x.bomRef.map Json.str),
    ("expression", some (Json.str x.expression))]

/-- `SpdxExpression` from JSON (`specs/common/license.rs` 504-510, conversion 522-529). -/
def SpdxExpression.ofJson (j : Json) : Except String SpdxExpression := do
  let o ← j.fields
  let bomRef' ← Json.opt o "bomRef" Json.string
  let expression' ← Json.req o "expression" Json.string
  .ok { bomRef := bomRef',
        expression := expression' }

/-- `SpdxExpression` as XML (`specs/common/license.rs` 540-563). -/
def SpdxExpression.writeXml (x : SpdxExpression) : List WEvent :=
  writeElem "expression" (mkAttrs [("bom-ref", x.bomRef)]) [.chars x.expression]

/-- `SpdxExpression` from XML (`specs/common/license.rs` 565-582). -/
def SpdxExpression.readXml : XElem SpdxExpression :=
  readWith (fun el attrs => do
      .ok (optAttr attrs "bom-ref")) readSimple
    fun a0 s => { bomRef := a0, expression := s }

/-- `LicenseChoice` as JSON (`specs/common/license.rs` 121-128, conversion 130-137): a license is
tagged, an expression is not. -/
def LicenseChoice.toJson (v : SpecVersion) : LicenseChoice → Json
  | .license l => .obj [("license", License.toJson v l)]
  | .expression e => SpdxExpression.toJson e

/-- `LicenseChoice` from JSON (`specs/common/license.rs` 121-128, conversion 139-146): what cannot
be read as the tagged variant is read as the untagged one. -/
def LicenseChoice.ofJson (v : SpecVersion) (j : Json) : Except String LicenseChoice :=
  match Json.tagged [("license", fun j => (License.ofJson v j).map .license)] j with
  | .ok x => .ok x
  | .error _ => (SpdxExpression.ofJson j).map .expression

/-- `LicenseChoice` as XML (`specs/common/license.rs` 151-167). -/
def LicenseChoice.writeXml (v : SpecVersion) : LicenseChoice → List WEvent
  | .license l => License.writeXml v l
  | .expression e => SpdxExpression.writeXml e

/-- `Licenses` as JSON (`specs/common/license.rs` 46-54). -/
def Licenses.toJson (v : SpecVersion) (l : Licenses) : Json := Json.ofList (LicenseChoice.toJson v) l

/-- `Licenses` from JSON (`specs/common/license.rs` 46-60). -/
def Licenses.ofJson (v : SpecVersion) (j : Json) : Except String Licenses :=
  Json.array (LicenseChoice.ofJson v) j

/-- `Licenses` as XML (`specs/common/license.rs` 64-82). -/
def Licenses.writeXml (v : SpecVersion) (l : Licenses) : List WEvent :=
  writeList "licenses" (LicenseChoice.writeXml v) l

/-- The tags that the reader of `Licenses` knows (`specs/common/license.rs` 96-115, 169-195). -/
def Licenses.arms (v : SpecVersion) : List (String × Arm Licenses) :=
  [("license", arm (License.readXml v) fun y l => l ++ [.license y]),
   ("expression", arm SpdxExpression.readXml fun y l => l ++ [.expression y])]

/-- `Licenses` from XML (`specs/common/license.rs` 84-119). -/
def Licenses.readXml (v : SpecVersion) : XElem Licenses :=
  readStruct .fail (fun _ _ => .ok ()) [] (Licenses.arms v) fun _ _ l => .ok l

end Cdx
