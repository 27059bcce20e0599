import Verif.Model.Xml
import Verif.Model.Types

set_option linter.unusedVariables false

/-!
# File formats: texts, hashes, properties, organizations, references
-/

namespace Cdx

/-- `AttachedText` as JSON (`specs/common/attached_text.rs` 28-36, conversion 38-46). -/
def AttachedText.toJson (x : AttachedText) : Json :=
  .mk [("contentType", x.contentType.map Json.str),
    ("encoding", x.encoding.map (Json.ofEnum Encoding.display)),
    ("content", some (Json.str x.content))]

/-- `AttachedText` from JSON (`specs/common/attached_text.rs` 28-36, conversion 48-58). -/
def AttachedText.ofJson (j : Json) : Except String AttachedText := do
  let o ← j.fields
  let contentType' ← Json.opt o "contentType" Json.string
  let encoding' ← Json.opt o "encoding" (Json.enum Encoding.new)
  let content' ← Json.req o "content" Json.string
  .ok { contentType := contentType',
        encoding := encoding',
        content := content' }

/-- `AttachedText` as XML (`specs/common/attached_text.rs` 63-91). -/
def AttachedText.writeXml (tag : String) (x : AttachedText) : List WEvent :=
  writeElem tag (mkAttrs [("content-type", x.contentType), ("encoding", x.encoding.map Encoding.display)]) [.chars x.content]

/-- `AttachedText` from XML (`specs/common/attached_text.rs` 93-129). -/
def AttachedText.readXml : XElem AttachedText :=
  readWith (fun el attrs => do
      .ok (optAttr attrs "content-type", optAttr attrs "encoding")) readInner
    fun (a0, a1) s => { contentType := a0, encoding := a1.map Encoding.new, content := s }

/-- `Property` as JSON (`specs/common/property.rs` 79-84, conversion 86-93). -/
def Property.toJson (x : Property) : Json :=
  .mk [("name", some (Json.str x.name)),
    ("value", some (Json.str x.value))]

/-- `Property` from JSON (`specs/common/property.rs` 79-84, conversion 95-102). -/
def Property.ofJson (j : Json) : Except String Property := do
  let o ← j.fields
  let name' ← Json.req o "name" Json.string
  let value' ← Json.req o "value" Json.string
  .ok { name := name',
        value := value' }

/-- `Property` as XML (`specs/common/property.rs` 107-124). -/
def Property.writeXml (x : Property) : List WEvent :=
  writeElem "property" (mkAttrs [("name", some x.name)]) [.chars x.value]

/-- `Property` from XML (`specs/common/property.rs` 126-139). -/
def Property.readXml : XElem Property :=
  readWith (fun el attrs => do
      let a0 ← reqAttr el attrs "name"
      .ok (a0)) readSimple
    fun a0 s => { name := a0, value := s }

/-- `Hash` as JSON (`specs/common/hash.rs` 79-84, 146-159, conversion 86-93). -/
def Hash.toJson (x : Hash) : Json :=
  .mk [("alg", some ((Json.ofEnum HashAlgorithm.display) x.alg)),
    ("content", some (Json.str x.content))]

/-- `Hash` from JSON (`specs/common/hash.rs` 79-84, 146-159, conversion 95-102). -/
def Hash.ofJson (j : Json) : Except String Hash := do
  let o ← j.fields
  let alg' ← Json.req o "alg" (Json.enum HashAlgorithm.new)
  let content' ← Json.req o "content" Json.string
  .ok { alg := alg',
        content := content' }

/-- `Hash` as XML (`specs/common/hash.rs` 107-125). -/
def Hash.writeXml (x : Hash) : List WEvent :=
  writeElem "hash" (mkAttrs [("alg", some (HashAlgorithm.display x.alg))]) [.chars x.content]

/-- `Hash` from XML (`specs/common/hash.rs` 127-144). -/
def Hash.readXml : XElem Hash :=
  readWith (fun el attrs => do
      let a0 ← reqAttr el attrs "alg"
      .ok (a0)) readSimple
    fun a0 s => { alg := HashAlgorithm.new a0, content := s }

/-- `OrganizationalContact` as JSON (`specs/common/organization.rs` 33-44, conversion 46-55). -/
def OrganizationalContact.toJson (x : OrganizationalContact) : Json :=
  .mk [("bomRef", x.bomRef.map Json.str),
    ("name", x.name.map Json.str),
    ("email", x.email.map Json.str),
    ("phone", x.phone.map Json.str)]

/-- `OrganizationalContact` from JSON (`specs/common/organization.rs` 33-44, conversion 57-66). -/
def OrganizationalContact.ofJson (j : Json) : Except String OrganizationalContact := do
  let o ← j.fields
  let bomRef' ← Json.opt o "bomRef" Json.string
  let name' ← Json.opt o "name" Json.string
  let email' ← Json.opt o "email" Json.string
  let phone' ← Json.opt o "phone" Json.string
  .ok { bomRef := bomRef',
        name := name',
        email := email',
        phone := phone' }

/-- `OrganizationalContact` as XML (`specs/common/organization.rs` 74-102). -/
def OrganizationalContact.writeXml (tag : String) (x : OrganizationalContact) : List WEvent :=
  writeElem tag (mkAttrs [("bom-ref", x.bomRef)]) (
    (writeOpt (writeSimple "name") x.name) ++
    ((writeOpt (writeSimple "email") x.email) ++
    ((writeOpt (writeSimple "phone") x.phone))))

/-- The local variables of the reader of `OrganizationalContact` (`specs/common/organization.rs` 109-157). -/
structure OrganizationalContact.Vars where
  name : Option String := none
  email : Option String := none
  phone : Option String := none

/-- The tags that the reader of `OrganizationalContact` knows (`specs/common/organization.rs` 109-157). -/
def OrganizationalContact.arms : List (String × Arm OrganizationalContact.Vars) :=
  [("name", arm readSimple fun y s => { s with name := some y }),
   ("email", arm readSimple fun y s => { s with email := some y }),
   ("phone", arm readSimple fun y s => { s with phone := some y })]

/-- `OrganizationalContact` from XML (`specs/common/organization.rs` 109-157). -/
def OrganizationalContact.readXml : XElem OrganizationalContact :=
  readStruct .skip (fun el attrs => do
      .ok (optAttr attrs "bom-ref"))
    ({} : OrganizationalContact.Vars) OrganizationalContact.arms (fun _ a0 vars =>
      .ok { bomRef := a0,
            name := vars.name,
            email := vars.email,
            phone := vars.phone })

/-- `OrganizationalContact::will_write` (`specs/common/organization.rs` 104-106). -/
def OrganizationalContact.willWrite (x : OrganizationalContact) : Bool :=
  x.name.isSome || x.email.isSome || x.phone.isSome

/-- `OrganizationalEntity` as JSON (`specs/common/organization.rs` 159-170, conversion 184-195). -/
def OrganizationalEntity.toJson (x : OrganizationalEntity) : Json :=
  .mk [("bomRef", x.bomRef.map Json.str),
    ("name", x.name.map Json.str),
    ("url", x.url.map (Json.ofList Json.str)),
    ("contact", x.contact.map (Json.ofList OrganizationalContact.toJson))]

/-- `OrganizationalEntity` from JSON (`specs/common/organization.rs` 159-170, conversion 197-206). -/
def OrganizationalEntity.ofJson (j : Json) : Except String OrganizationalEntity := do
  let o ← j.fields
  let bomRef' ← Json.opt o "bomRef" Json.string
  let name' ← Json.opt o "name" Json.string
  let url' ← Json.opt o "url" (Json.array Json.string)
  let contact' ← Json.opt o "contact" (Json.array OrganizationalContact.ofJson)
  .ok { bomRef := bomRef',
        name := name',
        url := url',
        contact := contact' }

/-- `OrganizationalEntity` as XML (`specs/common/organization.rs` 211-253). -/
def OrganizationalEntity.writeXml (tag : String) (x : OrganizationalEntity) : List WEvent :=
  writeElem tag (mkAttrs [("bom-ref", x.bomRef)]) (
    (writeOpt (writeSimple "name") x.name) ++
    ((writeOpt (fun l => l.flatMap (writeSimple "url")) x.url) ++
    ((writeOpt (fun l => l.flatMap (fun c => if OrganizationalContact.willWrite c then OrganizationalContact.writeXml "contact" c else [])) x.contact))))

/-- The local variables of the reader of `OrganizationalEntity` (`specs/common/organization.rs` 255-312). -/
structure OrganizationalEntity.Vars where
  name : Option String := none
  url : Option (List String) := none
  contact : Option (List OrganizationalContact) := none

/-- The tags that the reader of `OrganizationalEntity` knows (`specs/common/organization.rs` 255-312). -/
def OrganizationalEntity.arms : List (String × Arm OrganizationalEntity.Vars) :=
  [("name", arm readSimple fun y s => { s with name := some y }),
   ("url", arm readSimple fun y s =>
      { s with url := some (s.url.getD [] ++ [y]) }),
   ("contact", arm OrganizationalContact.readXml fun y s =>
      { s with contact := some (s.contact.getD [] ++ [y]) })]

/-- `OrganizationalEntity` from XML (`specs/common/organization.rs` 255-312). -/
def OrganizationalEntity.readXml : XElem OrganizationalEntity :=
  readStruct .skip (fun el attrs => do
      .ok (optAttr attrs "bom-ref"))
    ({} : OrganizationalEntity.Vars) OrganizationalEntity.arms (fun _ a0 vars =>
      .ok { bomRef := a0,
            name := vars.name,
            url := vars.url,
            contact := vars.contact })

/-- `OrganizationalEntity::will_write` (`specs/common/organization.rs` 250-252). -/
def OrganizationalEntity.willWrite (x : OrganizationalEntity) : Bool :=
  x.name.isSome || x.url.isSome || x.contact.isSome

/-- `ExternalReference` as JSON (`specs/common/external_reference.rs` 85-95, conversion 97-106). -/
def ExternalReference.toJson (x : ExternalReference) : Json :=
  .mk [("type", some ((Json.ofEnum ExternalReferenceType.display) x.externalReferenceType)),
    ("url", some ((Json.ofEnum RefUri.display) x.url)),
    ("comment", x.comment.map Json.str),
    ("hashes", x.hashes.map (Json.ofList Hash.toJson))]

/-- `ExternalReference` from JSON (`specs/common/external_reference.rs` 85-95, conversion 108-120). -/
def ExternalReference.ofJson (j : Json) : Except String ExternalReference := do
  let o ← j.fields
  let externalReferenceType' ← Json.req o "type" (Json.enum ExternalReferenceType.new)
  let url' ← Json.req o "url" (Json.enum RefUri.ofUrl)
  let comment' ← Json.opt o "comment" Json.string
  let hashes' ← Json.opt o "hashes" (Json.array Hash.ofJson)
  .ok { externalReferenceType := externalReferenceType',
        url := url',
        comment := comment',
        hashes := hashes' }

/-- `ExternalReference` as XML (`specs/common/external_reference.rs` 127-155). -/
def ExternalReference.writeXml (x : ExternalReference) : List WEvent :=
  writeElem "reference" (mkAttrs [("type", some (ExternalReferenceType.display x.externalReferenceType))]) (
    ((fun e => writeSimple "url" (RefUri.display e)) x.url) ++
    ((writeOpt (writeSimple "comment") x.comment) ++
    ((writeOpt (writeList "hashes" Hash.writeXml) x.hashes))))

/-- The local variables of the reader of `ExternalReference` (`specs/common/external_reference.rs` 159-211). -/
structure ExternalReference.Vars where
  url : Option RefUri := none
  comment : Option String := none
  hashes : Option (List Hash) := none

/-- The tags that the reader of `ExternalReference` knows (`specs/common/external_reference.rs` 159-211). -/
def ExternalReference.arms : List (String × Arm ExternalReference.Vars) :=
  [("url", arm (readSimple.map RefUri.ofUrl) fun y s => { s with url := some y }),
   ("comment", arm readSimple fun y s => { s with comment := some y }),
   ("hashes", arm (readList "hash" Hash.readXml) fun y s => { s with hashes := some y })]

/-- `ExternalReference` from XML (`specs/common/external_reference.rs` 159-211). -/
def ExternalReference.readXml : XElem ExternalReference :=
  readStruct .fail (fun el attrs => do
      let a0 ← reqAttr el attrs "type"
      .ok (a0))
    ({} : ExternalReference.Vars) ExternalReference.arms (fun el a0 vars => do
      let url' ← required "url" el vars.url
      .ok { externalReferenceType := ExternalReferenceType.new a0,
            url := url',
            comment := vars.comment,
            hashes := vars.hashes })

/-- `VulnerabilitySource` as JSON (`specs/common/vulnerability_source.rs` 31-38, conversion 40-47). -/
def VulnerabilitySource.toJson (x : VulnerabilitySource) : Json :=
  .mk [("name", x.name.map Json.str),
    ("url", x.url.map Json.str)]

/-- `VulnerabilitySource` from JSON (`specs/common/vulnerability_source.rs` 31-38, conversion 49-56). -/
def VulnerabilitySource.ofJson (j : Json) : Except String VulnerabilitySource := do
  let o ← j.fields
  let name' ← Json.opt o "name" Json.string
  let url' ← Json.opt o "url" Json.string
  .ok { name := name',
        url := url' }

/-- `VulnerabilitySource` as XML (`specs/common/vulnerability_source.rs` 62-87). -/
def VulnerabilitySource.writeXml (x : VulnerabilitySource) : List WEvent :=
  writeElem "source" [] (
    (writeOpt (writeSimple "name") x.name) ++
    ((writeOpt (writeSimple "url") x.url)))

/-- The local variables of the reader of `VulnerabilitySource` (`specs/common/vulnerability_source.rs` 89-131). -/
structure VulnerabilitySource.Vars where
  name : Option String := none
  url : Option String := none

/-- The tags that the reader of `VulnerabilitySource` knows (`specs/common/vulnerability_source.rs` 89-131). -/
def VulnerabilitySource.arms : List (String × Arm VulnerabilitySource.Vars) :=
  [("name", arm readSimple fun y s => { s with name := some y }),
   ("url", arm readSimple fun y s => { s with url := some y })]

/-- `VulnerabilitySource` from XML (`specs/common/vulnerability_source.rs` 89-131). -/
def VulnerabilitySource.readXml : XElem VulnerabilitySource :=
  readStruct .skip (fun _ _ => .ok ())
    ({} : VulnerabilitySource.Vars) VulnerabilitySource.arms (fun _ _ vars =>
      .ok { name := vars.name,
            url := vars.url })

/-- `VulnerabilityReference` as JSON (`specs/common/vulnerability_reference.rs` 84-90, conversion 92-99). -/
def VulnerabilityReference.toJson (x : VulnerabilityReference) : Json :=
  .mk [("id", some (Json.str x.id)),
    ("source", some (VulnerabilitySource.toJson x.vulnerabilitySource))]

/-- `VulnerabilityReference` from JSON (`specs/common/vulnerability_reference.rs` 84-90, conversion 101-110). -/
def VulnerabilityReference.ofJson (j : Json) : Except String VulnerabilityReference := do
  let o ← j.fields
  let id' ← Json.req o "id" Json.string
  let vulnerabilitySource' ← Json.req o "source" VulnerabilitySource.ofJson
  .ok { id := id',
        vulnerabilitySource := vulnerabilitySource' }

/-- `VulnerabilityReference` as XML (`specs/common/vulnerability_reference.rs` 116-138). -/
def VulnerabilityReference.writeXml (x : VulnerabilityReference) : List WEvent :=
  writeElem "reference" [] (
    ((writeSimple "id") x.id) ++
    ((VulnerabilitySource.writeXml x.vulnerabilitySource)))

/-- The local variables of the reader of `VulnerabilityReference` (`specs/common/vulnerability_reference.rs` 140-199). -/
structure VulnerabilityReference.Vars where
  id : Option String := none
  vulnerabilitySource : Option VulnerabilitySource := none

/-- The tags that the reader of `VulnerabilityReference` knows (`specs/common/vulnerability_reference.rs` 140-199). -/
def VulnerabilityReference.arms : List (String × Arm VulnerabilityReference.Vars) :=
  [("id", arm readSimple fun y s => { s with id := some y }),
   ("source", arm VulnerabilitySource.readXml fun y s => { s with vulnerabilitySource := some y })]

/-- `VulnerabilityReference` from XML (`specs/common/vulnerability_reference.rs` 140-199). -/
def VulnerabilityReference.readXml : XElem VulnerabilityReference :=
  readStruct .skip (fun _ _ => .ok ())
    ({} : VulnerabilityReference.Vars) VulnerabilityReference.arms (fun el _ vars => do
      let id' ← required "id" el vars.id
      let vulnerabilitySource' ← required "source" el vars.vulnerabilitySource
      .ok { id := id',
            vulnerabilitySource := vulnerabilitySource' })

/-- `Advisory` as JSON (`specs/common/advisory.rs` 81-87, conversion 89-96). -/
def Advisory.toJson (x : Advisory) : Json :=
  .mk [("title", x.title.map Json.str),
    ("url", some (Json.str x.url))]

/-- `Advisory` from JSON (`specs/common/advisory.rs` 81-87, conversion 98-105). -/
def Advisory.ofJson (j : Json) : Except String Advisory := do
  let o ← j.fields
  let title' ← Json.opt o "title" Json.string
  let url' ← Json.req o "url" Json.string
  .ok { title := title',
        url := url' }

/-- `Advisory` as XML (`specs/common/advisory.rs` 111-134). -/
def Advisory.writeXml (x : Advisory) : List WEvent :=
  writeElem "advisory" [] (
    (writeOpt (writeSimple "title") x.title) ++
    (((writeSimple "url") x.url)))

/-- The local variables of the reader of `Advisory` (`specs/common/advisory.rs` 136-180). -/
structure Advisory.Vars where
  title : Option String := none
  url : Option String := none

/-- The tags that the reader of `Advisory` knows (`specs/common/advisory.rs` 136-180). -/
def Advisory.arms : List (String × Arm Advisory.Vars) :=
  [("title", arm readSimple fun y s => { s with title := some y }),
   ("url", arm readSimple fun y s => { s with url := some y })]

/-- `Advisory` from XML (`specs/common/advisory.rs` 136-180). -/
def Advisory.readXml : XElem Advisory :=
  readStruct .skip (fun _ _ => .ok ())
    ({} : Advisory.Vars) Advisory.arms (fun el _ vars => do
      let url' ← required "url" el vars.url
      .ok { title := vars.title,
            url := url' })

/-- `VulnerabilityCredits` as JSON (`specs/common/vulnerability_credits.rs` 33-40, conversion 42-49). -/
def VulnerabilityCredits.toJson (x : VulnerabilityCredits) : Json :=
  .mk [("organizations", x.organizations.map (Json.ofList OrganizationalEntity.toJson)),
    ("individuals", x.individuals.map (Json.ofList OrganizationalContact.toJson))]

/-- `VulnerabilityCredits` from JSON (`specs/common/vulnerability_credits.rs` 33-40, conversion 51-58). -/
def VulnerabilityCredits.ofJson (j : Json) : Except String VulnerabilityCredits := do
  let o ← j.fields
  let organizations' ← Json.opt o "organizations" (Json.array OrganizationalEntity.ofJson)
  let individuals' ← Json.opt o "individuals" (Json.array OrganizationalContact.ofJson)
  .ok { organizations := organizations',
        individuals := individuals' }

/-- `VulnerabilityCredits` as XML (`specs/common/vulnerability_credits.rs` 66-101). -/
def VulnerabilityCredits.writeXml (x : VulnerabilityCredits) : List WEvent :=
  writeElem "credits" [] (
    (writeOpt (writeList "organizations" (fun c => if OrganizationalEntity.willWrite c then OrganizationalEntity.writeXml "organization" c else [])) x.organizations) ++
    ((writeOpt (writeList "individuals" (fun c => if OrganizationalContact.willWrite c then OrganizationalContact.writeXml "individual" c else [])) x.individuals)))

/-- The local variables of the reader of `VulnerabilityCredits` (`specs/common/vulnerability_credits.rs` 103-149). -/
structure VulnerabilityCredits.Vars where
  organizations : Option (List OrganizationalEntity) := none
  individuals : Option (List OrganizationalContact) := none

/-- The tags that the reader of `VulnerabilityCredits` knows (`specs/common/vulnerability_credits.rs` 103-149). -/
def VulnerabilityCredits.arms : List (String × Arm VulnerabilityCredits.Vars) :=
  [("organizations", arm (readList "organization" OrganizationalEntity.readXml) fun y s => { s with organizations := some y }),
   ("individuals", arm (readList "individual" OrganizationalContact.readXml) fun y s => { s with individuals := some y })]

/-- `VulnerabilityCredits` from XML (`specs/common/vulnerability_credits.rs` 103-149). -/
def VulnerabilityCredits.readXml : XElem VulnerabilityCredits :=
  readStruct .skip (fun _ _ => .ok ())
    ({} : VulnerabilityCredits.Vars) VulnerabilityCredits.arms (fun _ _ vars =>
      .ok { organizations := vars.organizations,
            individuals := vars.individuals })

end Cdx
