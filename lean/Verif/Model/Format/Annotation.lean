import Verif.Model.Format.Vulnerability

set_option linter.unusedVariables false

/-!
# File formats: annotations
-/

namespace Cdx

variable [F32Format]

variable [ReadLimit]

/-- `Annotator` as JSON (`specs/v1_5/annotation.rs` 162-168; the format has annotations from version 1.5 on, conversion 170-185). -/
def Annotator.toJson (v : SpecVersion) : Annotator → Json
  | .organization y => .obj [("organization", OrganizationalEntity.toJson y)]
  | .individual y => .obj [("individual", OrganizationalContact.toJson y)]
  | .component y => .obj [("component", (Component.toJson v) y)]
  | .service y => .obj [("service", (Service.toJson v) y)]

/-- `Annotator` from JSON (`specs/v1_5/annotation.rs` 162-168; the format has annotations from version 1.5 on, conversion 187-200). -/
def Annotator.ofJson (v : SpecVersion) : Json → Except String Annotator :=
  Json.tagged
  [("organization", fun j => (OrganizationalEntity.ofJson j).map .organization),
   ("individual", fun j => (OrganizationalContact.ofJson j).map .individual),
   ("component", fun j => ((Component.ofJson v) j).map .component),
   ("service", fun j => ((Service.ofJson v) j).map .service)]

/-- The content of a `Annotator` as XML (`specs/v1_5/annotation.rs` 277-300). -/
def Annotator.writeInner (v : SpecVersion) : Annotator → List WEvent
  | .organization y => (OrganizationalEntity.writeXml "organization") y
  | .individual y => (OrganizationalContact.writeXml "individual") y
  | .component y => (Component.writeXml v) y
  | .service y => (Service.writeXml v) y

/-- `Annotator` as XML (`specs/v1_5/annotation.rs` 277-300). -/
def Annotator.writeXml (v : SpecVersion) (x : Annotator) : List WEvent :=
  writeElem "annotator" [] (Annotator.writeInner v x)

/-- The tags that the reader of `Annotator` knows (`specs/v1_5/annotation.rs` 207-275). -/
def Annotator.arms (v : SpecVersion) : List (String × Arm (Option Annotator)) :=
  [("organization", arm OrganizationalEntity.readXml fun y _ => some (.organization y)),
   ("individual", arm OrganizationalContact.readXml fun y _ => some (.individual y)),
   ("component", arm (Component.readXml v) fun y _ => some (.component y)),
   ("service", arm (Service.readXml v) fun y _ => some (.service y))]

/-- `Annotator` from XML (`specs/v1_5/annotation.rs` 207-275). -/
def Annotator.readXml (v : SpecVersion) : XElem Annotator :=
  readStruct .fail (fun _ _ => .ok ()) none (Annotator.arms v) fun el _ x => required "organization, individual, component, service" el x

/-- The subjects of an `Annotation` as XML (`specs/v1_5/annotation.rs` 318-326). -/
def Annotation.writeSubjects (l : List String) : List WEvent :=
  if l.isEmpty then [] else writeList "subjects" (writeSimple "subject") l

/-- `Annotation` as JSON (`specs/v1_5/annotation.rs` 114-130, conversion 132-145). -/
def Annotation.toJson (v : SpecVersion) (x : Annotation) : Json :=
  .mk [("bom-ref", x.bomRef.map Json.str),
    ("subjects", some ((Json.ofList Json.str) x.subjects)),
    ("annotator", some ((Annotator.toJson v) x.annotator)),
    ("timestamp", some (Json.str x.timestamp)),
    ("text", some (Json.str x.text)),
    ("signature", x.signature.map Signature.toJson)]

/-- `Annotation` from JSON (`specs/v1_5/annotation.rs` 114-130, conversion 147-158). -/
def Annotation.ofJson (v : SpecVersion) (j : Json) : Except String Annotation := do
  let o ← j.fields
  let bomRef' ← Json.opt o "bom-ref" Json.string
  let subjects' ← Json.req o "subjects" (Json.array Json.string)
  let annotator' ← Json.req o "annotator" (Annotator.ofJson v)
  let timestamp' ← Json.req o "timestamp" Json.string
  let text' ← Json.req o "text" Json.string
  let signature' ← Json.opt o "signature" Signature.ofJson
  .ok { bomRef := bomRef',
        subjects := subjects',
        annotator := annotator',
        timestamp := timestamp',
        text := text',
        signature := signature' }

/-- `Annotation` as XML (`specs/v1_5/annotation.rs` 304-344). -/
def Annotation.writeXml (v : SpecVersion) (x : Annotation) : List WEvent :=
  writeElem "annotation" (mkAttrs [("bom-ref", x.bomRef)]) (
    (Annotation.writeSubjects x.subjects) ++
    (((Annotator.writeXml v) x.annotator) ++
    (((writeSimple "timestamp") x.timestamp) ++
    (((writeSimple "text") x.text) ++
    ((writeOpt Signature.writeXml x.signature))))))

/-- The local variables of the reader of `Annotation` (`specs/v1_5/annotation.rs` 353-517). -/
structure Annotation.Vars where
  subjects : Option (List String) := none
  annotator : Option Annotator := none
  timestamp : Option String := none
  text : Option String := none
  signature : Option Signature := none

/-- The tags that the reader of `Annotation` knows (`specs/v1_5/annotation.rs` 353-517). -/
def Annotation.arms (v : SpecVersion) : List (String × Arm Annotation.Vars) :=
  [("subjects", arm (readList "subject" readRef) fun y s => { s with subjects := some y }),
   ("annotator", arm (Annotator.readXml v) fun y s => { s with annotator := some y }),
   ("timestamp", arm readSimple fun y s => { s with timestamp := some y }),
   ("text", arm readSimple fun y s => { s with text := some y }),
   ("signature", arm Signature.readXml fun y s => { s with signature := some y })]

/-- `Annotation` from XML (`specs/v1_5/annotation.rs` 353-517). -/
def Annotation.readXml (v : SpecVersion) : XElem Annotation :=
  readStruct .fail (fun el attrs => do
      .ok (optAttr attrs "bom-ref"))
    ({} : Annotation.Vars) (Annotation.arms v) (fun el a0 vars => do
      let annotator' ← required "annotator" el vars.annotator
      let timestamp' ← required "timestamp" el vars.timestamp
      let text' ← required "text" el vars.text
      .ok { bomRef := a0,
            subjects := vars.subjects.getD [],
            annotator := annotator',
            timestamp := timestamp',
            text := text',
            signature := vars.signature })

end Cdx
