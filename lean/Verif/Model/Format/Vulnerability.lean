import Verif.Model.Format.Metadata

set_option linter.unusedVariables false

/-!
# File formats: vulnerabilities
-/

namespace Cdx

variable [F32Format]

variable [ReadLimit]

/-- `Vulnerability` as JSON (`specs/common/vulnerability.rs` 107-155; the format has vulnerabilities from version 1.4 on, conversion 157-188).
Simplification: members of later versions come last; the order of members is not significant (C80). -/
def Vulnerability.toJson (v : SpecVersion) (x : Vulnerability) : Json :=
  .mk ([("bom-ref", x.bomRef.map Json.str),
    ("id", x.id.map Json.str),
    ("source", x.vulnerabilitySource.map VulnerabilitySource.toJson),
    ("references", x.vulnerabilityReferences.map (Json.ofList VulnerabilityReference.toJson)),
    ("ratings", x.vulnerabilityRatings.map (Json.ofList VulnerabilityRating.toJson)),
    ("cwes", x.cwes.map (Json.ofList Json.nat)),
    ("description", x.description.map Json.str),
    ("detail", x.detail.map Json.str),
    ("recommendation", x.recommendation.map Json.str),
    ("advisories", x.advisories.map (Json.ofList Advisory.toJson)),
    ("created", x.created.map Json.str),
    ("published", x.published.map Json.str),
    ("updated", x.updated.map Json.str),
    ("credits", x.vulnerabilityCredits.map VulnerabilityCredits.toJson),
    ("tools", x.tools.map (Tools.toJson v)),
    ("analysis", x.vulnerabilityAnalysis.map (VulnerabilityAnalysis.toJson v)),
    ("affects", x.vulnerabilityTargets.map (Json.ofList VulnerabilityTarget.toJson)),
    ("properties", x.properties.map (Json.ofList Property.toJson))] ++
    since15 v [("workaround", x.workaround.map Json.str),
    ("proofOfConcept", x.proofOfConcept.map VulnerabilityProofOfConcept.toJson),
    ("rejected", x.rejected.map Json.str)] [])

/-- `Vulnerability` from JSON (`specs/common/vulnerability.rs` 107-155; the format has vulnerabilities from version 1.4 on, conversion 190-225). -/
def Vulnerability.ofJson (v : SpecVersion) (j : Json) : Except String Vulnerability := do
  let o ← j.fields
  let bomRef' ← Json.opt o "bom-ref" Json.string
  let id' ← Json.opt o "id" Json.string
  let vulnerabilitySource' ← Json.opt o "source" VulnerabilitySource.ofJson
  let vulnerabilityReferences' ← Json.opt o "references" (Json.array VulnerabilityReference.ofJson)
  let vulnerabilityRatings' ← Json.opt o "ratings" (Json.array VulnerabilityRating.ofJson)
  let cwes' ← Json.opt o "cwes" (Json.array Json.u32)
  let description' ← Json.opt o "description" Json.string
  let detail' ← Json.opt o "detail" Json.string
  let recommendation' ← Json.opt o "recommendation" Json.string
  let workaround' ← since15 v (Json.opt o "workaround" Json.string) (.ok none)
  let proofOfConcept' ← since15 v (Json.opt o "proofOfConcept" VulnerabilityProofOfConcept.ofJson) (.ok none)
  let advisories' ← Json.opt o "advisories" (Json.array Advisory.ofJson)
  let created' ← Json.opt o "created" Json.string
  let published' ← Json.opt o "published" Json.string
  let updated' ← Json.opt o "updated" Json.string
  let rejected' ← since15 v (Json.opt o "rejected" Json.string) (.ok none)
  let vulnerabilityCredits' ← Json.opt o "credits" VulnerabilityCredits.ofJson
  let tools' ← Json.opt o "tools" (Tools.ofJson v)
  let vulnerabilityAnalysis' ← Json.opt o "analysis" (VulnerabilityAnalysis.ofJson v)
  let vulnerabilityTargets' ← Json.opt o "affects" (Json.array VulnerabilityTarget.ofJson)
  let properties' ← Json.opt o "properties" (Json.array Property.ofJson)
  .ok { bomRef := bomRef',
        id := id',
        vulnerabilitySource := vulnerabilitySource',
        vulnerabilityReferences := vulnerabilityReferences',
        vulnerabilityRatings := vulnerabilityRatings',
        cwes := cwes',
        description := description',
        detail := detail',
        recommendation := recommendation',
        workaround := workaround',
        proofOfConcept := proofOfConcept',
        advisories := advisories',
        created := created',
        published := published',
        updated := updated',
        rejected := rejected',
        vulnerabilityCredits := vulnerabilityCredits',
        tools := tools',
        vulnerabilityAnalysis := vulnerabilityAnalysis',
        vulnerabilityTargets := vulnerabilityTargets',
        properties := properties' }

/-- `Vulnerability` as XML (`specs/common/vulnerability.rs` 254-361). -/
def Vulnerability.writeXml (v : SpecVersion) (x : Vulnerability) : List WEvent :=
  writeElem "vulnerability" (mkAttrs [("bom-ref", x.bomRef)]) (
    (writeOpt (writeSimple "id") x.id) ++
    ((writeOpt VulnerabilitySource.writeXml x.vulnerabilitySource) ++
    ((writeOpt (writeList "references" VulnerabilityReference.writeXml) x.vulnerabilityReferences) ++
    ((writeOpt (writeList "ratings" VulnerabilityRating.writeXml) x.vulnerabilityRatings) ++
    ((writeOpt (writeList "cwes" (fun n => writeSimple "cwe" (showNat n))) x.cwes) ++
    ((writeOpt (writeSimple "description") x.description) ++
    ((writeSimple "detail" (x.detail.getD "")) ++
    ((writeOpt (writeSimple "recommendation") x.recommendation) ++
    ((writeOpt (writeList "advisories" Advisory.writeXml) x.advisories) ++
    ((writeOpt (writeSimple "created") x.created) ++
    ((writeOpt (writeSimple "published") x.published) ++
    ((writeOpt (writeSimple "updated") x.updated) ++
    ((since15 v (writeOpt (writeSimple "rejected") x.rejected) []) ++
    ((writeOpt VulnerabilityCredits.writeXml x.vulnerabilityCredits) ++
    ((writeOpt (Tools.writeXml v) x.tools) ++
    ((writeOpt (VulnerabilityAnalysis.writeXml v) x.vulnerabilityAnalysis) ++
    ((writeOpt (writeList "affects" VulnerabilityTarget.writeXml) x.vulnerabilityTargets) ++
    ((writeOpt (writeList "properties" Property.writeXml) x.properties) ++
    ((since15 v (writeOpt (writeSimple "workaround") x.workaround) []))))))))))))))))))))

/-- The local variables of the reader of `Vulnerability` (`specs/common/vulnerability.rs` 363-597). -/
structure Vulnerability.Vars where
  proofOfConcept : Option VulnerabilityProofOfConcept := none
  id : Option String := none
  vulnerabilitySource : Option VulnerabilitySource := none
  vulnerabilityReferences : Option (List VulnerabilityReference) := none
  vulnerabilityRatings : Option (List VulnerabilityRating) := none
  cwes : Option (List Nat) := none
  description : Option String := none
  detail : Option String := none
  recommendation : Option String := none
  advisories : Option (List Advisory) := none
  created : Option String := none
  published : Option String := none
  updated : Option String := none
  rejected : Option String := none
  vulnerabilityCredits : Option VulnerabilityCredits := none
  tools : Option Tools := none
  vulnerabilityAnalysis : Option VulnerabilityAnalysis := none
  vulnerabilityTargets : Option (List VulnerabilityTarget) := none
  properties : Option (List Property) := none
  workaround : Option String := none

/-- The tags that the reader of `Vulnerability` knows (`specs/common/vulnerability.rs` 363-597). -/
def Vulnerability.arms (v : SpecVersion) : List (String × Arm Vulnerability.Vars) :=
  [("id", arm readSimple fun y s => { s with id := some y }),
   ("source", arm VulnerabilitySource.readXml fun y s => { s with vulnerabilitySource := some y }),
   ("references", arm (readListLax "reference" VulnerabilityReference.readXml) fun y s => { s with vulnerabilityReferences := some y }),
   ("ratings", arm (readListLax "rating" VulnerabilityRating.readXml) fun y s => { s with vulnerabilityRatings := some y }),
   ("cwes", arm (readList "cwe" readU32) fun y s => { s with cwes := some y }),
   ("description", arm readSimple fun y s => { s with description := some y }),
   ("detail", arm readOptional fun y s => { s with detail := y }),
   ("recommendation", arm readSimple fun y s => { s with recommendation := some y }),
   ("advisories", arm (readListLax "advisory" Advisory.readXml) fun y s => { s with advisories := some y }),
   ("created", arm readSimple fun y s => { s with created := some y }),
   ("published", arm readSimple fun y s => { s with published := some y }),
   ("updated", arm readSimple fun y s => { s with updated := some y }),
   ("credits", arm VulnerabilityCredits.readXml fun y s => { s with vulnerabilityCredits := some y }),
   ("tools", arm (Tools.readXml v) fun y s => { s with tools := some y }),
   ("analysis", arm (VulnerabilityAnalysis.readXml v) fun y s => { s with vulnerabilityAnalysis := some y }),
   ("affects", arm (readListLax "target" VulnerabilityTarget.readXml) fun y s => { s with vulnerabilityTargets := some y }),
   ("properties", arm (readListLax "property" Property.readXml) fun y s => { s with properties := some y })] ++
  since15 v [("proofOfConcept", arm VulnerabilityProofOfConcept.readXml fun y s => { s with proofOfConcept := some y }),
   ("rejected", arm readSimple fun y s => { s with rejected := some y }),
   ("workaround", arm readSimple fun y s => { s with workaround := some y })] []

/-- `Vulnerability` from XML (`specs/common/vulnerability.rs` 363-597). -/
def Vulnerability.readXml (v : SpecVersion) : XElem Vulnerability :=
  readStruct .skip (fun el attrs => do
      .ok (optAttr attrs "bom-ref"))
    ({} : Vulnerability.Vars) (Vulnerability.arms v) (fun _ a0 vars =>
      .ok { bomRef := a0,
            proofOfConcept := vars.proofOfConcept,
            id := vars.id,
            vulnerabilitySource := vars.vulnerabilitySource,
            vulnerabilityReferences := vars.vulnerabilityReferences,
            vulnerabilityRatings := vars.vulnerabilityRatings,
            cwes := vars.cwes,
            description := vars.description,
            detail := vars.detail,
            recommendation := vars.recommendation,
            advisories := vars.advisories,
            created := vars.created,
            published := vars.published,
            updated := vars.updated,
            rejected := vars.rejected,
            vulnerabilityCredits := vars.vulnerabilityCredits,
            tools := vars.tools,
            vulnerabilityAnalysis := vars.vulnerabilityAnalysis,
            vulnerabilityTargets := vars.vulnerabilityTargets,
            properties := vars.properties,
            workaround := vars.workaround })

end Cdx
