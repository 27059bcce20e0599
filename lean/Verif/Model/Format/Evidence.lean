import Verif.Model.Format.Service

set_option linter.unusedVariables false

/-!
# File formats: ratings and evidence
-/

namespace Cdx

variable [F32Format]

/-- `VulnerabilityRating` as JSON (`specs/common/vulnerability_rating.rs` 84-99, conversion 101-112). -/
def VulnerabilityRating.toJson (x : VulnerabilityRating) : Json :=
  .mk [("source", x.vulnerabilitySource.map VulnerabilitySource.toJson),
    ("score", x.score.map Json.ofF32),
    ("severity", x.severity.map (Json.ofEnum Severity.display)),
    ("method", x.scoreMethod.map (Json.ofEnum ScoreMethod.display)),
    ("vector", x.vector.map Json.str),
    ("justification", x.justification.map Json.str)]

/-- `VulnerabilityRating` from JSON (`specs/common/vulnerability_rating.rs` 84-99, conversion 114-125). -/
def VulnerabilityRating.ofJson (j : Json) : Except String VulnerabilityRating := do
  let o ← j.fields
  let vulnerabilitySource' ← Json.opt o "source" VulnerabilitySource.ofJson
  let score' ← Json.opt o "score" Json.f32
  let severity' ← Json.opt o "severity" (Json.enum Severity.new)
  let scoreMethod' ← Json.opt o "method" (Json.enum ScoreMethod.new)
  let vector' ← Json.opt o "vector" Json.string
  let justification' ← Json.opt o "justification" Json.string
  .ok { vulnerabilitySource := vulnerabilitySource',
        score := score',
        severity := severity',
        scoreMethod := scoreMethod',
        vector := vector',
        justification := justification' }

/-- `VulnerabilityRating` as XML (`specs/common/vulnerability_rating.rs` 135-176). -/
def VulnerabilityRating.writeXml (x : VulnerabilityRating) : List WEvent :=
  writeElem "rating" [] (
    (writeOpt VulnerabilitySource.writeXml x.vulnerabilitySource) ++
    ((writeOpt (fun n => writeSimple "score" (F32Format.display n)) x.score) ++
    ((writeOpt (fun e => writeSimple "severity" (Severity.display e)) x.severity) ++
    ((writeOpt (fun e => writeSimple "method" (ScoreMethod.display e)) x.scoreMethod) ++
    ((writeOpt (writeSimple "vector") x.vector) ++
    ((writeOpt (writeSimple "justification") x.justification)))))))

/-- The local variables of the reader of `VulnerabilityRating` (`specs/common/vulnerability_rating.rs` 178-257). -/
structure VulnerabilityRating.Vars where
  vulnerabilitySource : Option VulnerabilitySource := none
  score : Option F32 := none
  severity : Option Severity := none
  scoreMethod : Option ScoreMethod := none
  vector : Option String := none
  justification : Option String := none

/-- The tags that the reader of `VulnerabilityRating` knows (`specs/common/vulnerability_rating.rs` 178-257). -/
def VulnerabilityRating.arms : List (String × Arm VulnerabilityRating.Vars) :=
  [("source", arm VulnerabilitySource.readXml fun y s => { s with vulnerabilitySource := some y }),
   ("score", arm readScore fun y s => { s with score := some y }),
   ("severity", arm (readSimple.map Severity.new) fun y s => { s with severity := some y }),
   ("method", arm (readSimple.map ScoreMethod.new) fun y s => { s with scoreMethod := some y }),
   ("vector", arm readSimple fun y s => { s with vector := some y }),
   ("justification", arm readSimple fun y s => { s with justification := some y })]

/-- `VulnerabilityRating` from XML (`specs/common/vulnerability_rating.rs` 178-257). -/
def VulnerabilityRating.readXml : XElem VulnerabilityRating :=
  readStruct .skip (fun _ _ => .ok ())
    ({} : VulnerabilityRating.Vars) VulnerabilityRating.arms (fun _ _ vars =>
      .ok { vulnerabilitySource := vars.vulnerabilitySource,
            score := vars.score,
            severity := vars.severity,
            scoreMethod := vars.scoreMethod,
            vector := vars.vector,
            justification := vars.justification })

/-- `Copyright` as JSON (`specs/common/component.rs` 1266-1269, conversion 1271-1275). -/
def Copyright.toJson (s : String) : Json := .mk [("text", some (.str s))]

/-- `Copyright` from JSON (`specs/common/component.rs` 1266-1269, conversion 1277-1281). -/
def Copyright.ofJson (j : Json) : Except String String := do
  let o ← j.fields
  Json.req o "text" Json.string

/-- `Copyright` as XML (`specs/common/component.rs` 1283-1298). -/
def writeCdata (tag s : String) : List WEvent := writeElem tag [] [.cdata s]

/-- The loop in the reader of `ToolsReferences` (`specs/v1_5/evidence.rs` 851-872): start and end
tags are not matched with each other. -/
def toolRefsLoop (el : XName) : List String → XRead (List String)
  | _, [] => .error .eof
  | acc, .start n attrs _ :: l =>
    if n.localName = "tool" then
      match reqAttr n attrs "ref" with
      | .ok r => toolRefsLoop el (acc ++ [r]) l
      | .error e => .error e
    else .error (.unexpected el.localName)
  | acc, .stop n :: l =>
    if n.localName = "tool" then toolRefsLoop el acc l
    else if n = el then .ok (acc, l)
    else .error (.unexpected el.localName)
  | _, _ :: _ => .error (.unexpected el.localName)

/-- `ToolsReferences` from XML (`specs/v1_5/evidence.rs` 840-876). -/
def readToolRefs : XElem (List String) := fun el _ evs => toolRefsLoop el [] evs

/-- `Occurrence` as JSON (`specs/v1_5/evidence.rs` 94-99, conversion 110-117). -/
def Occurrence.toJson (x : Occurrence) : Json :=
  .mk [("bomRef", x.bomRef.map Json.str),
    ("location", some (Json.str x.location))]

/-- `Occurrence` from JSON (`specs/v1_5/evidence.rs` 94-99, conversion 101-108). -/
def Occurrence.ofJson (j : Json) : Except String Occurrence := do
  let o ← j.fields
  let bomRef' ← Json.opt o "bomRef" Json.string
  let location' ← Json.req o "location" Json.string
  .ok { bomRef := bomRef',
        location := location' }

/-- `Occurrence` as XML (`specs/v1_5/evidence.rs` 122-143). -/
def Occurrence.writeXml (x : Occurrence) : List WEvent :=
  writeElem "occurrence" (mkAttrs [("bom-ref", x.bomRef)]) (
    ((writeSimple "location") x.location))

/-- The local variables of the reader of `Occurrence` (`specs/v1_5/evidence.rs` 145-178). -/
structure Occurrence.Vars where
  location : Option String := none

/-- The tags that the reader of `Occurrence` knows (`specs/v1_5/evidence.rs` 145-178). -/
def Occurrence.arms : List (String × Arm Occurrence.Vars) :=
  [("location", arm readSimple fun y s => { s with location := some y })]

/-- `Occurrence` from XML (`specs/v1_5/evidence.rs` 145-178). -/
def Occurrence.readXml : XElem Occurrence :=
  readStruct .fail (fun el attrs => do
      .ok (optAttr attrs "bom-ref"))
    ({} : Occurrence.Vars) Occurrence.arms (fun el a0 vars => do
      let location' ← required "location" el vars.location
      .ok { bomRef := a0,
            location := location' })

/-- `Frame` as JSON (`specs/v1_5/evidence.rs` 295-310, conversion 331-345). -/
def Frame.toJson (x : Frame) : Json :=
  .mk [("package", x.package.map Json.str),
    ("module", some (Json.str x.module)),
    ("function", x.function.map Json.str),
    ("parameters", x.parameters.map (Json.ofList Json.str)),
    ("line", x.line.map Json.nat),
    ("column", x.column.map Json.nat),
    ("fullFilename", x.fullFilename.map Json.str)]

/-- `Frame` from JSON (`specs/v1_5/evidence.rs` 295-310, conversion 312-329). -/
def Frame.ofJson (j : Json) : Except String Frame := do
  let o ← j.fields
  let package' ← Json.opt o "package" Json.string
  let module' ← Json.req o "module" Json.string
  let function' ← Json.opt o "function" Json.string
  let parameters' ← Json.opt o "parameters" (Json.array Json.string)
  let line' ← Json.opt o "line" Json.u32
  let column' ← Json.opt o "column" Json.u32
  let fullFilename' ← Json.opt o "fullFilename" Json.string
  .ok { package := package',
        module := module',
        function := function',
        parameters := parameters',
        line := line',
        column := column',
        fullFilename := fullFilename' }

/-- `Frame` as XML (`specs/v1_5/evidence.rs` 356-397). -/
def Frame.writeXml (x : Frame) : List WEvent :=
  writeElem "frame" [] (
    (writeOpt (writeSimple "package") x.package) ++
    (((writeSimple "module") x.module) ++
    ((writeOpt (writeSimple "function") x.function) ++
    ((writeOpt (writeList "parameters" (writeSimple "parameter")) x.parameters) ++
    ((writeOpt (fun n => writeSimple "line" (showNat n)) x.line) ++
    ((writeOpt (fun n => writeSimple "column" (showNat n)) x.column) ++
    ((writeOpt (writeSimple "fullFilename") x.fullFilename))))))))

/-- The local variables of the reader of `Frame` (`specs/v1_5/evidence.rs` 399-475). -/
structure Frame.Vars where
  package : Option String := none
  module : Option String := none
  function : Option String := none
  parameters : Option (List String) := none
  line : Option Nat := none
  column : Option Nat := none
  fullFilename : Option String := none

/-- The tags that the reader of `Frame` knows (`specs/v1_5/evidence.rs` 399-475). -/
def Frame.arms : List (String × Arm Frame.Vars) :=
  [("package", arm readSimple fun y s => { s with package := some y }),
   ("module", arm readSimple fun y s => { s with module := some y }),
   ("function", arm readSimple fun y s => { s with function := some y }),
   ("parameters", arm (readList "parameter" readSimple) fun y s => { s with parameters := some y }),
   ("line", arm readU32 fun y s => { s with line := some y }),
   ("column", arm readU32 fun y s => { s with column := some y }),
   ("fullFilename", arm readSimple fun y s => { s with fullFilename := some y })]

/-- `Frame` from XML (`specs/v1_5/evidence.rs` 399-475). -/
def Frame.readXml : XElem Frame :=
  readStruct .ignore (fun _ _ => .ok ())
    ({} : Frame.Vars) Frame.arms (fun el _ vars => do
      let module' ← required "module" el vars.module
      .ok { package := vars.package,
            module := module',
            function := vars.function,
            parameters := vars.parameters,
            line := vars.line,
            column := vars.column,
            fullFilename := vars.fullFilename })

/-- `Callstack` as JSON (`specs/v1_5/evidence.rs` 181-184, 279-280, conversion 200-206, 288-292). -/
def Callstack.toJson (x : Callstack) : Json :=
  .mk [("frames", some ((Json.ofList Frame.toJson) x.frames))]

/-- `Callstack` from JSON (`specs/v1_5/evidence.rs` 181-184, 279-280, conversion 192-198, 282-286). -/
def Callstack.ofJson (j : Json) : Except String Callstack := do
  let o ← j.fields
  let frames' ← Json.req o "frames" (Json.array Frame.ofJson)
  .ok { frames := frames' }

/-- `Callstack` as XML (`specs/v1_5/evidence.rs` 212-241). -/
def Callstack.writeXml (x : Callstack) : List WEvent :=
  writeElem "callstack" [] (writeList "frames" Frame.writeXml x.frames)

/-- The tags that the reader of `Callstack` knows (`specs/v1_5/evidence.rs` 260-265): the list
around the frames is not one of them. -/
def Callstack.arms : List (String × Arm (List Frame)) :=
  [("frame", arm Frame.readXml fun y l => l ++ [y])]

/-- `Callstack` from XML (`specs/v1_5/evidence.rs` 243-276). -/
def Callstack.readXml : XElem Callstack :=
  readStruct .ignore (fun _ _ => .ok ()) [] Callstack.arms fun _ _ l => .ok { frames := l }

/-- `Method` as JSON (`specs/v1_5/evidence.rs` 697-703, conversion 715-723). -/
def Method.toJson (x : Method) : Json :=
  .mk [("technique", some (Json.str x.technique)),
    ("confidence", some (Json.ofF32 x.confidence)),
    ("value", x.value.map Json.str)]

/-- `Method` from JSON (`specs/v1_5/evidence.rs` 697-703, conversion 705-713). -/
def Method.ofJson (j : Json) : Except String Method := do
  let o ← j.fields
  let technique' ← Json.req o "technique" Json.string
  let confidence' ← Json.req o "confidence" Json.f32
  let value' ← Json.opt o "value" Json.string
  .ok { technique := technique',
        confidence := confidence',
        value := value' }

/-- `Method` as XML (`specs/v1_5/evidence.rs` 725-744). -/
def Method.writeXml (x : Method) : List WEvent :=
  writeElem "method" [] (
    ((writeSimple "technique") x.technique) ++
    (((fun n => writeSimple "confidence" (F32Format.display n)) x.confidence) ++
    ((writeOpt (writeSimple "value") x.value))))

/-- The local variables of the reader of `Method` (`specs/v1_5/evidence.rs` 746-798). -/
structure Method.Vars where
  technique : Option String := none
  confidence : Option F32 := none
  value : Option String := none

/-- The tags that the reader of `Method` knows (`specs/v1_5/evidence.rs` 746-798). -/
def Method.arms : List (String × Arm Method.Vars) :=
  [("technique", arm readSimple fun y s => { s with technique := some y }),
   ("confidence", arm readF32 fun y s => { s with confidence := some y }),
   ("value", arm readSimple fun y s => { s with value := some y })]

/-- `Method` from XML (`specs/v1_5/evidence.rs` 746-798). -/
def Method.readXml : XElem Method :=
  readStruct .ignore (fun _ _ => .ok ())
    ({} : Method.Vars) Method.arms (fun el _ vars => do
      let technique' ← required "technique" el vars.technique
      let confidence' ← required "confidence" el vars.confidence
      .ok { technique := technique',
            confidence := confidence',
            value := vars.value })

/-- `Identity` as JSON (`specs/v1_5/evidence.rs` 478-488, conversion 503-512). -/
def Identity.toJson (x : Identity) : Json :=
  .mk [("field", some ((Json.ofEnum IdentityField.display) x.field)),
    ("confidence", x.confidence.map Json.ofF32),
    ("methods", x.methods.map (Json.ofList Method.toJson)),
    ("tools", x.tools.map (Json.ofList Json.str))]

/-- `Identity` from JSON (`specs/v1_5/evidence.rs` 478-488, conversion 490-501). -/
def Identity.ofJson (j : Json) : Except String Identity := do
  let o ← j.fields
  let field' ← Json.req o "field" (Json.enum IdentityField.new)
  let confidence' ← Json.opt o "confidence" Json.f32
  let methods' ← Json.opt o "methods" (Json.array Method.ofJson)
  let tools' ← Json.opt o "tools" (Json.array Json.string)
  .ok { field := field',
        confidence := confidence',
        methods := methods',
        tools := tools' }

/-- `Identity` as XML (`specs/v1_5/evidence.rs` 525-550, 634-659, 817-838). -/
def Identity.writeXml (x : Identity) : List WEvent :=
  writeElem "identity" [] (
    ((fun e => writeSimple "field" (IdentityField.display e)) x.field) ++
    ((writeOpt (fun n => writeSimple "confidence" (F32Format.display n)) x.confidence) ++
    ((writeOpt (writeList "methods" Method.writeXml) x.methods) ++
    ((writeOpt (writeList "tools" (writeRef "tool")) x.tools)))))

/-- The local variables of the reader of `Identity` (`specs/v1_5/evidence.rs` 552-616, 661-694). -/
structure Identity.Vars where
  field : Option IdentityField := none
  confidence : Option F32 := none
  methods : Option (List Method) := none
  tools : Option (List String) := none

/-- The tags that the reader of `Identity` knows (`specs/v1_5/evidence.rs` 552-616, 661-694). -/
def Identity.arms : List (String × Arm Identity.Vars) :=
  [("field", arm (readSimple.map IdentityField.new) fun y s => { s with field := some y }),
   ("confidence", arm readF32 fun y s => { s with confidence := some y }),
   ("methods", arm (readList "method" Method.readXml) fun y s => { s with methods := some y }),
   ("tools", arm readToolRefs fun y s => { s with tools := some y })]

/-- `Identity` from XML (`specs/v1_5/evidence.rs` 552-616, 661-694). -/
def Identity.readXml : XElem Identity :=
  readStruct .ignore (fun _ _ => .ok ())
    ({} : Identity.Vars) Identity.arms (fun el _ vars => do
      let field' ← required "field" el vars.field
      .ok { field := field',
            confidence := vars.confidence,
            methods := vars.methods,
            tools := vars.tools })

/-- `ComponentEvidence` as JSON (`specs/common/component.rs` 898-914, 1313-1327, conversion 916-929). -/
def ComponentEvidence.toJson (v : SpecVersion) (x : ComponentEvidence) : Json :=
  .mk ([("licenses", x.licenses.map (Licenses.toJson v)),
    ("copyright", x.copyright.map (Json.ofList Copyright.toJson))] ++
    since15 v [("occurrences", x.occurrences.map (Json.ofList Occurrence.toJson)),
    ("callstack", x.callstack.map Callstack.toJson),
    ("identity", x.identity.map Identity.toJson)] [])

/-- `ComponentEvidence` from JSON (`specs/common/component.rs` 898-914, 1313-1327, conversion 931-950). -/
def ComponentEvidence.ofJson (v : SpecVersion) (j : Json) : Except String ComponentEvidence := do
  let o ← j.fields
  let licenses' ← Json.opt o "licenses" (Licenses.ofJson v)
  let copyright' ← Json.opt o "copyright" (Json.array Copyright.ofJson)
  let occurrences' ← since15 v (Json.opt o "occurrences" (Json.array Occurrence.ofJson)) (.ok none)
  let callstack' ← since15 v (Json.opt o "callstack" Callstack.ofJson) (.ok none)
  let identity' ← since15 v (Json.opt o "identity" Identity.ofJson) (.ok none)
  .ok { licenses := licenses',
        copyright := copyright',
        occurrences := occurrences',
        callstack := callstack',
        identity := identity' }

/-- `ComponentEvidence` as XML (`specs/common/component.rs` 955-972, 1329-1344). -/
def ComponentEvidence.writeXml (v : SpecVersion) (x : ComponentEvidence) : List WEvent :=
  writeElem "evidence" [] (
    (writeOpt (Licenses.writeXml v) x.licenses) ++
    ((writeOpt (writeList "copyright" (writeCdata "text")) x.copyright)))

/-- The local variables of the reader of `ComponentEvidence` (`specs/common/component.rs` 986-1080, 1300-1311, 1346-1357). -/
structure ComponentEvidence.Vars where
  licenses : Option Licenses := none
  copyright : Option (List String) := none
  occurrences : Option (List Occurrence) := none
  callstack : Option Callstack := none
  identity : Option Identity := none

/-- The tags that the reader of `ComponentEvidence` knows (`specs/common/component.rs` 986-1080, 1300-1311, 1346-1357). -/
def ComponentEvidence.arms (v : SpecVersion) : List (String × Arm ComponentEvidence.Vars) :=
  [("licenses", arm (Licenses.readXml v) fun y s => { s with licenses := some y }),
   ("copyright", arm (readList "text" readSimple) fun y s => { s with copyright := some y })] ++
  since15 v [("occurrences", arm (readList "occurrence" Occurrence.readXml) fun y s => { s with occurrences := some y }),
   ("callstack", arm Callstack.readXml fun y s => { s with callstack := some y }),
   ("identity", arm Identity.readXml fun y s => { s with identity := some y })] []

/-- `ComponentEvidence` from XML (`specs/common/component.rs` 986-1080, 1300-1311, 1346-1357). -/
def ComponentEvidence.readXml (v : SpecVersion) : XElem ComponentEvidence :=
  readStruct .ignore (fun _ _ => .ok ())
    ({} : ComponentEvidence.Vars) (ComponentEvidence.arms v) (fun _ _ vars =>
      .ok { licenses := vars.licenses,
            copyright := vars.copyright,
            occurrences := vars.occurrences,
            callstack := vars.callstack,
            identity := vars.identity })

/-- `ComponentEvidence::will_write` (`specs/common/component.rs` 974-976). -/
def ComponentEvidence.willWrite (x : ComponentEvidence) : Bool :=
  x.licenses.isSome || x.copyright.isSome

end Cdx
