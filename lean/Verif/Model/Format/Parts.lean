import Verif.Model.Format.License

set_option linter.unusedVariables false

/-!
# File formats: signatures, dependencies, compositions, code changes, parts of vulnerabilities
-/

namespace Cdx

/-- The conversions between the two `Algorithm` types go through the name, which is lost for an
unknown algorithm (`specs/common/signature.rs` 238-248 with 216-236): here from the model to the
specification, and its name (49-59). -/
def Algorithm.specName (a : Algorithm) : String := (Algorithm.new a.display).display

/-- The algorithm with a name in a document (`specs/common/signature.rs` 104-107, 351, with the
conversion to the model 244-248). -/
def Algorithm.ofSpecName (s : String) : Algorithm := Algorithm.new (Algorithm.new s).display

/-- `Algorithm` as JSON (`specs/common/signature.rs` 197-214, conversion 238-242): an externally
tagged enumeration. -/
def Algorithm.toJson (a : Algorithm) : Json :=
  match Algorithm.new a.display with
  | .unknown s => .obj [("Unknown", .str s)]
  | b => .str b.display

/-- `Algorithm` from JSON (`specs/common/signature.rs` 197-214, conversion 244-248): the name of a
known algorithm, also as the key of a `null` member, or `Unknown` with a string. All errors
for objects are the same here. -/
def Algorithm.ofJson : Json → Except String Algorithm
  | .str s =>
    match Algorithm.new s with
    | .unknown _ => .error "unknown variant"
    | b => .ok (Algorithm.new b.display)
  | .obj [("Unknown", .str s)] => .ok (Algorithm.new (Algorithm.unknown s).display)
  | .obj [(k, .null)] =>
    match Algorithm.new k with
    | .unknown _ => .error "invalid algorithm"
    | b => .ok (Algorithm.new b.display)
  | _ => .error "invalid algorithm"

/-- `Signer` as JSON (`specs/common/signature.rs` 31-38, conversion 164-171). -/
def Signer.toJson (x : Signer) : Json :=
  .mk [("algorithm", some (Algorithm.toJson x.algorithm)),
    ("value", some (Json.str x.value))]

/-- `Signer` from JSON (`specs/common/signature.rs` 31-38, conversion 173-180). -/
def Signer.ofJson (j : Json) : Except String Signer := do
  let o ← j.fields
  let algorithm' ← Json.req o "algorithm" Algorithm.ofJson
  let value' ← Json.req o "value" Json.string
  .ok { algorithm := algorithm',
        value := value' }

/-- `Signer` as XML (`specs/common/signature.rs` 49-59, 261-263, 270-272, 276). -/
def Signer.writeXml (tag : String) (x : Signer) : List WEvent :=
  writeElem tag [] (
    ((fun e => writeSimple "algorithm" (Algorithm.specName e)) x.algorithm) ++
    (((writeSimple "value") x.value)))

/-- The local variables of the reader of `Signer` (`specs/common/signature.rs` 61-109). -/
structure Signer.Vars where
  algorithm : Option Algorithm := none
  value : Option String := none

/-- The tags that the reader of `Signer` knows (`specs/common/signature.rs` 61-109). -/
def Signer.arms : List (String × Arm Signer.Vars) :=
  [("algorithm", arm (readSimple.map Algorithm.ofSpecName) fun y s => { s with algorithm := some y }),
   ("value", arm readSimple fun y s => { s with value := some y })]

/-- `Signer` from XML (`specs/common/signature.rs` 61-109). -/
def Signer.readXml : XElem Signer :=
  readStruct .fail (fun _ _ => .ok ())
    ({} : Signer.Vars) Signer.arms (fun el _ vars => do
      let algorithm' ← required "algorithm" el vars.algorithm
      let value' ← required "value" el vars.value
      .ok { algorithm := algorithm',
            value := value' })

/-- `Signature` as JSON (`specs/common/signature.rs` 112-121, conversion 150-162). -/
def Signature.toJson : Signature → Json
  | .signers l => Json.ofList Signer.toJson l
  | .chain l => Json.ofList Signer.toJson l
  | .single s => Signer.toJson s

/-- `Signature` from JSON (`specs/common/signature.rs` 112-121, conversion 182-194): the variants
are tried in order, so that an array is always a list of signers. -/
def Signature.ofJson (j : Json) : Except String Signature :=
  match Json.array Signer.ofJson j with
  | .ok l => .ok (.signers l)
  | .error _ =>
    match Json.array Signer.ofJson j with
    | .ok l => .ok (.chain l)
    | .error _ => (Signer.ofJson j).map .single

/-- `Signature` as XML (`specs/common/signature.rs` 250-283). -/
def Signature.writeXml : Signature → List WEvent
  | .signers l => writeElem "signature" [] (writeList "signers" (Signer.writeXml "signer") l)
  | .chain l => writeElem "signature" [] (writeList "chain" (Signer.writeXml "chain") l)
  | .single s => Signer.writeXml "signature" s

/-- The local variables of the reader of `Signature` (`specs/common/signature.rs` 302-304). -/
structure Signature.Vars where
  signature : Option Signature := none
  algorithm : Option String := none
  value : Option String := none

/-- The tags that the reader of `Signature` knows (`specs/common/signature.rs` 313-326). -/
def Signature.arms : List (String × Arm Signature.Vars) :=
  [("signers", arm (readList "signer" Signer.readXml) fun y s => { s with signature := some (.signers y) }),
   ("chain", arm (readList "chain" Signer.readXml) fun y s => { s with signature := some (.chain y) }),
   ("algorithm", arm readSimple fun y s => { s with algorithm := some y }),
   ("value", arm readSimple fun y s => { s with value := some y })]

/-- The last arm of the `match` in the reader of `Signature` (`specs/common/signature.rs` 330-333):
whatever the event was, a signer is read, up to the end tag of the signature. -/
def Signature.other (el : XName) (st : Signature.Vars) (l : List XEvent) :
    Except XErr (Bool × Signature.Vars × List XEvent) := do
  let (s, l) ← Signer.readXml el [] l
  .ok (false, { st with signature := some (.single s) }, l)

/-- One turn of the loop in the reader of `Signature` (`specs/common/signature.rs` 307-335), which
also says whether it was the last. -/
def Signature.step (el : XName) (st : Signature.Vars) (e : XEvent) (l : List XEvent) :
    Except XErr (Bool × Signature.Vars × List XEvent) :=
  match e with
  | .start n attrs _ =>
    match Signature.arms.lookup n.localName with
    | some act => (act n attrs st l).map fun r => (false, r)
    | none => Signature.other el st l
  | .stop n => if n = el then .ok (true, st, l) else Signature.other el st l
  | _ => Signature.other el st l

/-- The loop in the reader of `Signature` (`specs/common/signature.rs` 307-335). As in `readLoop`, the
fuel and the length test only make the function total. -/
def Signature.loop (el : XName) : Nat → Signature.Vars → XRead Signature.Vars
  | 0, _, _ => .error .depth
  | _ + 1, _, [] => .error .eof
  | fuel + 1, st, e :: l =>
    match Signature.step el st e l with
    | .error x => .error x
    | .ok (true, r) => .ok r
    | .ok (false, st', l') =>
      if l'.length ≤ l.length then Signature.loop el fuel st' l' else .error .stuck

/-- The value that the reader of `Signature` returns (`specs/common/signature.rs` 339-354). -/
def Signature.fin (el : XName) (st : Signature.Vars) : Except XErr Signature :=
  match st.signature with
  | some s => .ok s
  | none => do
    let a ← required "algorithm" el st.algorithm
    let x ← required "value" el st.value
    .ok (.single { algorithm := Algorithm.ofSpecName a, value := x })

/-- `Signature` from XML (`specs/common/signature.rs` 293-356). -/
def Signature.readXml : XElem Signature := fun el _ evs => do
  let (st, l) ← Signature.loop el (evs.length + 1) {} evs
  let x ← Signature.fin el st
  .ok (x, l)

/-- `Dependency` as JSON (`specs/common/dependency.rs` 78-85, conversion 96-103). -/
def Dependency.toJson (x : Dependency) : Json :=
  .mk [("ref", some (Json.str x.dependencyRef)),
    ("dependsOn", Json.unlessEmpty Json.str x.dependencies)]

/-- `Dependency` from JSON (`specs/common/dependency.rs` 78-85, conversion 87-94). -/
def Dependency.ofJson (j : Json) : Except String Dependency := do
  let o ← j.fields
  let dependencyRef' ← Json.req o "ref" Json.string
  let dependencies' ← Json.orEmpty o "dependsOn" Json.string
  .ok { dependencyRef := dependencyRef',
        dependencies := dependencies' }

/-- `Dependency` as XML (`specs/common/dependency.rs` 108-133). -/
def Dependency.writeXml (x : Dependency) : List WEvent :=
  writeElem "dependency" (mkAttrs [("ref", some x.dependencyRef)]) (
    (x.dependencies.flatMap (writeRef "dependency")))

/-- The local variables of the reader of `Dependency` (`specs/common/dependency.rs` 135-175). -/
structure Dependency.Vars where
  dependencies : (List String) := []

/-- The tags that the reader of `Dependency` knows (`specs/common/dependency.rs` 135-175). -/
def Dependency.arms : List (String × Arm Dependency.Vars) :=
  [("dependency", arm readRef fun y s =>
      { s with dependencies := s.dependencies ++ [y] })]

/-- `Dependency` from XML (`specs/common/dependency.rs` 135-175). -/
def Dependency.readXml : XElem Dependency :=
  readStruct .fail (fun el attrs => do
      let a0 ← reqAttr el attrs "ref"
      .ok (a0))
    ({} : Dependency.Vars) Dependency.arms (fun _ a0 vars =>
      .ok { dependencyRef := a0,
            dependencies := vars.dependencies })

/-- `Composition` as JSON (`specs/common/composition.rs` 88-105, conversion 107-121).
Simplification: members of later versions come last; the order of members is not significant (C80). -/
def Composition.toJson (v : SpecVersion) (x : Composition) : Json :=
  .mk ([("aggregate", some ((Json.ofEnum AggregateType.display) x.aggregate)),
    ("assemblies", x.assemblies.map (Json.ofList Json.str)),
    ("dependencies", x.dependencies.map (Json.ofList Json.str))] ++
    since14 v [("signature", x.signature.map Signature.toJson)] [] ++
    since15 v [("bomRef", x.bomRef.map Json.str),
    ("vulnerabilities", x.vulnerabilities.map (Json.ofList Json.str))] [])

/-- `Composition` from JSON (`specs/common/composition.rs` 88-105, conversion 123-143). -/
def Composition.ofJson (v : SpecVersion) (j : Json) : Except String Composition := do
  let o ← j.fields
  let bomRef' ← since15 v (Json.opt o "bomRef" Json.string) (.ok none)
  let aggregate' ← Json.req o "aggregate" (Json.enum AggregateType.new)
  let assemblies' ← Json.opt o "assemblies" (Json.array Json.string)
  let dependencies' ← Json.opt o "dependencies" (Json.array Json.string)
  let vulnerabilities' ← since15 v (Json.opt o "vulnerabilities" (Json.array Json.string)) (.ok none)
  let signature' ← since14 v (Json.opt o "signature" Signature.ofJson) (.ok none)
  .ok { bomRef := bomRef',
        aggregate := aggregate',
        assemblies := assemblies',
        dependencies := dependencies',
        vulnerabilities := vulnerabilities',
        signature := signature' }

/-- `Composition` as XML (`specs/common/composition.rs` 160-220). -/
def Composition.writeXml (v : SpecVersion) (x : Composition) : List WEvent :=
  writeElem "composition" (mkAttrs [("bom-ref", since15 v x.bomRef none)]) (
    ((fun e => writeSimple "aggregate" (AggregateType.display e)) x.aggregate) ++
    ((writeOpt (writeList "assemblies" (writeRef "assembly")) x.assemblies) ++
    ((writeOpt (writeList "dependencies" (writeRef "dependency")) x.dependencies) ++
    ((since15 v (writeOpt (writeList "vulnerabilities" (writeRef "vulnerability")) x.vulnerabilities) []) ++
    ((since14 v (writeOpt Signature.writeXml x.signature) []))))))

/-- The local variables of the reader of `Composition` (`specs/common/composition.rs` 222-314). -/
structure Composition.Vars where
  aggregate : Option AggregateType := none
  assemblies : Option (List String) := none
  dependencies : Option (List String) := none
  vulnerabilities : Option (List String) := none
  signature : Option Signature := none

/-- The tags that the reader of `Composition` knows (`specs/common/composition.rs` 222-314). -/
def Composition.arms (v : SpecVersion) : List (String × Arm Composition.Vars) :=
  [("aggregate", arm (readSimple.map AggregateType.new) fun y s => { s with aggregate := some y }),
   ("assemblies", arm (readListLax "assembly" readRef) fun y s => { s with assemblies := some y }),
   ("dependencies", arm (readListLax "dependency" readRef) fun y s => { s with dependencies := some y })] ++
  since14 v [("signature", arm Signature.readXml fun y s => { s with signature := some y })] [] ++
  since15 v [("vulnerabilities", arm (readListLax "vulnerability" readRef) fun y s => { s with vulnerabilities := some y })] []

/-- `Composition` from XML (`specs/common/composition.rs` 222-314). -/
def Composition.readXml (v : SpecVersion) : XElem Composition :=
  readStruct .fail (fun el attrs => do
      .ok (since15 v (optAttr attrs "bom-ref") none))
    ({} : Composition.Vars) (Composition.arms v) (fun el a0 vars => do
      let aggregate' ← required "aggregate" el vars.aggregate
      .ok { bomRef := a0,
            aggregate := aggregate',
            assemblies := vars.assemblies,
            dependencies := vars.dependencies,
            vulnerabilities := vars.vulnerabilities,
            signature := vars.signature })

/-- `IdentifiableAction` as JSON (`specs/common/code.rs` 234-243, conversion 245-253). -/
def IdentifiableAction.toJson (x : IdentifiableAction) : Json :=
  .mk [("timestamp", x.timestamp.map Json.str),
    ("name", x.name.map Json.str),
    ("email", x.email.map Json.str)]

/-- `IdentifiableAction` from JSON (`specs/common/code.rs` 234-243, conversion 255-263). -/
def IdentifiableAction.ofJson (j : Json) : Except String IdentifiableAction := do
  let o ← j.fields
  let timestamp' ← Json.opt o "timestamp" Json.string
  let name' ← Json.opt o "name" Json.string
  let email' ← Json.opt o "email" Json.string
  .ok { timestamp := timestamp',
        name := name',
        email := email' }

/-- `IdentifiableAction` as XML (`specs/common/code.rs` 269-297). -/
def IdentifiableAction.writeXml (tag : String) (x : IdentifiableAction) : List WEvent :=
  writeElem tag [] (
    (writeOpt (writeSimple "timestamp") x.timestamp) ++
    ((writeOpt (writeSimple "name") x.name) ++
    ((writeOpt (writeSimple "email") x.email))))

/-- The local variables of the reader of `IdentifiableAction` (`specs/common/code.rs` 299-344). -/
structure IdentifiableAction.Vars where
  timestamp : Option String := none
  name : Option String := none
  email : Option String := none

/-- The tags that the reader of `IdentifiableAction` knows (`specs/common/code.rs` 299-344). -/
def IdentifiableAction.arms : List (String × Arm IdentifiableAction.Vars) :=
  [("timestamp", arm readSimple fun y s => { s with timestamp := some y }),
   ("name", arm readSimple fun y s => { s with name := some y }),
   ("email", arm readSimple fun y s => { s with email := some y })]

/-- `IdentifiableAction` from XML (`specs/common/code.rs` 299-344). -/
def IdentifiableAction.readXml : XElem IdentifiableAction :=
  readStruct .skip (fun _ _ => .ok ())
    ({} : IdentifiableAction.Vars) IdentifiableAction.arms (fun _ _ vars =>
      .ok { timestamp := vars.timestamp,
            name := vars.name,
            email := vars.email })

/-- `Commit` as JSON (`specs/common/code.rs` 85-98, conversion 100-110). -/
def Commit.toJson (x : Commit) : Json :=
  .mk [("uid", x.uid.map Json.str),
    ("url", x.url.map Json.str),
    ("author", x.author.map IdentifiableAction.toJson),
    ("committer", x.committer.map IdentifiableAction.toJson),
    ("message", x.message.map Json.str)]

/-- `Commit` from JSON (`specs/common/code.rs` 85-98, conversion 112-122). -/
def Commit.ofJson (j : Json) : Except String Commit := do
  let o ← j.fields
  let uid' ← Json.opt o "uid" Json.string
  let url' ← Json.opt o "url" Json.string
  let author' ← Json.opt o "author" IdentifiableAction.ofJson
  let committer' ← Json.opt o "committer" IdentifiableAction.ofJson
  let message' ← Json.opt o "message" Json.string
  .ok { uid := uid',
        url := url',
        author := author',
        committer := committer',
        message := message' }

/-- `Commit` as XML (`specs/common/code.rs` 131-166). -/
def Commit.writeXml (x : Commit) : List WEvent :=
  writeElem "commit" [] (
    (writeOpt (writeSimple "uid") x.uid) ++
    ((writeOpt (writeSimple "url") x.url) ++
    ((writeOpt (IdentifiableAction.writeXml "author") x.author) ++
    ((writeOpt (IdentifiableAction.writeXml "committer") x.committer) ++
    ((writeOpt (writeSimple "message") x.message))))))

/-- The local variables of the reader of `Commit` (`specs/common/code.rs` 168-232). -/
structure Commit.Vars where
  uid : Option String := none
  url : Option String := none
  author : Option IdentifiableAction := none
  committer : Option IdentifiableAction := none
  message : Option String := none

/-- The tags that the reader of `Commit` knows (`specs/common/code.rs` 168-232). -/
def Commit.arms : List (String × Arm Commit.Vars) :=
  [("uid", arm readSimple fun y s => { s with uid := some y }),
   ("url", arm readSimple fun y s => { s with url := some y }),
   ("author", arm IdentifiableAction.readXml fun y s => { s with author := some y }),
   ("committer", arm IdentifiableAction.readXml fun y s => { s with committer := some y }),
   ("message", arm readSimple fun y s => { s with message := some y })]

/-- `Commit` from XML (`specs/common/code.rs` 168-232). -/
def Commit.readXml : XElem Commit :=
  readStruct .skip (fun _ _ => .ok ())
    ({} : Commit.Vars) Commit.arms (fun _ _ vars =>
      .ok { uid := vars.uid,
            url := vars.url,
            author := vars.author,
            committer := vars.committer,
            message := vars.message })

/-- `Diff` as JSON (`specs/common/code.rs` 513-520, conversion 522-529). -/
def Diff.toJson (x : Diff) : Json :=
  .mk [("text", x.text.map AttachedText.toJson),
    ("url", x.url.map Json.str)]

/-- `Diff` from JSON (`specs/common/code.rs` 513-520, conversion 531-538). -/
def Diff.ofJson (j : Json) : Except String Diff := do
  let o ← j.fields
  let text' ← Json.opt o "text" AttachedText.ofJson
  let url' ← Json.opt o "url" Json.string
  .ok { text := text',
        url := url' }

/-- `Diff` as XML (`specs/common/code.rs` 544-565). -/
def Diff.writeXml (x : Diff) : List WEvent :=
  writeElem "diff" [] (
    (writeOpt (AttachedText.writeXml "text") x.text) ++
    ((writeOpt (writeSimple "url") x.url)))

/-- The local variables of the reader of `Diff` (`specs/common/code.rs` 572-613). -/
structure Diff.Vars where
  text : Option AttachedText := none
  url : Option String := none

/-- The tags that the reader of `Diff` knows (`specs/common/code.rs` 572-613). -/
def Diff.arms : List (String × Arm Diff.Vars) :=
  [("text", arm AttachedText.readXml fun y s => { s with text := some y }),
   ("url", arm readSimple fun y s => { s with url := some y })]

/-- `Diff` from XML (`specs/common/code.rs` 572-613). -/
def Diff.readXml : XElem Diff :=
  readStruct .skip (fun _ _ => .ok ())
    ({} : Diff.Vars) Diff.arms (fun _ _ vars =>
      .ok { text := vars.text,
            url := vars.url })

/-- `Diff::will_write` (`specs/common/code.rs` 567-569). -/
def Diff.willWrite (x : Diff) : Bool := x.text.isSome || x.url.isSome

/-- `Source` as JSON (`specs/common/code.rs` 779-786, conversion 788-795). -/
def Source.toJson (x : Source) : Json :=
  .mk [("name", x.name.map Json.str),
    ("url", x.url.map Json.str)]

/-- `Source` from JSON (`specs/common/code.rs` 779-786, conversion 797-804). -/
def Source.ofJson (j : Json) : Except String Source := do
  let o ← j.fields
  let name' ← Json.opt o "name" Json.string
  let url' ← Json.opt o "url" Json.string
  .ok { name := name',
        url := url' }

/-- `Source` as XML (`specs/common/code.rs` 809-830). -/
def Source.writeXml (x : Source) : List WEvent :=
  writeElem "source" [] (
    (writeOpt (writeSimple "name") x.name) ++
    ((writeOpt (writeSimple "url") x.url)))

/-- The local variables of the reader of `Source` (`specs/common/code.rs` 837-871). -/
structure Source.Vars where
  name : Option String := none
  url : Option String := none

/-- The tags that the reader of `Source` knows (`specs/common/code.rs` 837-871). -/
def Source.arms : List (String × Arm Source.Vars) :=
  [("name", arm readSimple fun y s => { s with name := some y }),
   ("url", arm readSimple fun y s => { s with url := some y })]

/-- `Source` from XML (`specs/common/code.rs` 837-871). -/
def Source.readXml : XElem Source :=
  readStruct .fail (fun _ _ => .ok ())
    ({} : Source.Vars) Source.arms (fun _ _ vars =>
      .ok { name := vars.name,
            url := vars.url })

/-- `Source::will_write` (`specs/common/code.rs` 832-834). -/
def Source.willWrite (x : Source) : Bool := x.name.isSome || x.url.isSome

/-- `Issue` as JSON (`specs/common/code.rs` 615-630, conversion 632-645). -/
def Issue.toJson (x : Issue) : Json :=
  .mk [("type", some ((Json.ofEnum IssueClassification.display) x.issueType)),
    ("id", x.id.map Json.str),
    ("name", x.name.map Json.str),
    ("description", x.description.map Json.str),
    ("source", x.source.map Source.toJson),
    ("references", x.references.map (Json.ofList Json.str))]

/-- `Issue` from JSON (`specs/common/code.rs` 615-630, conversion 647-660). -/
def Issue.ofJson (j : Json) : Except String Issue := do
  let o ← j.fields
  let issueType' ← Json.req o "type" (Json.enum IssueClassification.new)
  let id' ← Json.opt o "id" Json.string
  let name' ← Json.opt o "name" Json.string
  let description' ← Json.opt o "description" Json.string
  let source' ← Json.opt o "source" Source.ofJson
  let references' ← Json.opt o "references" (Json.array Json.string)
  .ok { issueType := issueType',
        id := id',
        name := name',
        description := description',
        source := source',
        references := references' }

/-- `Issue` as XML (`specs/common/code.rs` 667-714). -/
def Issue.writeXml (x : Issue) : List WEvent :=
  writeElem "issue" (mkAttrs [("type", some (IssueClassification.display x.issueType))]) (
    (writeOpt (writeSimple "id") x.id) ++
    ((writeOpt (writeSimple "name") x.name) ++
    ((writeOpt (writeSimple "description") x.description) ++
    ((writeOpt (fun c => if Source.willWrite c then Source.writeXml c else []) x.source) ++
    ((writeOpt (writeList "references" (writeSimple "url")) x.references))))))

/-- The local variables of the reader of `Issue` (`specs/common/code.rs` 716-777). -/
structure Issue.Vars where
  id : Option String := none
  name : Option String := none
  description : Option String := none
  source : Option Source := none
  references : Option (List String) := none

/-- The tags that the reader of `Issue` knows (`specs/common/code.rs` 716-777). -/
def Issue.arms : List (String × Arm Issue.Vars) :=
  [("id", arm readSimple fun y s => { s with id := some y }),
   ("name", arm readSimple fun y s => { s with name := some y }),
   ("description", arm readSimple fun y s => { s with description := some y }),
   ("source", arm Source.readXml fun y s => { s with source := some y }),
   ("references", arm (readList "url" readSimple) fun y s => { s with references := some y })]

/-- `Issue` from XML (`specs/common/code.rs` 716-777). -/
def Issue.readXml : XElem Issue :=
  readStruct .skip (fun el attrs => do
      let a0 ← reqAttr el attrs "type"
      .ok (a0))
    ({} : Issue.Vars) Issue.arms (fun _ a0 vars =>
      .ok { issueType := IssueClassification.new a0,
            id := vars.id,
            name := vars.name,
            description := vars.description,
            source := vars.source,
            references := vars.references })

/-- `Patch` as JSON (`specs/common/code.rs` 397-406, conversion 408-416). -/
def Patch.toJson (x : Patch) : Json :=
  .mk [("type", some ((Json.ofEnum PatchClassification.display) x.patchType)),
    ("diff", x.diff.map Diff.toJson),
    ("resolves", x.resolves.map (Json.ofList Issue.toJson))]

/-- `Patch` from JSON (`specs/common/code.rs` 397-406, conversion 418-426). -/
def Patch.ofJson (j : Json) : Except String Patch := do
  let o ← j.fields
  let patchType' ← Json.req o "type" (Json.enum PatchClassification.new)
  let diff' ← Json.opt o "diff" Diff.ofJson
  let resolves' ← Json.opt o "resolves" (Json.array Issue.ofJson)
  .ok { patchType := patchType',
        diff := diff',
        resolves := resolves' }

/-- `Patch` as XML (`specs/common/code.rs` 432-467). -/
def Patch.writeXml (x : Patch) : List WEvent :=
  writeElem "patch" (mkAttrs [("type", some (PatchClassification.display x.patchType))]) (
    (writeOpt (fun c => if Diff.willWrite c then Diff.writeXml c else []) x.diff) ++
    ((writeOpt (writeList "resolves" Issue.writeXml) x.resolves)))

/-- The local variables of the reader of `Patch` (`specs/common/code.rs` 469-511). -/
structure Patch.Vars where
  diff : Option Diff := none
  resolves : Option (List Issue) := none

/-- The tags that the reader of `Patch` knows (`specs/common/code.rs` 469-511). -/
def Patch.arms : List (String × Arm Patch.Vars) :=
  [("diff", arm Diff.readXml fun y s => { s with diff := some y }),
   ("resolves", arm (readList "issue" Issue.readXml) fun y s => { s with resolves := some y })]

/-- `Patch` from XML (`specs/common/code.rs` 469-511). -/
def Patch.readXml : XElem Patch :=
  readStruct .skip (fun el attrs => do
      let a0 ← reqAttr el attrs "type"
      .ok (a0))
    ({} : Patch.Vars) Patch.arms (fun _ a0 vars =>
      .ok { patchType := PatchClassification.new a0,
            diff := vars.diff,
            resolves := vars.resolves })

/-- `VulnerabilityAnalysis` as JSON (`specs/common/vulnerability_analysis.rs` 39-56, 240-287, conversion 58-71). -/
def VulnerabilityAnalysis.toJson (v : SpecVersion) (x : VulnerabilityAnalysis) : Json :=
  .mk ([("state", x.state.map (Json.ofEnum ImpactAnalysisState.display)),
    ("justification", x.justification.map (Json.ofEnum ImpactAnalysisJustification.display)),
    ("responses", x.responses.map (Json.ofList (Json.ofEnum ImpactAnalysisResponse.display))),
    ("detail", x.detail.map Json.str)] ++
    since15 v [("firstIssued", x.firstIssued.map Json.str),
    ("lastUpdated", x.lastUpdated.map Json.str)] [])

/-- `VulnerabilityAnalysis` from JSON (`specs/common/vulnerability_analysis.rs` 39-56, 240-287, conversion 73-90). -/
def VulnerabilityAnalysis.ofJson (v : SpecVersion) (j : Json) : Except String VulnerabilityAnalysis := do
  let o ← j.fields
  let state' ← Json.opt o "state" (Json.enum ImpactAnalysisState.new)
  let justification' ← Json.opt o "justification" (Json.enum ImpactAnalysisJustification.new)
  let responses' ← Json.opt o "responses" (Json.array (Json.enum ImpactAnalysisResponse.new))
  let detail' ← Json.opt o "detail" Json.string
  let firstIssued' ← since15 v (Json.opt o "firstIssued" Json.string) (.ok none)
  let lastUpdated' ← since15 v (Json.opt o "lastUpdated" Json.string) (.ok none)
  .ok { state := state',
        justification := justification',
        responses := responses',
        detail := detail',
        firstIssued := firstIssued',
        lastUpdated := lastUpdated' }

/-- `VulnerabilityAnalysis` as XML (`specs/common/vulnerability_analysis.rs` 103-146). -/
def VulnerabilityAnalysis.writeXml (v : SpecVersion) (x : VulnerabilityAnalysis) : List WEvent :=
  writeElem "analysis" [] (
    (writeOpt (fun e => writeSimple "state" (ImpactAnalysisState.display e)) x.state) ++
    ((writeOpt (fun e => writeSimple "justification" (ImpactAnalysisJustification.display e)) x.justification) ++
    ((writeOpt (writeList "responses" (fun e => writeSimple "response" (ImpactAnalysisResponse.display e))) x.responses) ++
    ((writeOpt (writeSimple "detail") x.detail) ++
    ((since15 v (writeOpt (writeSimple "firstIssued") x.firstIssued) []) ++
    ((since15 v (writeOpt (writeSimple "lastUpdated") x.lastUpdated) [])))))))

/-- The local variables of the reader of `VulnerabilityAnalysis` (`specs/common/vulnerability_analysis.rs` 148-238). -/
structure VulnerabilityAnalysis.Vars where
  state : Option ImpactAnalysisState := none
  justification : Option ImpactAnalysisJustification := none
  responses : Option (List ImpactAnalysisResponse) := none
  detail : Option String := none
  firstIssued : Option String := none
  lastUpdated : Option String := none

/-- The tags that the reader of `VulnerabilityAnalysis` knows (`specs/common/vulnerability_analysis.rs` 148-238). -/
def VulnerabilityAnalysis.arms (v : SpecVersion) : List (String × Arm VulnerabilityAnalysis.Vars) :=
  [("state", arm (readSimple.map ImpactAnalysisState.new) fun y s => { s with state := some y }),
   ("justification", arm (readSimple.map ImpactAnalysisJustification.new) fun y s => { s with justification := some y }),
   ("responses", arm (readList "response" (readSimple.map ImpactAnalysisResponse.new)) fun y s => { s with responses := some y }),
   ("detail", arm readSimple fun y s => { s with detail := some y })] ++
  since15 v [("firstIssued", arm readSimple fun y s => { s with firstIssued := some y }),
   ("lastUpdated", arm readSimple fun y s => { s with lastUpdated := some y })] []

/-- `VulnerabilityAnalysis` from XML (`specs/common/vulnerability_analysis.rs` 148-238). -/
def VulnerabilityAnalysis.readXml (v : SpecVersion) : XElem VulnerabilityAnalysis :=
  readStruct .skip (fun _ _ => .ok ())
    ({} : VulnerabilityAnalysis.Vars) (VulnerabilityAnalysis.arms v) (fun _ _ vars =>
      .ok { state := vars.state,
            justification := vars.justification,
            responses := vars.responses,
            detail := vars.detail,
            firstIssued := vars.firstIssued,
            lastUpdated := vars.lastUpdated })

/-- The members that a flattened `VersionRange` adds to an object (`specs/common/vulnerability_target.rs` 342-349, conversion 351-361). -/
def VersionRange.toFields : VersionRange → List (String × Option Json)
  | .version y => [("version", some (Json.str y))]
  | .range y => [("range", some (Json.str y))]
  | .undefinedVersionRange y => [("undefinedVersionRange", some (Json.str y))]

/-- A flattened `VersionRange` from the members of an object (`specs/common/vulnerability_target.rs` 342-349, conversion 363-371). -/
def VersionRange.ofFields (o : List (String × Json)) : Except String VersionRange :=
  Json.flatVariant o
  [("range", fun j => (Json.string j).map .range),
   ("undefinedVersionRange", fun j => (Json.string j).map .undefinedVersionRange),
   ("version", fun j => (Json.string j).map .version)]

/-- `VersionRange` as XML (`specs/common/vulnerability_target.rs` 373-390). -/
def VersionRange.writeXml : VersionRange → List WEvent
  | .version y => (writeSimple "version") y
  | .range y => (writeSimple "range") y
  | .undefinedVersionRange y => []

/-- `TargetVersion` as JSON (`specs/common/vulnerability_target.rs` 239-245, 412-435, conversion 247-254). -/
def TargetVersion.toJson (x : TargetVersion) : Json :=
  .mk (VersionRange.toFields x.versionRange ++
    [("status", some ((Json.ofEnum Status.display) x.status))])

/-- `TargetVersion` from JSON (`specs/common/vulnerability_target.rs` 239-245, 412-435, conversion 256-263). -/
def TargetVersion.ofJson (j : Json) : Except String TargetVersion := do
  let o ← j.fields
  let versionRange' ← VersionRange.ofFields o
  let status' ← Json.req o "status" (Json.enum Status.new)
  .ok { versionRange := versionRange',
        status := status' }

/-- `TargetVersion` as XML (`specs/common/vulnerability_target.rs` 265-279, 439-446). -/
def TargetVersion.writeXml (x : TargetVersion) : List WEvent :=
  writeElem "version" [] (
    (VersionRange.writeXml x.versionRange) ++
    (((fun e => writeSimple "status" (Status.display e)) x.status)))

/-- The local variables of the reader of `TargetVersion` (`specs/common/vulnerability_target.rs` 283-340, 392-410, 448-459). -/
structure TargetVersion.Vars where
  versionRange : Option VersionRange := none
  status : Option Status := none

/-- The tags that the reader of `TargetVersion` knows (`specs/common/vulnerability_target.rs` 283-340, 392-410, 448-459). -/
def TargetVersion.arms : List (String × Arm TargetVersion.Vars) :=
  [("version", arm readSimple fun y s => { s with versionRange := some (.version y) }),
   ("range", arm readSimple fun y s => { s with versionRange := some (.range y) }),
   ("status", arm (readSimple.map Status.new) fun y s => { s with status := some y })]

/-- `TargetVersion` from XML (`specs/common/vulnerability_target.rs` 283-340, 392-410, 448-459). -/
def TargetVersion.readXml : XElem TargetVersion :=
  readStruct .skip (fun _ _ => .ok ())
    ({} : TargetVersion.Vars) TargetVersion.arms (fun el _ vars => do
      let versionRange' ← required "version || range" el vars.versionRange
      .ok { versionRange := versionRange',
            status := vars.status.getD .affected })

/-- `VulnerabilityTarget` as JSON (`specs/common/vulnerability_target.rs` 82-89, 191-205, conversion 91-98). -/
def VulnerabilityTarget.toJson (x : VulnerabilityTarget) : Json :=
  .mk [("ref", some (Json.str x.bomRef)),
    ("versions", x.versions.map (Json.ofList TargetVersion.toJson))]

/-- `VulnerabilityTarget` from JSON (`specs/common/vulnerability_target.rs` 82-89, 191-205, conversion 100-107). -/
def VulnerabilityTarget.ofJson (j : Json) : Except String VulnerabilityTarget := do
  let o ← j.fields
  let bomRef' ← Json.req o "ref" Json.string
  let versions' ← Json.opt o "versions" (Json.array TargetVersion.ofJson)
  .ok { bomRef := bomRef',
        versions := versions' }

/-- `VulnerabilityTarget` as XML (`specs/common/vulnerability_target.rs` 113-137). -/
def VulnerabilityTarget.writeXml (x : VulnerabilityTarget) : List WEvent :=
  writeElem "target" [] (
    ((writeSimple "ref") x.bomRef) ++
    ((writeOpt (writeList "versions" TargetVersion.writeXml) x.versions)))

/-- The local variables of the reader of `VulnerabilityTarget` (`specs/common/vulnerability_target.rs` 139-189, 226-237). -/
structure VulnerabilityTarget.Vars where
  bomRef : Option String := none
  versions : Option (List TargetVersion) := none

/-- The tags that the reader of `VulnerabilityTarget` knows (`specs/common/vulnerability_target.rs` 139-189, 226-237). -/
def VulnerabilityTarget.arms : List (String × Arm VulnerabilityTarget.Vars) :=
  [("ref", arm readSimple fun y s => { s with bomRef := some y }),
   ("versions", arm (readListLax "version" TargetVersion.readXml) fun y s => { s with versions := some y })]

/-- `VulnerabilityTarget` from XML (`specs/common/vulnerability_target.rs` 139-189, 226-237). -/
def VulnerabilityTarget.readXml : XElem VulnerabilityTarget :=
  readStruct .skip (fun _ _ => .ok ())
    ({} : VulnerabilityTarget.Vars) VulnerabilityTarget.arms (fun el _ vars => do
      let bomRef' ← required "ref" el vars.bomRef
      .ok { bomRef := bomRef',
            versions := vars.versions })

end Cdx
