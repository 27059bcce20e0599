import Verif.Model.Json
import Verif.Model.Strings

set_option linter.unusedVariables false

/-!
# XML events, and the readers and writers of `cyclonedx-bom/src/xml.rs`

Writers produce the events they hand to `xml::EventWriter`; readers consume the events that
`xml::EventReader` delivers. The crate between the two (`xml-rs`: escaping, indentation, parsing,
name resolution) is external; `deliver` states what it is taken to do with the events of one
document: the closing tags get the names of the tags they close, every tag is in the default
namespace of the root, text is trimmed, and blank text disappears (`trim_whitespace(true)`,
`models/bom.rs` 221, 268, 308).
-/

namespace Cdx

/-- `xml::writer::XmlEvent`, as used by the writers: `start_element(tag).attr(..)`, `characters`,
`cdata` and `end_element()`, which carries no name (`xml.rs` 68-118). -/
inductive WEvent where
  | start (tag : String) (attrs : List (String × String))
  | chars (s : String)
  | cdata (s : String)
  | stop
  deriving DecidableEq, Repr

/-- `xml::name::OwnedName`. -/
structure XName where
  localName : String
  ns : Option String := none
  pre : Option String := none
  deriving DecidableEq, Repr

/-- `Display` of `OwnedName`, which `inner_text_or_none` compares (`xml.rs` 325-334, 484). -/
def XName.display (n : XName) : String :=
  (match n.ns with | some ns => "{" ++ ns ++ "}" | none => "") ++
  (match n.pre with | some p => p ++ ":" | none => "") ++ n.localName

/-- `xml::reader::XmlEvent`. `other` stands for processing instructions. The namespace of a start
tag is the one bound to the empty prefix there (`expected_namespace_or_error`, `xml.rs` 296-313). -/
inductive XEvent where
  | startDocument
  | start (name : XName) (attrs : List (String × String)) (ns : Option String)
  | stop (name : XName)
  | chars (s : String)
  | cdata (s : String)
  | other
  | endDocument
  deriving DecidableEq, Repr

/-- `XmlReadError` (`errors.rs` 69-96), without the texts. `eof` is the error of `next()` at the
end of the events; `depth` and `stuck` exist only in the model. -/
inductive XErr where
  | eof
  | unexpected (element : String)
  | missing (field element : String)
  | invalid (value dataType element : String)
  | namespace (actual : Option String)
  | depth
  | stuck
  deriving DecidableEq, Repr

/-- A reader works on the events that are left. -/
abbrev XRead (α : Type) := List XEvent → Except XErr (α × List XEvent)

/-- `FromXml::read_xml_element` (`xml.rs` 162-170): called after the start tag was consumed. -/
abbrev XElem (α : Type) := XName → List (String × String) → XRead α

/-! ## What the XML library does between writer and reader -/

/-- White space of XML, which `trim_whitespace` removes (`models/bom.rs` 221). -/
def xmlSpace (c : Char) : Bool := c == ' ' || c == '\n' || c == '\t' || c == '\r'

/-- `trim_matches` with `xmlSpace`, in `xml-rs` (`models/bom.rs` 221). -/
def xmlTrim (s : String) : String :=
  String.ofList ((s.toList.dropWhile xmlSpace).reverse.dropWhile xmlSpace).reverse

/-- Whether a text contains `]]>`, the end of a CDATA section. `xml-rs` writes the text of a CDATA
section as it is (`specs/common/component.rs` 1290-1292). -/
def endsCdata : List Char → Bool
  | [] => false
  | c :: l => List.isPrefixOf [']', ']', '>'] (c :: l) || endsCdata l

/-- Writing events and reading the resulting document (`models/bom.rs` 221-223, 242-246), from the
root's start tag to its end tag. `ns` is the default namespace of the root and `stk` has the names
of the open tags. Simplification: a CDATA section whose text contains `]]>` ends early, and the rest
of the text is read as markup; here an event is delivered that no reader of a text accepts. -/
def deliver (ns : Option String) : List XName → List WEvent → List XEvent
  | _, [] => []
  | stk, .start t attrs :: l => .start ⟨t, ns, none⟩ attrs ns :: deliver ns (⟨t, ns, none⟩ :: stk) l
  | stk, .chars s :: l =>
    if xmlTrim s = "" then deliver ns stk l else .chars (xmlTrim s) :: deliver ns stk l
  | stk, .cdata s :: l =>
    (if endsCdata s.toList = true then .other else .cdata s) :: deliver ns stk l
  | [], .stop :: l => []
  | n :: stk, .stop :: l => .stop n :: deliver ns stk l

/-- What only versions 1.4 and 1.5 have: the code under `#[versioned("1.4", "1.5")]` (for example
`specs/common/bom.rs` 99-101); other versions have `d`. -/
def since14 {α : Type} (v : SpecVersion) (x d : α) : α :=
  match v with
  | .v1_3 => d
  | .v1_4 => x
  | .v1_5 => x

/-- What only version 1.5 has: the code under `#[versioned("1.5")]` (for example
`specs/common/bom.rs` 105-113). -/
def since15 {α : Type} (v : SpecVersion) (x d : α) : α :=
  match v with
  | .v1_3 => d
  | .v1_4 => d
  | .v1_5 => x

/-! ## Writers -/

/-- `write_simple_tag` (`xml.rs` 68-86). -/
def writeSimple (tag content : String) : List WEvent := [.start tag [], .chars content, .stop]

/-- An `if let Some` or `write_xml_element` of an option (`xml.rs` 21-36, 88-98). -/
def writeOpt {α : Type} (w : α → List WEvent) : Option α → List WEvent
  | some x => w x
  | none => []

/-- `write_simple_option_tag` (`xml.rs` 88-98). -/
def writeSimpleOpt (tag : String) (content : Option String) : List WEvent :=
  writeOpt (writeSimple tag) content

/-- A start tag with attributes, some content, and the end tag (`write_start_tag`,
`write_close_tag`, `xml.rs` 101-118). -/
def writeElem (tag : String) (attrs : List (String × String)) (body : List WEvent) : List WEvent :=
  .start tag attrs :: (body ++ [.stop])

/-- `write_list_tag` (`xml.rs` 120-132). -/
def writeList {α : Type} (tag : String) (w : α → List WEvent) (l : List α) : List WEvent :=
  writeElem tag [] (l.flatMap w)

/-- `write_list_string_tag` (`xml.rs` 134-147). -/
def writeStrings (tag child : String) (l : List String) : List WEvent :=
  writeList tag (writeSimple child) l

/-- The attributes of a start tag; an attribute may be written only if present (for example
`specs/common/organization.rs` 79-85). -/
def mkAttrs (l : List (String × Option String)) : List (String × String) :=
  l.filterMap fun p => p.2.map fun v => (p.1, v)

/-- `bool::to_string`. -/
def boolStr (b : Bool) : String := if b then "true" else "false"

/-! ## Readers -/

/-- `attribute_or_error` (`xml.rs` 346-360). -/
def reqAttr (el : XName) (attrs : List (String × String)) (name : String) : Except XErr String :=
  match attrs.lookup name with
  | some v => .ok v
  | none => .error (.missing name el.localName)

/-- `optional_attribute` (`xml.rs` 362-371). -/
def optAttr (attrs : List (String × String)) (name : String) : Option String := attrs.lookup name

/-- `closing_tag_or_error` (`xml.rs` 336-344). -/
def readClose (el : XName) : XRead Unit
  | .stop n :: l => if n = el then .ok ((), l) else .error (.unexpected el.localName)
  | _ :: _ => .error (.unexpected el.localName)
  | [] => .error .eof

/-- `inner_text_or_error` (`xml.rs` 315-323). -/
def readText (el : XName) : XRead String
  | .chars s :: l => .ok (s, l)
  | .cdata s :: l => .ok (s, l)
  | _ :: _ => .error (.unexpected el.localName)
  | [] => .error .eof

/-- `read_simple_tag` (`xml.rs` 456-478); also `FromXml for String` (567-578). -/
def readSimple : XElem String := fun el _ evs =>
  match evs with
  | .stop _ :: l => .ok ("", l)
  | .chars s :: l => do
    let ((), l) ← readClose el l
    .ok (s, l)
  | .cdata s :: l => do
    let ((), l) ← readClose el l
    .ok (s, l)
  | _ :: _ => .error (.unexpected el.localName)
  | [] => .error .eof

/-- `inner_text_or_error` followed by `closing_tag_or_error` (`specs/common/attached_text.rs`
113-121, `specs/common/license.rs` 469-479): unlike `read_simple_tag`, there must be a text. -/
def readInner : XElem String := fun el _ evs => do
  let (s, l) ← readText el evs
  let ((), l) ← readClose el l
  .ok (s, l)

/-- `read_optional_tag` (`xml.rs` 480-499) with `inner_text_or_none` (325-334). -/
def readOptional : XElem (Option String) := fun el _ evs =>
  match evs with
  | .chars s :: l => do
    let ((), l) ← readClose el l
    .ok (some s, l)
  | .cdata s :: l => do
    let ((), l) ← readClose el l
    .ok (some s, l)
  | .stop n :: l => if n.display = el.display then .ok (none, l) else .error (.unexpected el.localName)
  | _ :: _ => .error (.unexpected el.localName)
  | [] => .error .eof

/-- `str::parse::<u32>`: an optional plus sign, digits, less than 2³² (`xml.rs` 405-423, 511). -/
def parseU32 (s : String) : Option Nat :=
  let ds := if s.toList.head? = some '+' then s.toList.tail else s.toList
  if ds.isEmpty || !ds.all Char.isDigit then none
  else
    let n := Nat.ofDigitChars 10 ds 0
    if n < 2 ^ 32 then some n else none

/-- `u32::to_string`. -/
def showNat (n : Nat) : String := toString n

/-- `read_u32_tag` (`xml.rs` 501-528). -/
def readU32 : XElem Nat := fun el _ evs => do
  let (s, l) ← readText el evs
  match parseU32 (trim s) with
  | some n => do
    let ((), l) ← readClose el l
    .ok (n, l)
  | none => .error (.invalid s "u32" el.localName)

/-- `read_f32_tag` (`xml.rs` 530-557). -/
def readF32 [F32Format] : XElem F32 := fun el _ evs => do
  let (s, l) ← readText el evs
  match F32Format.parse (trim s) with
  | some n => do
    let ((), l) ← readClose el l
    .ok (n, l)
  | none => .error (.invalid s "f32" el.localName)

/-- `f32::from_xml_value` (`xml.rs` 425-443). -/
def parseF32 [F32Format] (el value : String) : Except XErr F32 :=
  match F32Format.parse value with
  | some n => .ok n
  | none => .error (.invalid value "xs:decimal" el)

/-- The score of a rating (`specs/common/vulnerability_rating.rs` 210-215). -/
def readScore [F32Format] : XElem F32 := fun el attrs evs => do
  let (s, l) ← readSimple el attrs evs
  let n ← parseF32 "score" s
  .ok (n, l)

/-- A reference as an empty element with an attribute `ref` (`specs/common/bom_reference.rs` 64-78,
`specs/common/dependency.rs` 117-125). -/
def writeRef (tag r : String) : List WEvent := writeElem tag (mkAttrs [("ref", some r)]) []

/-- An empty element with an attribute `ref` (`specs/common/bom_reference.rs` 80-97,
`specs/common/dependency.rs` 151-162). -/
def readRef : XElem String := fun el attrs evs => do
  let r ← reqAttr el attrs "ref"
  let ((), l) ← readClose el evs
  .ok (r, l)

/-- `bool::from_xml_value` (`xml.rs` 383-403). -/
def parseBool (el value : String) : Except XErr Bool :=
  if value = "true" ∨ value = "1" then .ok true
  else if value = "false" ∨ value = "0" then .ok false
  else .error (.invalid value "xs:boolean" el)

/-- `read_boolean_tag` (`xml.rs` 559-565). -/
def readBool : XElem Bool := fun el attrs evs => do
  let (s, l) ← readSimple el attrs evs
  let b ← parseBool el.localName s
  .ok (b, l)

/-- `read_lax_validation_tag` (`xml.rs` 647-675), with the names of the open elements instead of
the recursive calls. -/
def skipElem : List XName → List XEvent → Except XErr (List XEvent)
  | [], l => .ok l
  | _ :: _, [] => .error .eof
  | stk, .start n _ _ :: l => skipElem (n :: stk) l
  | e :: stk, .stop n :: l => if n = e then skipElem stk l else .error (.unexpected e.localName)
  | e :: _, .endDocument :: _ => .error (.unexpected e.localName)
  | stk, _ :: l => skipElem stk l

/-- One arm of the `match` on the tag in a reader loop: what it does with an element and the state
of the local variables. -/
abbrev Arm (σ : Type) := XName → List (String × String) → σ → XRead σ

/-- What a reader loop does with something it does not know. `fail`: unknown tags are errors
(`get_elements!`, `xml.rs` 207-240). `skip`: an unknown element is skipped by
`read_lax_validation_tag` (`get_elements_lax!`, 172-205). `ignore`: the last arm of the `match` is
`_ => ()`, so that every event that no arm takes is dropped, and the events inside an unknown
element are looked at as if they were children (for example `specs/v1_5/component_data.rs`
216-259). -/
inductive Unknown where
  | fail
  | skip
  | ignore
  deriving DecidableEq, Repr

/-- The loop that all structure readers share: `while !got_end_tag { match event_reader.next() … }`
(`get_elements_lax!` and `get_elements!`, `xml.rs` 172-240, and the same loop written out in
`specs`, for example `specs/common/organization.rs` 113-151). `arms` are the arms of the `match` on
the local name in order, `mode` says what is done with unknown tags, `isEnd` is the test on the end
tag (most loops compare the whole name). The length test never fails for the readers of the
program, since a reader does not put events back; it makes the function total. In `ignore` mode the
program would loop at the end of the document, which the XML library reports as an error before
an element is closed. -/
def readLoop {σ : Type} (mode : Unknown) (isEnd : XName → Bool) (el : XName)
    (arms : List (String × Arm σ)) : Nat → σ → XRead σ
  | 0, _, _ => .error .depth
  | fuel + 1, st, evs =>
    match evs with
    | [] => .error .eof
    | .start n attrs _ :: l =>
      match arms.lookup n.localName with
      | some act =>
        match act n attrs st l with
        | .ok (st', l') =>
          if l'.length ≤ l.length then readLoop mode isEnd el arms fuel st' l' else .error .stuck
        | .error e => .error e
      | none =>
        match mode with
        | .fail => .error (.unexpected el.localName)
        | .skip =>
          match skipElem [n] l with
          | .ok l' =>
            if l'.length ≤ l.length then readLoop mode isEnd el arms fuel st l' else .error .stuck
          | .error e => .error e
        | .ignore => readLoop mode isEnd el arms fuel st l
    | .stop n :: l =>
      if isEnd n then .ok (st, l)
      else if mode = .ignore then readLoop mode isEnd el arms fuel st l
      else .error (.unexpected el.localName)
    | _ :: l =>
      if mode = .ignore then readLoop mode isEnd el arms fuel st l
      else .error (.unexpected el.localName)

/-- The loop with enough fuel for all its iterations, each of which consumes an event. -/
def readFields {σ : Type} (mode : Unknown) (el : XName) (arms : List (String × Arm σ)) (st : σ) :
    XRead σ :=
  fun evs => readLoop mode (fun n => n = el) el arms (evs.length + 1) st evs

/-- An arm that reads an element and stores it in a variable (`$name = Some(…)`). -/
def arm {σ α : Type} (r : XElem α) (set : α → σ → σ) : Arm σ := fun n attrs st evs => do
  let (x, l) ← r n attrs evs
  .ok (set x st, l)

/-- An arm that reads an element and stores it in a variable, but fails if the variable is set
(`specs/common/license.rs` 330-350). -/
def armOnce {σ α : Type} (r : XElem α) (isSet : σ → Bool) (set : α → σ → σ) : Arm σ :=
  fun n attrs st evs =>
    if isSet st then .error (.unexpected n.localName) else arm r set n attrs st evs

/-- The readers of structures: look at the attributes (`pre`), read the children into local
variables (`init`, `arms`), and put the value together (`fin`), which fails if something required is
missing (for example `specs/common/organization.rs` 109-157). -/
def readStruct {ρ σ α : Type} (mode : Unknown) (pre : XName → List (String × String) → Except XErr ρ)
    (init : σ) (arms : List (String × Arm σ)) (fin : XName → ρ → σ → Except XErr α) : XElem α :=
  fun el attrs evs => do
    let p ← pre el attrs
    let (st, l) ← readFields mode el arms init evs
    let x ← fin el p st
    .ok (x, l)

/-- Something that must have been read (`ok_or_else(|| XmlReadError::RequiredDataMissing …)`, for
example `specs/common/external_reference.rs` 199-202). -/
def required {α : Type} (field : String) (el : XName) : Option α → Except XErr α
  | some x => .ok x
  | none => .error (.missing field el.localName)

/-- A reader that changes the value of another one. -/
def XElem.map {α β : Type} (f : α → β) (r : XElem α) : XElem β := fun el attrs evs => do
  let (x, l) ← r el attrs evs
  .ok (f x, l)

/-- Readers that look at the attributes and then at the text of the element (for example
`specs/common/hash.rs` 127-144). -/
def readWith {ρ α β : Type} (pre : XName → List (String × String) → Except XErr ρ) (r : XElem α)
    (fin : ρ → α → β) : XElem β :=
  fun el attrs evs => do
    let p ← pre el attrs
    let (x, l) ← r el attrs evs
    .ok (fin p x, l)

/-- `read_list_tag` (`xml.rs` 619-645) and, for `skip`, `read_lax_validation_list_tag` (677-706). -/
def readListWith {α : Type} (mode : Unknown) (inner : String) (r : XElem α) : XElem (List α) :=
  fun el _ evs =>
    readFields mode el [(inner, arm r fun x (l : List α) => l ++ [x])] [] evs

/-- `read_list_tag` (`xml.rs` 619-645); also `VecXmlReader` (257-284). -/
def readList {α : Type} (inner : String) (r : XElem α) : XElem (List α) :=
  readListWith .fail inner r

/-- `read_lax_validation_list_tag` (`xml.rs` 677-706). -/
def readListLax {α : Type} (inner : String) (r : XElem α) : XElem (List α) :=
  readListWith .skip inner r

end Cdx
