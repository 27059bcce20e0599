import Verif.Model.Checks
import Verif.Model.Strings
import Verif.Model.BTreeMap

set_option linter.unusedVariables false

/-!
# JSON values and the derived serde code

The specification structures in `cyclonedx-bom/src/specs` are written with `serde_json` through
`#[derive(Serialize, Deserialize)]`. The text level (`serde_json::to_writer_pretty`,
`serde_json::from_reader`, used at `models/bom.rs` 206-213, 233, 253-260, 280, 300, 320) is the
external crate and is not modelled: a document is the tree of values it denotes. What is modelled is
what the derives produce, which is how a structure maps to such a tree and back.
-/

namespace Cdx

/-- `f32::is_finite` (the test in `serde_json`'s `serialize_f32`, used for
`specs/common/vulnerability_rating.rs` 97 and `specs/v1_5/evidence.rs` 362, 438). -/
def F32.isFinite (x : F32) : Bool := (x.toNat % 2 ^ 31) < 0x7f800000

/-- How Rust prints and parses `f32` (`Display`, `FromStr`, and the conversion of an integer
literal), which is library code, with what is assumed about it: parsing what was printed gives the
number back, and what is printed is not empty and has no white space (used at `xml.rs` 530-557,
`specs/common/vulnerability_rating.rs` 97, `specs/v1_5/evidence.rs` 362, 438). -/
class F32Format where
  display : F32 → String
  parse : String → Option F32
  ofNat : Nat → F32
  parse_display : ∀ x : F32, x.isFinite = true → parse (display x) = some x
  no_space : ∀ x : F32, ∀ c ∈ (display x).toList, isWhitespace c = false
  nonempty : ∀ x : F32, display x ≠ ""

/-- A JSON document (`models/bom.rs` 127-131, 202-208), and `serde_json::Value` (24, 135-149). Numbers
are natural numbers or `f32` values; other numbers are `other`. An object is its list of members, in
the order of the document, in which a name may be repeated. -/
inductive Json where
  | null
  | bool (b : Bool)
  | nat (n : Nat)
  | float (x : F32)
  | other
  | str (s : String)
  | arr (l : List Json)
  | obj (l : List (String × Json))
  deriving Repr

namespace Json

/-- An object with the members that are present: a struct whose optional fields carry
`skip_serializing_if = "Option::is_none"` (for example `specs/common/external_reference.rs` 85-95,
`specs/common/bom.rs` 79-114). -/
def mkFields (l : List (String × Option Json)) : List (String × Json) :=
  l.filterMap fun p => p.2.map fun j => (p.1, j)

/-- See `mkFields`. -/
def mk (l : List (String × Option Json)) : Json := .obj (mkFields l)

/-- `serialize_f32` of `serde_json`: a number that is not finite becomes `null`
(`specs/common/vulnerability_rating.rs` 97, `specs/v1_5/evidence.rs` 362, 438). -/
def ofF32 (x : F32) : Json := if x.isFinite then .float x else .null

/-- Deserializing `String` (every `String` field in `specs`). -/
def string : Json → Except String String
  | .str s => .ok s
  | _ => .error "expected a string"

/-- Deserializing `bool` (for example `specs/common/component.rs` 96). -/
def boolean : Json → Except String Bool
  | .bool b => .ok b
  | _ => .error "expected a boolean"

/-- Deserializing `u32` (for example `specs/common/bom.rs` 81). -/
def u32 : Json → Except String Nat
  | .nat n => if n < 2 ^ 32 then .ok n else .error "number out of range"
  | _ => .error "expected u32"

/-- Deserializing `f32` (for example `specs/common/vulnerability_rating.rs` 97). -/
def f32 [F32Format] : Json → Except String F32
  | .float x => .ok x
  | .nat n => .ok (F32Format.ofNat n)
  | _ => .error "expected f32"

/-- The members of an object, or the error of a derived struct visitor given anything else.
Simplification: derived visitors also accept an array with the fields in order; the model
rejects it. -/
def fields : Json → Except String (List (String × Json))
  | .obj l => .ok l
  | _ => .error "expected an object"

/-- Deserializing `Vec<T>` (for example `specs/common/hash.rs` 33). -/
def array {α : Type} (f : Json → Except String α) : Json → Except String (List α)
  | .arr l => l.mapM f
  | _ => .error "expected an array"

/-- Serializing `Vec<T>` (for example `specs/common/hash.rs` 33). -/
def ofList {α : Type} (f : α → Json) (l : List α) : Json := .arr (l.map f)

/-- What a derived struct visitor finds for a field: it fails if the object has a member of that name
twice (`duplicate_field`; for example `specs/common/hash.rs` 79-84). -/
def get (o : List (String × Json)) (k : String) : Except String (Option Json) :=
  match o.filter fun p => p.1 == k with
  | [] => .ok none
  | [p] => .ok (some p.2)
  | _ :: _ :: _ => .error ("duplicate field " ++ k)

/-- A field that must be present, in a derived struct visitor (for example
`specs/common/hash.rs` 79-84). Unknown members are ignored. -/
def req {α : Type} (o : List (String × Json)) (k : String) (f : Json → Except String α) :
    Except String α :=
  match get o k with
  | .ok (some j) => f j
  | .ok none => .error ("missing field " ++ k)
  | .error e => .error e

/-- A field of type `Option<T>`: absent and `null` are `None` (for example
`specs/common/external_reference.rs` 91-94). -/
def opt {α : Type} (o : List (String × Json)) (k : String) (f : Json → Except String α) :
    Except String (Option α) :=
  match get o k with
  | .ok none => .ok none
  | .ok (some .null) => .ok none
  | .ok (some j) => (f j).map some
  | .error e => .error e

/-- A vector with `skip_serializing_if = "Vec::is_empty"` (`specs/common/dependency.rs` 83). -/
def unlessEmpty {α : Type} (f : α → Json) (l : List α) : Option Json :=
  if l.isEmpty then none else some (ofList f l)

/-- A vector with `#[serde(default)]` (`specs/common/dependency.rs` 83). -/
def orEmpty {α : Type} (o : List (String × Json)) (k : String) (f : Json → Except String α) :
    Except String (List α) :=
  match get o k with
  | .ok none => .ok []
  | .ok (some j) => array f j
  | .error e => .error e

/-- Serializing an `Option` without `skip_serializing_if` (`specs/v1_5/licensing.rs` 37-47). -/
def orNull {α : Type} (f : α → Json) : Option α → Json
  | some x => f x
  | none => .null

/-- Deserializing an externally tagged enumeration whose variants have one field, for example
`specs/v1_5/licensing.rs` 93-97: an object with one member, named after the variant. All errors are
the same here. -/
def tagged {α : Type} (variants : List (String × (Json → Except String α))) :
    Json → Except String α
  | .obj [(k, j)] =>
    match variants.lookup k with
    | some f => f j
    | none => .error "unknown variant"
  | _ => .error "unknown variant"

/-- Deserializing an externally tagged enumeration under `#[serde(flatten)]`, for example
`specs/common/license.rs` 203-204: the first member of the object that is named after a variant. -/
def flatVariant {α : Type} (o : List (String × Json))
    (variants : List (String × (Json → Except String α))) : Except String α :=
  match o with
  | [] => .error "no variant of the enumeration found in flattened data"
  | (k, j) :: o =>
    match variants.lookup k with
    | some f => f j
    | none => flatVariant o variants

/-- Deserializing an untagged enumeration whose variants are structures with one field, under
`#[serde(flatten)]`, for example `specs/v1_5/formulation/workflow/input.rs` 229-235: the first variant
whose field is present and can be read. -/
def flatUntagged {α : Type} (o : List (String × Json)) :
    List (String × (Json → Except String α)) → Except String α
  | [] => .error "data did not match any variant"
  | (k, f) :: l =>
    match get o k with
    | .ok (some j) =>
      match f j with
      | .ok x => .ok x
      | .error _ => flatUntagged o l
    | _ => flatUntagged o l

/-- Serializing an enumeration through its `to_string()` (for example `specs/common/hash.rs` 89). -/
def ofEnum {α : Type} (display : α → String) (x : α) : Json := .str (display x)

/-- Deserializing a string and converting it with `new_unchecked` (for example
`specs/common/hash.rs` 98). -/
def enum {α : Type} (new : String → α) (j : Json) : Except String α := j.string.map new

mutual
/-- What `serde_json` makes of a document that is read as a `serde_json::Value`
(`serde_json::from_reader` at `models/bom.rs` 130): the members of an object are put into a
`BTreeMap`, so that they are sorted by name and the last of the members with the same name is
kept. -/
def toValue : Json → Json
  | .arr l => .arr (toValues l)
  | .obj o => .obj (OMap.ofList (toMembers o))
  | j => j

/-- `toValue` for the elements of an array. -/
def toValues : List Json → List Json
  | [] => []
  | j :: l => toValue j :: toValues l

/-- `toValue` for the values of the members of an object. -/
def toMembers : List (String × Json) → List (String × Json)
  | [] => []
  | (k, j) :: o => (k, toValue j) :: toMembers o
end

end Json

end Cdx
