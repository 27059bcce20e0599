import Verif.Model.Json
import Verif.Model.Regex
import Mathlib.Data.Rat.Defs

/-!
# Specification: JSON schemas

The part of JSON schema (draft 07) that the schemas of CycloneDX use
(`cyclonedx-bom/test-utils/schema`). A `Schema` is one keyword, or several of them that all have to
hold. `Valid C s j` says that the schema `s` accepts the value `j`, `Invalid C s j` that it rejects
it; both are given by rules, because `oneOf` asks for the rejection of all other branches. `C` has
the definitions that `$ref` can name and the meaning of `format`, which JSON schema leaves to other
standards. `Lemmas/Schema.lean` proves that no schema both accepts and rejects a value.
-/

namespace Cdx.Spec

/-- The types of JSON schema. -/
inductive JsonType where
  | object | array | string | boolean | integer | number
  deriving DecidableEq

/-- The number that the bits of a finite `f32` stand for. -/
def numberOf (x : F32) : ℚ :=
  let bits : Nat := x.toNat
  let exponent : Nat := bits / 2 ^ 23 % 2 ^ 8
  let fraction : Nat := bits % 2 ^ 23
  let size : ℚ :=
    if exponent = 0 then (fraction : ℚ) / 2 ^ 149 else (2 ^ 23 + (fraction : ℚ)) * 2 ^ exponent / 2 ^ 150
  if bits < 2 ^ 31 then size else -size

/-- A value has a type. -/
def HasType : JsonType → Json → Prop
  | .object, .obj _ => True
  | .array, .arr _ => True
  | .string, .str _ => True
  | .boolean, .bool _ => True
  | .integer, .nat _ => True
  | .integer, .float x => (numberOf x).den = 1
  | .number, .nat _ => True
  | .number, .float _ => True
  | .number, .other => True
  | _, _ => False

/-- Two values are the same JSON value: the order of the members of an object does not matter, and
numbers are compared by value. -/
inductive Same : Json → Json → Prop
  | null : Same .null .null
  | bool (b : Bool) : Same (.bool b) (.bool b)
  | nat (n : Nat) : Same (.nat n) (.nat n)
  | float {x y : F32} : numberOf x = numberOf y → Same (.float x) (.float y)
  | natFloat {n : Nat} {x : F32} : n = numberOf x → Same (.nat n) (.float x)
  | floatNat {n : Nat} {x : F32} : n = numberOf x → Same (.float x) (.nat n)
  | other : Same .other .other
  | str (s : String) : Same (.str s) (.str s)
  | nil : Same (.arr []) (.arr [])
  | cons {x y : Json} {l m : List Json} :
    Same x y → Same (.arr l) (.arr m) → Same (.arr (x :: l)) (.arr (y :: m))
  | obj {o p : List (String × Json)} :
    (∀ k, (∃ x, (k, x) ∈ o) ↔ ∃ y, (k, y) ∈ p) →
    (∀ k x y, (k, x) ∈ o → (k, y) ∈ p → Same x y) → Same (.obj o) (.obj p)

/-- The keywords that say nothing about other schemas. -/
inductive Keyword where
  /-- `type` -/
  | type (t : JsonType)
  /-- `enum` and `const`, for strings -/
  | enum (l : List String)
  /-- `pattern` -/
  | pattern (p : Pattern)
  /-- `format` -/
  | format (name : String)
  /-- `required` -/
  | required (l : List String)
  /-- `additionalProperties: false`, with the names listed in `properties` -/
  | closed (l : List String)
  /-- `uniqueItems: true` -/
  | uniqueItems
  /-- `minItems` -/
  | minItems (n : Nat)
  /-- `maxItems` -/
  | maxItems (n : Nat)
  /-- `minLength` -/
  | minLength (n : Nat)
  /-- `maxLength` -/
  | maxLength (n : Nat)
  /-- `minimum` -/
  | minimum (n : Nat)
  /-- `maximum` -/
  | maximum (n : Nat)

/-- The meaning of `format`: which strings have the format with a name. -/
abbrev Formats := String → String → Prop

/-- A keyword accepts a value. Most keywords are only about values of one type. -/
def Keyword.Holds (F : Formats) : Keyword → Json → Prop
  | .type t, j => HasType t j
  | .enum l, j => ∃ s ∈ l, j = .str s
  | .pattern p, .str s => p.isMatch s = true
  | .format f, .str s => F f s
  | .required l, .obj o => ∀ k ∈ l, ∃ x, (k, x) ∈ o
  | .closed l, .obj o => ∀ k x, (k, x) ∈ o → k ∈ l
  | .uniqueItems, .arr l => l.Pairwise fun x y => ¬ Same x y
  | .minItems n, .arr l => n ≤ l.length
  | .maxItems n, .arr l => l.length ≤ n
  | .minLength n, .str s => n ≤ s.length
  | .maxLength n, .str s => s.length ≤ n
  | .minimum n, .nat m => n ≤ m
  | .minimum n, .float x => (n : ℚ) ≤ numberOf x
  | .maximum n, .nat m => m ≤ n
  | .maximum n, .float x => numberOf x ≤ (n : ℚ)
  | _, _ => True

/-- A schema. -/
inductive Schema where
  | kw (c : Keyword)
  /-- `properties` -/
  | properties (l : List (String × Schema))
  /-- `items` -/
  | items (s : Schema)
  /-- one schema of an `items` that is a list of schemas by position -/
  | itemAt (i : Nat) (s : Schema)
  /-- `allOf`, or the keywords of a schema together -/
  | allOf (l : List Schema)
  /-- `anyOf` -/
  | anyOf (l : List Schema)
  /-- `oneOf` -/
  | oneOf (l : List Schema)
  /-- `if` and `then` -/
  | ifThen (s t : Schema)
  /-- `$ref` -/
  | ref (name : String)

/-- What a schema is read with: the definitions and the meaning of the formats. -/
structure Context where
  defs : List (String × Schema)
  format : Formats

mutual

/-- A schema accepts a value. -/
inductive Valid (C : Context) : Schema → Json → Prop
  | kw {c : Keyword} {j : Json} : c.Holds C.format j → Valid C (.kw c) j
  | properties {l : List (String × Schema)} {j : Json} :
    (∀ o, j = .obj o → ∀ k s x, (k, s) ∈ l → (k, x) ∈ o → Valid C s x) → Valid C (.properties l) j
  | items {s : Schema} {j : Json} :
    (∀ l, j = .arr l → ∀ x ∈ l, Valid C s x) → Valid C (.items s) j
  | itemAt {i : Nat} {s : Schema} {j : Json} :
    (∀ l x, j = .arr l → l[i]? = some x → Valid C s x) → Valid C (.itemAt i s) j
  | allOf {l : List Schema} {j : Json} : (∀ s ∈ l, Valid C s j) → Valid C (.allOf l) j
  | anyOf {l : List Schema} {s : Schema} {j : Json} : s ∈ l → Valid C s j → Valid C (.anyOf l) j
  | oneOf {before after : List Schema} {s : Schema} {j : Json} :
    Valid C s j → (∀ t ∈ before, Invalid C t j) → (∀ t ∈ after, Invalid C t j) →
    Valid C (.oneOf (before ++ s :: after)) j
  | then {s t : Schema} {j : Json} : Valid C s j → Valid C t j → Valid C (.ifThen s t) j
  | ifNot {s t : Schema} {j : Json} : Invalid C s j → Valid C (.ifThen s t) j
  | ref {name : String} {s : Schema} {j : Json} :
    C.defs.lookup name = some s → Valid C s j → Valid C (.ref name) j

/-- A schema rejects a value. -/
inductive Invalid (C : Context) : Schema → Json → Prop
  | kw {c : Keyword} {j : Json} : ¬ c.Holds C.format j → Invalid C (.kw c) j
  | properties {l : List (String × Schema)} {o : List (String × Json)} {k : String} {s : Schema}
    {x : Json} : (k, s) ∈ l → (k, x) ∈ o → Invalid C s x → Invalid C (.properties l) (.obj o)
  | items {s : Schema} {l : List Json} {x : Json} :
    x ∈ l → Invalid C s x → Invalid C (.items s) (.arr l)
  | itemAt {i : Nat} {s : Schema} {l : List Json} {x : Json} :
    l[i]? = some x → Invalid C s x → Invalid C (.itemAt i s) (.arr l)
  | allOf {l : List Schema} {s : Schema} {j : Json} : s ∈ l → Invalid C s j → Invalid C (.allOf l) j
  | anyOf {l : List Schema} {j : Json} : (∀ s ∈ l, Invalid C s j) → Invalid C (.anyOf l) j
  | oneOfNone {l : List Schema} {j : Json} : (∀ s ∈ l, Invalid C s j) → Invalid C (.oneOf l) j
  | oneOfTwo {before between after : List Schema} {s t : Schema} {j : Json} :
    Valid C s j → Valid C t j → Invalid C (.oneOf (before ++ s :: between ++ t :: after)) j
  | ifThen {s t : Schema} {j : Json} : Valid C s j → Invalid C t j → Invalid C (.ifThen s t) j
  | ref {name : String} {s : Schema} {j : Json} :
    C.defs.lookup name = some s → Invalid C s j → Invalid C (.ref name) j

end

end Cdx.Spec
