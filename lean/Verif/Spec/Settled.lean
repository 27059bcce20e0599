import Verif.Model.Format.Bom

/-!
# Specification: documents that survive being read and written

What a JSON document must not have for the library to write what it has read from it in a way that it
reads as the same again.
-/

namespace Cdx

/-- The values of `field` in the evidence on the identity of a component that the library keeps. -/
def keptIdentityFields : List String :=
  ["group", "name", "version", "purl", "cpe", "swid", "hash", "unknown"]

/-- A member of an object is not one of the three that the library reads but writes differently: an
external reference of type `codified-infrastructure`, a composition with a misspelled `aggregate`, and
evidence on the identity of a component for an unknown field. -/
structure Json.Kept (name : String) (value : Json) : Prop where
  type : name = "type" → value ≠ .str "codified-infrastructure"
  aggregate : name = "aggregate" → value ≠ .str "incomplete_first_party_propprietary_only"
  field : name = "field" → ∀ s, value = .str s → s ∈ keptIdentityFields

/-- All numbers in the value are finite as `f32`, and all members of objects in it are kept. -/
inductive Json.Settled [F32Format] : Json → Prop
  | null : Settled .null
  | bool {b} : Settled (.bool b)
  | nat {n} : (F32Format.ofNat n).isFinite = true → Settled (.nat n)
  | float {x} : x.isFinite = true → Settled (.float x)
  | other : Settled .other
  | str {s} : Settled (.str s)
  | arr {l} : (∀ j ∈ l, Settled j) → Settled (.arr l)
  | obj {l} : (∀ m ∈ l, Json.Kept m.1 m.2) → (∀ m ∈ l, Settled m.2) → Settled (.obj l)

end Cdx
