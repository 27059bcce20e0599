import Verif.Spec.Schema
import Verif.Spec.Unique

/-!
# Specification: documents that stay clear of what the JSON readers are known not to understand

The published schemas accept documents that the library cannot read. `Readable` lists, member by
member, what a document has to avoid (`DESIGN.md` lists the same as disagreements between the code
and property C73). The conditions are about the JSON value alone: they name members, not readers.
-/

namespace Cdx.Spec

/-- The value is an object with a member of that name. -/
def Has (k : String) (j : Json) : Prop := ∃ o x, j = .obj o ∧ (k, x) ∈ o

/-- Every object in the value, at any depth, satisfies the condition on its members. -/
inductive Everywhere (P : List (String × Json) → Prop) : Json → Prop
  | null : Everywhere P .null
  | bool {b} : Everywhere P (.bool b)
  | nat {n} : Everywhere P (.nat n)
  | float {x} : Everywhere P (.float x)
  | other : Everywhere P .other
  | str {s} : Everywhere P (.str s)
  | arr {l} : (∀ j ∈ l, Everywhere P j) → Everywhere P (.arr l)
  | obj {o} : P o → (∀ m ∈ o, Everywhere P m.2) → Everywhere P (.obj o)

/-- Arrays and objects are nested at most so deep. -/
inductive Within : Nat → Json → Prop
  | null {n} : Within n .null
  | bool {n b} : Within n (.bool b)
  | nat {n m} : Within n (.nat m)
  | float {n x} : Within n (.float x)
  | other {n} : Within n .other
  | str {n s} : Within n (.str s)
  | arr {n l} : (∀ j ∈ l, Within n j) → Within (n + 1) (.arr l)
  | obj {n o} : (∀ m ∈ o, Within n m.2) → Within (n + 1) (.obj o)

/-- The value is a number. -/
def IsNumber (j : Json) : Prop := HasType .number j

/-- The value is a natural number of 32 bits, written without a fraction. -/
def Small (j : Json) : Prop := ∃ n, n < 2 ^ 32 ∧ j = .nat n

/-- The signature algorithms that the schema lists. -/
def signatureAlgorithms : List String :=
  ["RS256", "RS384", "RS512", "PS256", "PS384", "PS512", "ES256", "ES384", "ES512", "Ed25519", "Ed448",
   "HS256", "HS384", "HS512"]

/-- What the members of one object have to avoid. -/
structure Readable (o : List (String × Json)) : Prop where
  /-- numbers are read into `u32` -/
  small : ∀ k x, (k, x) ∈ o → k ∈ ["version", "tagVersion", "line", "column"] → IsNumber x → Small x
  cwes : ∀ l, ("cwes", .arr l) ∈ o → ∀ x ∈ l, Small x
  /-- the model has no value for other numbers (this is a limit of the model) -/
  numbers : ∀ k, (k, .other) ∉ o
  /-- a property needs its name and its value -/
  named : ∀ l, ("properties", .arr l) ∈ o → ∀ x ∈ l, Has "name" x ∧ Has "value" x
  environment : ∀ l, ("environmentVars", .arr l) ∈ o → ∀ x ∈ l,
    (∃ s, x = .str s) ∨ Has "name" x ∧ Has "value" x
  /-- an affected version needs its status -/
  versions : ∀ l, ("versions", .arr l) ∈ o → ∀ x ∈ l, Has "status" x
  /-- the schema of 1.4 does not say that these are objects -/
  targets : ∀ l, ("affects", .arr l) ∈ o → ∀ x ∈ l, ∃ p, x = .obj p
  references : ∀ l, ¬ Has "type" (.obj o) → ("references", .arr l) ∈ o → ∀ x ∈ l, ∃ p, x = .obj p
  /-- a call stack needs its frames -/
  frames : ∀ x, ("callstack", x) ∈ o → Has "frames" x
  /-- the data of a component is read as one object, the schema has a list -/
  data : Has "type" (.obj o) → ∀ l, ("data", .arr l) ∉ o
  /-- lists of signers, chains, and algorithms given by a URI are not read -/
  signature : ∀ x, ("signature", x) ∈ o → ∃ p a, x = .obj p ∧ ("algorithm", .str a) ∈ p ∧
    a ∈ signatureAlgorithms
  /-- a dataset is not a reference -/
  datasets : ∀ l, ("datasets", .arr l) ∈ o → ∀ x ∈ l, Has "type" x
  /-- sensitive data is read as one string, the schema has a list -/
  sensitive : ∀ x, ("sensitiveData", x) ∉ o
  /-- responsible parties are read under names with a capital letter -/
  governance : Has "type" (.obj o) → ∀ p, ("governance", .obj p) ∈ o →
    ∀ k ∈ ["custodians", "stewards", "owners"], ∀ l, (k, .arr l) ∈ p → l = []
  /-- the readers know a member `bomRef`, the schemas do not; the schema of 1.3 leaves it open -/
  bomRef : ∀ x, ("bomRef", x) ∈ o → ∃ s, x = .str s
  /-- nothing else beside a licence; the schema of 1.3 leaves it open -/
  license : Has "license" (.obj o) → ∀ k x, (k, x) ∈ o → k = "license"

end Cdx.Spec
