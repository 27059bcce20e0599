import Verif.Spec.Readable

/-!
# Specification: documents without anything that reading is known to lose

`Lossless` lists, member by member, what a document has to avoid so that nothing in it gets lost or
changed when it is read and written (`DESIGN.md` lists the same as disagreements between the code and
property C74). The conditions are about the JSON value alone.
-/

namespace Cdx.Spec

/-- The object has no other members than these. -/
def OnlyHas (l : List String) (o : List (String × Json)) : Prop := ∀ k x, (k, x) ∈ o → k ∈ l

/-- What the members of one object have to avoid. -/
structure Lossless [F32Format] (o : List (String × Json)) : Prop where
  /-- members that no reader looks for -/
  dropped : ∀ k ∈ ["$schema", "releaseNotes", "response", "confidenceInterval", "sizeAllocated"], ∀ x, (k, x) ∉ o
  /-- the `bom-ref` of people, organizations, licenses and model cards -/
  noRef : ∀ k x, (k, x) ∈ o →
    k ∈ ["supplier", "manufacture", "provider", "organization", "individual", "license", "modelCard"] →
    ¬ Has "bom-ref" x
  /-- the same in lists, and the `bom-ref` of license expressions, occurrences, compositions and datasets -/
  noRefs : ∀ k l, (k, .arr l) ∈ o →
    k ∈ ["authors", "contact", "organizations", "individuals", "licenses", "occurrences", "compositions", "datasets"] →
    ∀ x ∈ l, ¬ Has "bom-ref" x
  /-- the content of considerations -/
  considerations : ∀ x, ("considerations", x) ∈ o → x = .obj []
  /-- what else belongs to a signature -/
  signature : ∀ p, ("signature", .obj p) ∈ o → OnlyHas ["algorithm", "value"] p
  /-- what else belongs to the data of a service -/
  data : ∀ l, ("data", .arr l) ∈ o → ∀ p, .obj p ∈ l → OnlyHas ["flow", "classification"] p
  /-- what the schema does not know in properties and proofs of concept, which it leaves open -/
  properties : ∀ k l, (k, .arr l) ∈ o → k ∈ ["properties", "environmentVars"] → ∀ p, .obj p ∈ l →
    OnlyHas ["name", "value"] p
  proofOfConcept : ∀ p, ("proofOfConcept", .obj p) ∈ o →
    OnlyHas ["reproductionSteps", "environment", "supportingMaterial"] p
  /-- an empty list of dependencies is written as no list -/
  dependsOn : ("dependsOn", .arr []) ∉ o
  /-- a volume without a mode is written with a mode -/
  mode : ∀ x, ("volume", x) ∈ o → Has "mode" x
  /-- licensing is written with all its members, those that were missing as `null` -/
  licensing : ∀ x, ("licensing", x) ∈ o →
    ∀ k ∈ ["altIds", "licensor", "licensee", "purchaser", "purchaseOrder", "licenseTypes", "lastRenewal", "expiration"],
      Has k x
  /-- numbers that are read into `f32` and are not among its values -/
  exact : ∀ k (n : Nat), (k, .nat n) ∈ o → k ∈ ["score", "confidence"] → (n : ℚ) = numberOf (F32Format.ofNat n)

end Cdx.Spec
