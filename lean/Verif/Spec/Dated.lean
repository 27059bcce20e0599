import Verif.Spec.Elements

/-!
# Specification: which fields came with which version of the format

For every part of a document: the fields that came with version 1.4 are absent in version 1.3, and those
that came with version 1.5 are absent in versions 1.3 and 1.4.
-/

namespace Cdx.Spec

/-- A part of a document has no field that came with a later version of the format than `v`. -/
def Elem.Dated (v : SpecVersion) : Elem → Prop
  | .bom x => (v = .v1_3 → x.vulnerabilities = none ∧ x.signature = none) ∧
      (v ≠ .v1_5 → x.properties = none ∧ x.annotations = none ∧ x.formulation = none)
  | .metadata x => v ≠ .v1_5 → x.lifecycles = none
  | .component x => (v = .v1_3 → x.signature = none) ∧ (v ≠ .v1_5 → x.modelCard = none ∧ x.data = none)
  | .componentEvidence x => v ≠ .v1_5 → x.occurrences = none ∧ x.callstack = none ∧ x.identity = none
  | .service x => (v = .v1_3 → x.signature = none) ∧ (v ≠ .v1_5 → x.trustZone = none)
  | .serviceDataChoice x => v ≠ .v1_5 → ∃ l, x = .classification l
  | .license x => v ≠ .v1_5 → x.bomRef = none ∧ x.licensing = none ∧ x.properties = none
  | .tool x => v = .v1_3 → x.externalReferences = none
  | .tools x => v ≠ .v1_5 → ∃ l, x = .list l
  | .composition x => (v = .v1_3 → x.signature = none) ∧
      (v ≠ .v1_5 → x.bomRef = none ∧ x.vulnerabilities = none)
  | .vulnerability x => v ≠ .v1_5 → x.workaround = none ∧ x.proofOfConcept = none ∧ x.rejected = none
  | .vulnerabilityAnalysis x => v ≠ .v1_5 → x.firstIssued = none ∧ x.lastUpdated = none
  | _ => True

/-- Nothing in a document came with a later version of the format than `v`. -/
def AllDated (v : SpecVersion) (b : Bom) : Prop :=
  ∀ p, Inside Elem.parts (.bom b) p → p.Dated v

end Cdx.Spec
