import Verif.Spec.Elements
import Verif.Model.Json

/-!
# Parts of a document that XML keeps and JSON does not
-/

namespace Cdx.Spec

/-- The three kinds of parts on which JSON is the weaker format: JSON has no infinite numbers, does not
tell a chain of signatures from a list of signers, and in version 1.5 reads data flows as
classifications. Everything else that XML keeps is kept by JSON. -/
def JsonKeeps (v : SpecVersion) : Elem → Prop
  | .vulnerabilityRating r => ∀ s, r.score = some s → F32.isFinite s = true
  | .signature s => ∀ l, s ≠ .chain l
  | .serviceDataChoice d => v = .v1_5 → ∀ l, d ≠ .serviceData l
  | _ => True

end Cdx.Spec
