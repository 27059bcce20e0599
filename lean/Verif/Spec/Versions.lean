import Verif.Spec.Elements

/-!
# Specification: what tells the versions apart for validation
-/

namespace Cdx.Spec

/-- The rule that came with version 1.5: a list of licenses has named licenses only, or is a single
expression. -/
def LicensesRule (x : Licenses) : Prop := (∀ c ∈ x, ∃ l, c = .license l) ∨ ∃ e, x = [.expression e]

/-- What came with version 1.5 and is not valid in earlier ones. -/
def Needs15 : Elem → Prop
  | .bomRefAttribute _ => True
  | .refUri (.bomLink _) => True
  | .classification c => c ∈ [.platform, .deviceDriver, .machineLearningModel, .data]
  | .aggregateType a => a ∈ [.incompleteFirstPartyOpensourceOnly, .incompleteThirdPartyProprietaryOnly,
      .incompleteThirdPartyOpensourceOnly]
  | .scoreMethod m => m ∈ [.cvssv4, .ssvc]
  | .formula _ => True
  | .tools (.object _ _) => True
  | _ => False

end Cdx.Spec
