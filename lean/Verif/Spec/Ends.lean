import Verif.Model.Xml

/-!
# Specification: reading comes to an end
-/

namespace Cdx.Spec

/-- What reading some events ends with: something was consumed and the rest is left as it is, or there is
an error that the program has. The errors `stuck` and `depth` are only in the model: a loop would not
stop, or would need more turns than there are events. -/
def Ends {α : Type} (evs : List XEvent) : Except XErr (α × List XEvent) → Prop
  | .ok (_, left) => ∃ used, used ≠ [] ∧ evs = used ++ left
  | .error e => e ≠ .stuck ∧ e ≠ .depth

end Cdx.Spec

namespace Cdx

/-- A reader, on any sequence of at most `m` events, consumes something and leaves the rest, or gives an error of the
program. -/
def Proper (m : Nat) {α : Type} (r : XElem α) : Prop := ∀ n attrs evs, evs.length ≤ m → Spec.Ends evs (r n attrs evs)

end Cdx
