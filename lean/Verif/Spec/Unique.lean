import Verif.Model.Json

/-!
# Member names

What it means that no object in a JSON value gives a member name twice.
-/

namespace Cdx

/-- No object in the value, at any depth, has two members of the same name. -/
inductive Json.Unique : Json → Prop
  | null : Unique .null
  | bool {b} : Unique (.bool b)
  | nat {n} : Unique (.nat n)
  | float {x} : Unique (.float x)
  | other : Unique .other
  | str {s} : Unique (.str s)
  | arr {l} : (∀ j ∈ l, Unique j) → Unique (.arr l)
  | obj {l} : (l.map Prod.fst).Nodup → (∀ m ∈ l, Unique m.2) → Unique (.obj l)

end Cdx
