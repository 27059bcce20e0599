import Verif.Model.Validation

/-!
# Specification: reports of a validation

A validation is a sequence of checks, each performed under the name of a field. `Performed`
describes a check by the name it is performed under and by what it has to report: nothing if
it succeeded, else an entry of the kind that fits the check.
-/

namespace Cdx.Spec

/-- The entries of a list: position and report of each element that has errors. -/
def ListEntries (rs : List VResult) (errs : List (Nat × VResult)) : Prop :=
  (errs.map (·.1)).Pairwise (· < ·) ∧
  ∀ i r, (i, r) ∈ errs ↔ rs[i]? = some r ∧ r ≠ []

/-- The entries of a list of unique items: positions whose value occurred before, with the
message for repeated elements, and positions of first occurrences that have errors. -/
def UniqueEntries {α : Type} (xs : List α) (f : α → Res VResult)
    (errs : List (Nat × VResult)) : Prop :=
  (errs.map (·.1)).Pairwise (· < ·) ∧
  ∀ i r, (i, r) ∈ errs ↔ ∃ x, xs[i]? = some x ∧
    (x ∈ xs.take i ∧ r = [("", .custom ["repeated element"])] ∨
     x ∉ xs.take i ∧ f x = .ok r ∧ r ≠ [])

/-- `Performed step name report`: the builder call `step` performs a check under `name`, whose
outcome has to be reported as `report` (`none`: the check succeeded). -/
inductive Performed : VStep → String → Option ErrorsKind → Prop
  | fieldOk {α : Type} {n : String} {x : α} {f : α → Check} (h : f x = .ok ()) :
      Performed (addField n x f) n none
  | fieldFailed {α : Type} {n : String} {x : α} {f : α → Check} {e : String}
      (h : f x = .error e) : Performed (addField n x f) n (some (.field [e]))
  | fieldAbsent {α : Type} {n : String} {f : α → Check} :
      Performed (addFieldOption n none f) n none
  | fieldPresent {α : Type} {n : String} {x : α} {f : α → Check} {k : Option ErrorsKind}
      (h : Performed (addField n x f) n k) : Performed (addFieldOption n (some x) f) n k
  | enumOk {α : Type} {n : String} {x : α} {f : α → Check} (h : f x = .ok ()) :
      Performed (addEnum n x f) n none
  | enumFailed {α : Type} {n : String} {x : α} {f : α → Check} {e : String}
      (h : f x = .error e) : Performed (addEnum n x f) n (some (.enum e))
  | enumAbsent {α : Type} {n : String} {f : α → Check} :
      Performed (addEnumOption n none f) n none
  | enumPresent {α : Type} {n : String} {x : α} {f : α → Check} {k : Option ErrorsKind}
      (h : Performed (addEnum n x f) n k) : Performed (addEnumOption n (some x) f) n k
  | structOk {α : Type} {n : String} {x : α} {f : α → Res VResult} (h : f x = .ok []) :
      Performed (addStruct n x f) n none
  | structFailed {α : Type} {n : String} {x : α} {f : α → Res VResult} {r : VResult}
      (h : f x = .ok r) (hr : r ≠ []) : Performed (addStruct n x f) n (some (.struct r))
  | structAbsent {α : Type} {n : String} {f : α → Res VResult} :
      Performed (addStructOption n none f) n none
  | structPresent {α : Type} {n : String} {x : α} {f : α → Res VResult} {k : Option ErrorsKind}
      (h : Performed (addStruct n x f) n k) : Performed (addStructOption n (some x) f) n k
  | listOk {α : Type} {n : String} {xs : List α} {f : α → Res VResult}
      (h : ∀ x ∈ xs, f x = .ok []) : Performed (addList n xs f) n none
  | listFailed {α : Type} {n : String} {xs : List α} {f : α → Res VResult} {rs : List VResult}
      {errs : List (Nat × VResult)} (h : xs.map f = rs.map .ok) (he : ListEntries rs errs)
      (hr : errs ≠ []) : Performed (addList n xs f) n (some (.list errs))
  | listAbsent {α : Type} {n : String} {f : α → Res VResult} :
      Performed (addListOption n none f) n none
  | listPresent {α : Type} {n : String} {xs : List α} {f : α → Res VResult}
      {k : Option ErrorsKind} (h : Performed (addList n xs f) n k) :
      Performed (addListOption n (some xs) f) n k
  | uniqueOk {α : Type} [DecidableEq α] {n : String} {xs : List α} {f : α → Res VResult}
      (h : ∀ x ∈ xs, f x = .ok []) (hd : xs.Nodup) : Performed (addUniqueList n xs f) n none
  | uniqueFailed {α : Type} [DecidableEq α] {n : String} {xs : List α} {f : α → Res VResult}
      {errs : List (Nat × VResult)} (h : ∀ x ∈ xs, ∃ r, f x = .ok r)
      (he : UniqueEntries xs f errs) (hr : errs ≠ []) :
      Performed (addUniqueList n xs f) n (some (.list errs))
  | uniqueAbsent {α : Type} [DecidableEq α] {n : String} {f : α → Res VResult} :
      Performed (addUniqueListOption n none f) n none
  | uniquePresent {α : Type} [DecidableEq α] {n : String} {xs : List α} {f : α → Res VResult}
      {k : Option ErrorsKind} (h : Performed (addUniqueList n xs f) n k) :
      Performed (addUniqueListOption n (some xs) f) n k
  | custom {n e : String} : Performed (addCustom n e) n (some (.custom [e]))

/-- A sequence of builder calls with their names and reports. -/
inductive Performs : List VStep → List (String × Option ErrorsKind) → Prop
  | nil : Performs [] []
  | cons {s : VStep} {n : String} {k : Option ErrorsKind} {steps : List VStep}
      {reports : List (String × Option ErrorsKind)} :
      Performed s n k → Performs steps reports → Performs (s :: steps) ((n, k) :: reports)

end Cdx.Spec
