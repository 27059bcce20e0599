import Verif.Model.Basic
import Verif.Model.Config

/-!
# Collecting validation errors

`cyclonedx-bom/src/validation.rs`. A `ValidationContext` is its `ValidationResult`; the
builder methods are steps from one result to the next, which may panic.
-/

namespace Cdx

/-- `ValidationErrorsKind` (`validation.rs` 401-412). The `IndexMap` inside a
`ValidationResult` (`validation.rs` 33-36) is an association list in insertion order, the
`BTreeMap` of list errors an association list in increasing order of the index, and a
`ValidationError` (`validation.rs` 374-377) its message. -/
inductive ErrorsKind where
  | struct (r : List (String × ErrorsKind))
  | list (l : List (Nat × List (String × ErrorsKind)))
  | field (es : List String)
  | enum (e : String)
  | custom (es : List String)

/-- `ValidationResult` (`validation.rs` 33-36). -/
abbrev VResult := List (String × ErrorsKind)

/-- The result of a single check, `Result<(), ValidationError>`. -/
abbrev Check := Except String Unit

namespace VResult

/-- `ValidationResult::passed` (`validation.rs` 78-80). -/
def passed (r : VResult) : Bool := r.isEmpty

/-- `ValidationResult::has_errors` (`validation.rs` 83-85). -/
def hasErrors (r : VResult) : Bool := !r.isEmpty

/-- `ValidationResult::error` (`validation.rs` 88-90). -/
def error? (r : VResult) (name : String) : Option ErrorsKind := r.lookup name

/-- `ValidationResult::has_error` (`validation.rs` 92-94). -/
def hasError (r : VResult) (name : String) : Bool := (r.lookup name).isSome

/-- `IndexMap::insert`: replace the value in place, or append. -/
def insert : VResult → String → ErrorsKind → VResult
  | [], n, k => [(n, k)]
  | (m, l) :: r, n, k => if m = n then (n, k) :: r else (m, l) :: insert r n k

/-- `ValidationResult::add_nested` (`validation.rs` 102-108). -/
def addNested (r : VResult) (name : String) (k : ErrorsKind) : Res VResult :=
  match r.lookup name with
  | none => .ok (r ++ [(name, k)])
  | some _ => .error (.panic "Attempt to replace non-empty nested entry")

/-- `ValidationResult::add_enum` (`validation.rs` 111-117). -/
def addEnum (r : VResult) (name : String) (e : String) : Res VResult :=
  match r.lookup name with
  | none => .ok (r ++ [(name, .enum e)])
  | some _ => .error (.panic "Attempt to replace non-empty enum entry")

/-- `ValidationResult::add_field` (`validation.rs` 120-130). -/
def addField (r : VResult) (name : String) (e : String) : Res VResult :=
  match r.lookup name with
  | none => .ok (r ++ [(name, .field [e])])
  | some (.field es) => .ok (r.insert name (.field (es ++ [e])))
  | some _ => .error (.panic "Found a non-field ValidationErrorsKind")

/-- `ValidationResult::add_custom` (`validation.rs` 133-143). -/
def addCustom (r : VResult) (name : String) (e : String) : Res VResult :=
  match r.lookup name with
  | none => .ok (r ++ [(name, .custom [e])])
  | some (.custom es) => .ok (r.insert name (.custom (es ++ [e])))
  | some _ => .error (.panic "Found a non-custom ValidationErrorsKind")

/-- `impl From<Result<(), ValidationError>> for ValidationResult` (`validation.rs` 57-68). -/
def ofCheck : Check → VResult
  | .ok () => []
  | .error e => [("", .custom [e])]

/-- `impl From<Vec<ValidationResult>> for ValidationResult` (`validation.rs` 44-55): later
entries replace earlier ones of the same name. -/
def ofVec (rs : List VResult) : VResult :=
  rs.foldl (fun acc r => r.foldl (fun acc p => insert acc p.1 p.2) acc) []

end VResult

/-- One builder call on a `ValidationContext` (`validation.rs` 148-150): from the state before
to the state after, or a panic. -/
abbrev VStep := VResult → Res VResult

/-- A chain of builder calls on a new context, converted into its result
(`ValidationContext::new`, `validation.rs` 159-163, and `From<ValidationContext>`,
`validation.rs` 352-362). -/
def chain (steps : List VStep) : Res VResult := steps.foldlM (fun st s => s st) []

/-- `ValidationContext::add_field` (`validation.rs` 165-175). -/
def addField {α : Type} (name : String) (x : α) (f : α → Check) : VStep := fun st =>
  match f x with
  | .ok () => .ok st
  | .error e => st.addField name e

/-- `ValidationContext::add_field_option` (`validation.rs` 177-187). -/
def addFieldOption {α : Type} (name : String) (x : Option α) (f : α → Check) : VStep :=
  match x with
  | none => .ok
  | some x => addField name x f

/-- `ValidationContext::add_enum` (`validation.rs` 189-199). -/
def addEnum {α : Type} (name : String) (x : α) (f : α → Check) : VStep := fun st =>
  match f x with
  | .ok () => .ok st
  | .error e => st.addEnum name e

/-- `ValidationContext::add_enum_option` (`validation.rs` 201-211). -/
def addEnumOption {α : Type} (name : String) (x : Option α) (f : α → Check) : VStep :=
  match x with
  | none => .ok
  | some x => addEnum name x f

/-- The part of `add_list` after the elements have been validated (`validation.rs` 227-241):
number the results, keep those with errors, add them if there are any. The element results are
an argument so that recursive types can compute them by structural recursion. -/
def addListResults (name : String) (rs : Res (List VResult)) : VStep := fun st => do
  let rs ← rs
  let errs := (rs.zipIdx.filter fun p => p.1.hasErrors).map fun p => (p.2, p.1)
  if errs.isEmpty then .ok st else st.addNested name (.list errs)

/-- `ValidationContext::add_list` (`validation.rs` 213-242). -/
def addList {α : Type} (name : String) (xs : List α) (f : α → Res VResult) : VStep :=
  addListResults name (xs.mapM f)

/-- `ValidationContext::add_list_option` (`validation.rs` 275-290). -/
def addListOption {α : Type} (name : String) (xs : Option (List α)) (f : α → Res VResult) :
    VStep :=
  match xs with
  | none => .ok
  | some xs => addList name xs f

/-- The loop of `add_unique_list` (`validation.rs` 254-266): `seen` is the hash set, `i` the
index. Elements of the hash set are compared by their derived equality; `f32` values, which
`ordered_float` identifies when both are zero or both are NaN, are compared by bit pattern
here. -/
def uniqueErrors {α : Type} [DecidableEq α] (f : α → Res VResult) :
    List α → Nat → List α → Res (List (Nat × VResult))
  | _, _, [] => .ok []
  | seen, i, x :: xs =>
    if x ∈ seen then do
      let rest ← uniqueErrors f seen (i + 1) xs
      .ok ((i, VResult.ofCheck (.error "repeated element")) :: rest)
    else do
      let r ← f x
      let rest ← uniqueErrors f (x :: seen) (i + 1) xs
      .ok (if r.hasErrors then (i, r) :: rest else rest)

/-- `ValidationContext::add_unique_list` (`validation.rs` 243-273). -/
def addUniqueList {α : Type} [DecidableEq α] (name : String) (xs : List α)
    (f : α → Res VResult) : VStep := fun st => do
  let errs ← uniqueErrors f [] 0 xs
  if errs.isEmpty then .ok st else st.addNested name (.list errs)

/-- `ValidationContext::add_unique_list_option` (`validation.rs` 292-307). -/
def addUniqueListOption {α : Type} [DecidableEq α] (name : String) (xs : Option (List α))
    (f : α → Res VResult) : VStep :=
  match xs with
  | none => .ok
  | some xs => addUniqueList name xs f

/-- `ValidationContext::add_struct` (`validation.rs` 309-324), from the result of validating
the value. -/
def addStructResult (name : String) (r : Res VResult) : VStep := fun st => do
  let r ← r
  if r.hasErrors then st.addNested name (.struct r) else .ok st

/-- `ValidationContext::add_struct` (`validation.rs` 309-324). -/
def addStruct {α : Type} (name : String) (x : α) (f : α → Res VResult) : VStep :=
  addStructResult name (f x)

/-- `ValidationContext::add_struct_option` (`validation.rs` 326-336), from the result of
validating the value. -/
def addStructOptionResult (name : String) (r : Option (Res VResult)) : VStep :=
  match r with
  | none => .ok
  | some r => addStructResult name r

/-- `ValidationContext::add_struct_option` (`validation.rs` 326-336). -/
def addStructOption {α : Type} (name : String) (x : Option α) (f : α → Res VResult) : VStep :=
  match x with
  | none => .ok
  | some x => addStruct name x f

/-- `ValidationContext::add_custom` (`validation.rs` 342-349). -/
def addCustom (name : String) (e : String) : VStep := fun st => st.addCustom name e

end Cdx
