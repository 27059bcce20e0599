/-!
# Faults

Panics of the Rust code (`panic!`, `unwrap`, `expect`, indexing a map with a missing
key, `unreachable!`) are explicit error values.
-/

namespace Cdx

/-- Why a computation has no value: a Rust panic with a short reason, an ordinary `Err`
returned to the caller, or (only in the model) running out of fuel in a loop; the latter is
proved impossible. -/
inductive Fault where
  | panic (reason : String)
  | err (reason : String)
  | outOfFuel
  deriving DecidableEq, Repr

/-- A computation that may panic. -/
abbrev Res (α : Type) := Except Fault α

/-- Decidable equality of results, for concrete examples. -/
instance instDecidableEqExcept {ε α : Type} [DecidableEq ε] [DecidableEq α] :
    DecidableEq (Except ε α)
  | .ok a, .ok b => if h : a = b then .isTrue (h ▸ rfl) else .isFalse (fun e => h (by cases e; rfl))
  | .error a, .error b => if h : a = b then .isTrue (h ▸ rfl) else .isFalse (fun e => h (by cases e; rfl))
  | .ok _, .error _ => .isFalse (fun e => by cases e)
  | .error _, .ok _ => .isFalse (fun e => by cases e)

end Cdx
