import Std

/-!
# Ordered maps

Model of the parts of `std::collections::BTreeMap` (and of `HashMap`, whose iteration
order the modelled code never observes) that `/repo` uses: `new`, `insert`, `get`,
`contains_key`, iteration in key order, `collect` from an iterator of pairs.
Used by `cargo-cyclonedx/src/generator.rs` lines 72-74 (`PackageMap`, `ResolveMap`,
`DependencyKindMap`) and 632 (`HashMap`).

Simplification: a map is an association list; that it is strictly sorted by key is a
separate theorem (`Verif/Lemmas/BTreeMap.lean`), not a subtype.
-/

namespace Cdx

/-- `BTreeMap<κ, α>` as an association list (`generator.rs` 72-74). -/
abbrev OMap (κ : Type) (α : Type) := List (κ × α)

namespace OMap

variable {κ α β : Type} [Ord κ]

/-- `BTreeMap::get` (`generator.rs` 242, 653). -/
def lookup (k : κ) : OMap κ α → Option α
  | [] => none
  | (k', v) :: m => match compare k k' with
    | .eq => some v
    | _ => lookup k m

/-- `BTreeMap::contains_key` (`generator.rs` 775, 790). -/
def contains (k : κ) (m : OMap κ α) : Bool := (m.lookup k).isSome

/-- `BTreeMap::insert` (`generator.rs` 733, 744, 777): replaces an existing entry. -/
def insert (k : κ) (v : α) : OMap κ α → OMap κ α
  | [] => [(k, v)]
  | (k', v') :: m => match compare k k' with
    | .lt => (k, v) :: (k', v') :: m
    | .eq => (k, v) :: m
    | .gt => (k', v') :: insert k v m

/-- `Iterator::collect::<BTreeMap<_, _>>` (`generator.rs` 616-628): later entries win. -/
def ofList (l : List (κ × α)) : OMap κ α :=
  l.foldl (fun m kv => m.insert kv.1 kv.2) []

/-- `BTreeMap::values` (`generator.rs` 199, 709): in key order. -/
def values (m : OMap κ α) : List α := m.map (·.2)

/-- Keys in key order (`generator.rs` 788). -/
def keys (m : OMap κ α) : List κ := m.map (·.1)

end OMap

end Cdx
