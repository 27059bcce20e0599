import Verif.Model.Json

/-!
# Specification: JSON documents that differ in the order of the members of objects
-/

namespace Cdx.Spec

/-- The name of the first member whose name is in the list. -/
def firstOf (names : List String) (o : List (String × Json)) : Option String :=
  (o.map Prod.fst).find? fun k => decide (k ∈ names)

/-- The same document, with the members of the objects in it in another order. No object has two
members of the same name. For each of the given groups of names, the first member of an object with a
name of the group is the same in both. -/
inductive Reordered (groups : List (List String)) : Json → Json → Prop
  | null : Reordered groups .null .null
  | bool (b : Bool) : Reordered groups (.bool b) (.bool b)
  | nat (n : Nat) : Reordered groups (.nat n) (.nat n)
  | float (x : F32) : Reordered groups (.float x) (.float x)
  | other : Reordered groups .other .other
  | str (s : String) : Reordered groups (.str s) (.str s)
  | nil : Reordered groups (.arr []) (.arr [])
  | cons {x y : Json} {l m : List Json} : Reordered groups x y → Reordered groups (.arr l) (.arr m) →
    Reordered groups (.arr (x :: l)) (.arr (y :: m))
  | obj {o p : List (String × Json)} : (o.map Prod.fst).Nodup → (p.map Prod.fst).Nodup →
    (∀ k, (∃ x, (k, x) ∈ o) ↔ ∃ y, (k, y) ∈ p) →
    (∀ k x y, (k, x) ∈ o → (k, y) ∈ p → Reordered groups x y) →
    (∀ names ∈ groups, firstOf names o = firstOf names p) →
    Reordered groups (.obj o) (.obj p)

/-- The groups of names of which only the first is read: what a license is identified by, and how the
version of something affected by a vulnerability is given. -/
def alternatives : List (List String) :=
  [["id", "name"], ["range", "undefinedVersionRange", "version"]]

/-- The names of each group are in alphabetical order. -/
def Ranks (groups : List (List String)) (names : List String) : Prop :=
  ∀ group ∈ groups, (names.filter fun k => decide (k ∈ group)).Pairwise fun a b => compare a b = .lt

/-- The names of each group are in alphabetical order, in every object of the value. -/
inductive Ranked (groups : List (List String)) : Json → Prop
  | null : Ranked groups .null
  | bool {b} : Ranked groups (.bool b)
  | nat {n} : Ranked groups (.nat n)
  | float {x} : Ranked groups (.float x)
  | other : Ranked groups .other
  | str {s} : Ranked groups (.str s)
  | arr {l} : (∀ j ∈ l, Ranked groups j) → Ranked groups (.arr l)
  | obj {l} : Ranks groups (l.map Prod.fst) → (∀ m ∈ l, Ranked groups m.2) → Ranked groups (.obj l)

/-- One member of one object, at any depth, is dropped, of which the object has another with the same
name further on. -/
inductive Overridden : Json → Json → Prop
  | here {before after : List (String × Json)} {k : String} {x y : Json} : (k, y) ∈ after →
    Overridden (.obj (before ++ (k, x) :: after)) (.obj (before ++ after))
  | item {before after : List Json} {x y : Json} : Overridden x y →
    Overridden (.arr (before ++ x :: after)) (.arr (before ++ y :: after))
  | member {before after : List (String × Json)} {k : String} {x y : Json} : Overridden x y →
    Overridden (.obj (before ++ (k, x) :: after)) (.obj (before ++ (k, y) :: after))

end Cdx.Spec
