import Verif.Model.CargoMetadata

/-!
# Specification: dependency graphs

Independent of the traversal code: edges of the `cargo metadata` resolve graph, paths,
reachability.
-/

namespace Cdx.Spec

/-- There is an edge of kind `k` from package `p` to package `q`. -/
def Edge (nodes : List Node) (p q : PackageId) (k : DependencyKind) : Prop :=
  ∃ n ∈ nodes, n.id = p ∧ ∃ d ∈ n.deps, d.pkg = q ∧ ∃ i ∈ d.depKinds, i.kind = k

/-- normal > build > dev. -/
def strength : DependencyKind → Nat
  | .normal => 3
  | .build => 2
  | .development => 1
  | .unknown => 0

/-- The weaker of two kinds. -/
def weaker (a b : DependencyKind) : DependencyKind := if strength a ≤ strength b then a else b

/-- `PathKind nodes root p k`: some dependency path from `root` to `p` has `k` as the kind
of its weakest edge (the empty path counts as normal). -/
inductive PathKind (nodes : List Node) (root : PackageId) : PackageId → DependencyKind → Prop
  | root : PathKind nodes root root .normal
  | step {p q k k'} : PathKind nodes root p k → Edge nodes p q k' →
      PathKind nodes root q (weaker k k')

/-- `k` is the best, over all paths from `root` to `p`, of the weakest kind on the path. -/
def StrongestKind (nodes : List Node) (root p : PackageId) (k : DependencyKind) : Prop :=
  PathKind nodes root p k ∧ ∀ k', PathKind nodes root p k' → strength k' ≤ strength k

/-- A path that uses only edges whose kind satisfies `ok`. -/
inductive ReachVia (nodes : List Node) (ok : DependencyKind → Prop) (root : PackageId) :
    PackageId → Prop
  | root : ReachVia nodes ok root root
  | step {p q k} : ReachVia nodes ok root p → Edge nodes p q k → ok k → ReachVia nodes ok root q

/-- Which edge kinds the SBOM follows: everything but dev, or with `--no-build-deps` only
normal edges. -/
def Followed (noBuildDeps : Bool) (k : DependencyKind) : Prop :=
  if noBuildDeps then k = .normal else k ≠ .development

/-- Consistency of the resolve graph as produced by cargo: one node per package id, every
dependency has a node, and every edge kind is one of the three documented ones. -/
structure Consistent (nodes : List Node) : Prop where
  nodup : (nodes.map (·.id)).Nodup
  closed : ∀ n ∈ nodes, ∀ d ∈ n.deps, ∃ m ∈ nodes, m.id = d.pkg
  known : ∀ n ∈ nodes, ∀ d ∈ n.deps, ∀ i ∈ d.depKinds, i.kind ≠ .unknown

end Cdx.Spec
