import Verif.Spec.Bom

/-!
# Two answers of cargo that agree on what a package uses
-/

namespace Cdx.Spec

/-- The dependencies of a package other than development dependencies, with the kinds of dependency. -/
def usedDeps (n : Node) : List (PackageId × List DependencyKind) :=
  (n.deps.map fun d => (d.pkg, (d.depKinds.map (·.kind)).filter (· ≠ .development))).filter fun x => x.2 ≠ []

/-- Two answers of cargo agree on everything that `root` uses, directly or not, other than for development:
these packages are described in the same way, and have the same dependencies apart from development
dependencies. Nothing is said about other packages and other workspace members. -/
structure AgreeOn (md : CargoMetadata) (nodes : List Node) (md' : CargoMetadata) (nodes' : List Node)
    (root : PackageId) : Prop where
  workspace : md'.workspaceRoot = md.workspaceRoot
  packages : ∀ p ∈ md.packages, ReachVia nodes (· ≠ .development) root p.id → p ∈ md'.packages
  nodes : ∀ n ∈ nodes, ReachVia nodes (· ≠ .development) root n.id →
    ∃ n' ∈ nodes', n'.id = n.id ∧ usedDeps n' = usedDeps n

end Cdx.Spec
