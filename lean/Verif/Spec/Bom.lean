import Verif.Model.Types
import Verif.Model.Config
import Verif.Spec.Graph

/-!
# Specification: what a generated BOM shows

Observations on a BOM and the sets of packages it is supposed to list, independent of the
generator.
-/

namespace Cdx.Spec

/-- The listed components. -/
def components (b : Bom) : List Component := b.components.getD []

/-- The bom-refs of the listed components. -/
def componentRefs (b : Bom) : List (Option String) := (components b).map (·.bomRef)

/-- The component the BOM is about. -/
def topComponent (b : Bom) : Option Component := b.metadata.bind (·.component)

/-- The bom-ref of the component the BOM is about. -/
def topRef (b : Bom) : Option String := (topComponent b).bind (·.bomRef)

/-- The entries of the dependency section. -/
def dependencyEntries (b : Bom) : List Dependency := b.dependencies.getD []

/-- Is `--no-build-deps` given? -/
def noBuildDeps (config : SbomConfig) : Bool := config.onlyNormalDeps.getD false

/-- The mode in which all (also indirect) dependencies are listed; this is the default. -/
def AllMode (config : SbomConfig) : Prop :=
  config.includedDependencies ≠ some .topLevelDependencies

instance (config : SbomConfig) : Decidable (AllMode config) :=
  inferInstanceAs (Decidable (_ ≠ _))

/-- A kind is followed, as a boolean. -/
instance (nb : Bool) (k : DependencyKind) : Decidable (Followed nb k) := by
  unfold Followed; exact inferInstance

/-- A dependency of a node is retained if one of its kinds is followed. -/
def keptDeps (nb : Bool) (n : Node) : List PackageId :=
  (n.deps.filter fun d => decide (∃ i ∈ d.depKinds, Followed nb i.kind)).map (·.pkg)

/-- What cargo guarantees about the output of `cargo metadata`: package ids are unique, the
resolve graph is consistent, each of its nodes has a package, and so does each workspace
member. -/
structure MetadataOk (md : CargoMetadata) (nodes : List Node) : Prop where
  resolve : md.resolve = some nodes
  graph : Consistent nodes
  packagesNodup : (md.packages.map (·.id)).Nodup
  packages : ∀ n ∈ nodes, ∃ p ∈ md.packages, p.id = n.id
  members : ∀ m ∈ md.workspaceMembers, m ∈ nodes.map (·.id)

/-- `x` is the `i`-th output for the `i`-th input `m`. -/
def At {α β : Type} (xs : List α) (x : α) (ms : List β) (m : β) : Prop :=
  ∃ i : Nat, xs[i]? = some x ∧ ms[i]? = some m

/-- A target that gets its own subcomponent: not a benchmark, example, test or build script, and
a binary, a procedural macro or some kind of library. -/
def IsDescribed (t : Target) : Prop :=
  ("bench" ∉ t.kind ∧ "example" ∉ t.kind ∧ "test" ∉ t.kind ∧ "custom-build" ∉ t.kind) ∧
  ("bin" ∈ t.kind ∨ "proc-macro" ∈ t.kind ∨
    ∃ k ∈ t.kind, ∃ a b, k.toList = a ++ "lib".toList ++ b)

end Cdx.Spec
