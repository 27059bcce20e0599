import Verif.Model.Basic
import Verif.Model.CargoMetadata
import Verif.Model.Config

/-!
# Dependency graph traversal

`cargo-cyclonedx/src/generator.rs` lines 71-102, 616-679, 707-819.
-/

namespace Cdx

/-- `PackageMap` (`generator.rs` 72). -/
abbrev PackageMap := OMap PackageId Package
/-- `ResolveMap` (`generator.rs` 73). -/
abbrev ResolveMap := OMap PackageId Node
/-- `DependencyKindMap` (`generator.rs` 74). -/
abbrev DependencyKindMap := OMap PackageId DependencyKind

/-- `PrivateDepKind` (`generator.rs` 76-82), weakest to strongest. -/
inductive PrivateDepKind where
  | development | build | runtime
  deriving DecidableEq, Repr

namespace PrivateDepKind

/-- Discriminant, for the derived `Ord` (`generator.rs` 77). -/
def rank : PrivateDepKind → Nat
  | development => 0
  | build => 1
  | runtime => 2

/-- `a > b` of the derived `Ord` (`generator.rs` 656). -/
def gt (a b : PrivateDepKind) : Bool := b.rank < a.rank

/-- `std::cmp::min` for the derived `Ord` (`generator.rs` 665). -/
def min (a b : PrivateDepKind) : PrivateDepKind := if a.rank ≤ b.rank then a else b

/-- `From<PrivateDepKind> for DependencyKind` (`generator.rs` 83-91). -/
def toDependencyKind : PrivateDepKind → DependencyKind
  | development => .development
  | build => .build
  | runtime => .normal

/-- `From<&DependencyKind> for PrivateDepKind` (`generator.rs` 93-102). -/
def ofDependencyKind : DependencyKind → Res PrivateDepKind
  | .normal => .ok .runtime
  | .development => .ok .development
  | .build => .ok .build
  | .unknown => .error (.panic "Unknown dependency kind")

end PrivateDepKind

/-- `index_packages` (`generator.rs` 616-621). -/
def indexPackages (packages : List Package) : PackageMap :=
  OMap.ofList (packages.map fun p => (p.id, p))

/-- `index_resolve` (`generator.rs` 623-628). -/
def indexResolve (nodes : List Node) : ResolveMap :=
  OMap.ofList (nodes.map fun n => (n.id, n))

/-- `&resolve[id]` / `&packages[id]` (`generator.rs` 142, 197, 661, 728, 764, 780):
indexing panics on a missing key. -/
def OMap.index {α : Type} (m : OMap PackageId α) (id : PackageId) : Res α :=
  match m.lookup id with
  | some n => .ok n
  | none => .error (.panic "no entry found for key")

/-- `DepNode` (`generator.rs` 635): package, kind of the last edge, kind of the path. -/
structure DepTriple where
  pkg : PackageId
  nodeKind : PrivateDepKind
  pathKind : PrivateDepKind
  deriving DecidableEq, Repr

/-- Local variables of `index_dep_kinds` (`generator.rs` 632-644). The top of the Rust
`Vec` used as a stack is the head of `stack`. -/
structure DepKindState where
  kinds : OMap PackageId PrivateDepKind
  stack : List DepTriple
  visited : List DepTriple
  deriving DecidableEq, Repr

/-- The (child, edge kind) pairs in the order of the nested loops (`generator.rs` 662-663). -/
def Node.kindedDeps (n : Node) : List (PackageId × DependencyKind) :=
  n.deps.flatMap fun d => d.depKinds.map fun k => (d.pkg, k.kind)

/-- One iteration of the inner loop (`generator.rs` 664-670). -/
def pushChild (visited : List DepTriple) (pathKind : PrivateDepKind)
    (stack : List DepTriple) (child : PackageId × DependencyKind) : Res (List DepTriple) := do
  let currentKind ← PrivateDepKind.ofDependencyKind child.2
  let dep : DepTriple := ⟨child.1, currentKind, currentKind.min pathKind⟩
  if visited.contains dep then .ok stack else .ok (dep :: stack)

/-- One iteration of the `while let` loop of `index_dep_kinds` after popping `t`
(`generator.rs` 651-672). -/
def depKindStep (resolve : ResolveMap) (kinds : OMap PackageId PrivateDepKind)
    (visited : List DepTriple) (t : DepTriple) (rest : List DepTriple) : Res DepKindState := do
  let visited := t :: visited
  let kinds := match kinds.lookup t.pkg with
    | none => kinds.insert t.pkg t.pathKind
    | some previous =>
      if t.pathKind.gt previous then kinds.insert t.pkg t.pathKind else kinds
  let node ← resolve.index t.pkg
  let stack ← node.kindedDeps.foldlM (pushChild visited t.pathKind) rest
  .ok ⟨kinds, stack, visited⟩

/-- The `while let` loop (`generator.rs` 650-673), with a bound on the number of
iterations; the bound is proved sufficient. -/
def depKindLoop (resolve : ResolveMap) : Nat → DepKindState → Res (OMap PackageId PrivateDepKind)
  | 0, _ => .error .outOfFuel
  | fuel + 1, s => match s.stack with
    | [] => .ok s.kinds
    | t :: rest =>
      match depKindStep resolve s.kinds s.visited t rest with
      | .error e => .error e
      | .ok s' => depKindLoop resolve fuel s'

/-- Number of edges (a dependency with `n` kinds counts `n + 1` times); only used to
bound the number of loop iterations. -/
def ResolveMap.size (resolve : ResolveMap) : Nat :=
  (resolve.map fun kn => (kn.2.deps.map fun d => d.depKinds.length + 1).sum).sum

/-- Iteration bound for `depKindLoop`. -/
def depKindFuel (resolve : ResolveMap) : Nat :=
  2 + (ResolveMap.size resolve + 1) * (2 * (9 * (ResolveMap.size resolve + 1)))

/-- `index_dep_kinds` (`generator.rs` 630-679). -/
def indexDepKinds (root : PackageId) (resolve : ResolveMap) : Res DependencyKindMap :=
  let init : DepKindState :=
    { kinds := OMap.insert root .runtime []
      stack := [⟨root, .runtime, .runtime⟩]
      visited := [] }
  match depKindLoop resolve (depKindFuel resolve) init with
  | .error e => .error e
  | .ok m => .ok (m.map fun kv => (kv.1, kv.2.toDependencyKind))

/-- The closure of `filtered_dependencies` (`generator.rs` 810-818). -/
def retained (config : SbomConfig) (d : NodeDep) : Bool :=
  d.depKinds.any fun k =>
    if config.onlyNormalDeps = some true then k.kind == .normal else k.kind != .development

/-- `filtered_dependencies` (`generator.rs` 806-819). -/
def filteredDependencies (deps : List NodeDep) (config : SbomConfig) : List NodeDep :=
  deps.filter (retained config)

/-- `add_filtered_dependencies` (`generator.rs` 797-802). -/
def addFilteredDependencies (node : Node) (config : SbomConfig) : Node :=
  let deps := filteredDependencies node.deps config
  { node with deps := deps, dependencies := deps.map (·.pkg) }

/-- `create_dependencies` (`generator.rs` 708-717), as (ref, dependsOn) pairs. -/
def createDependencies (resolve : ResolveMap) : List (String × List String) :=
  resolve.values.map fun node => (node.id, node.dependencies)

/-- Insert `packages[id]` for each id of a list (`generator.rs` 734-736). -/
def insertPackages (packages : PackageMap) : List PackageId → PackageMap → Res PackageMap
  | [], acc => .ok acc
  | id :: ids, acc => do
    let p ← packages.index id
    insertPackages packages ids (acc.insert id p)

/-- Insert the cleared nodes of the direct dependencies (`generator.rs` 739-745). -/
def insertCleared (resolve : ResolveMap) : List PackageId → ResolveMap → Res ResolveMap
  | [], acc => .ok acc
  | id :: ids, acc => do
    let n ← resolve.index id
    insertCleared resolve ids (acc.insert id { n with deps := [], dependencies := [] })

/-- `top_level_dependencies` (`generator.rs` 719-750). -/
def topLevelDependencies (root : PackageId) (packages : PackageMap) (resolve : ResolveMap)
    (config : SbomConfig) : Res (PackageMap × ResolveMap) := do
  let node ← resolve.index root
  let rootNode := addFilteredDependencies node config
  let rootPkg ← packages.index root
  let pkgResult ← insertPackages packages rootNode.dependencies (OMap.insert root rootPkg [])
  let resolveResult ← insertCleared resolve rootNode.dependencies []
  .ok (pkgResult, resolveResult.insert root rootNode)

/-- `filtered_dependencies(&node.deps, config).map(|dep| &resolve[&dep.pkg])`
(`generator.rs` 779-781). -/
def queueDeps (resolve : ResolveMap) : List NodeDep → Res (List Node)
  | [] => .ok []
  | d :: ds => do
    let n ← resolve.index d.pkg
    let ns ← queueDeps resolve ds
    .ok (n :: ns)

/-- The `for node in current_queue.drain(..)` loop (`generator.rs` 773-783); returns
`next_queue` and `out_resolve`. -/
def drainQueue (resolve : ResolveMap) (config : SbomConfig) :
    List Node → List Node → ResolveMap → Res (List Node × ResolveMap)
  | [], next, out => .ok (next, out)
  | node :: queue, next, out =>
    if out.contains node.id then drainQueue resolve config queue next out
    else do
      let more ← queueDeps resolve (filteredDependencies node.deps config)
      drainQueue resolve config queue (next ++ more)
        (out.insert node.id (addFilteredDependencies node config))

/-- The `while !current_queue.is_empty()` loop (`generator.rs` 772-785). After
`current_queue.drain(..)` and `swap`, `next_queue` is empty again. -/
def bfsLoop (resolve : ResolveMap) (config : SbomConfig) :
    Nat → List Node → ResolveMap → Res ResolveMap
  | 0, _, _ => .error .outOfFuel
  | fuel + 1, queue, out => match queue with
    | [] => .ok out
    | _ => do
      let r ← drainQueue resolve config queue [] out
      bfsLoop resolve config fuel r.1 r.2

/-- `all_dependencies` (`generator.rs` 752-795). -/
def allDependencies (root : PackageId) (packages : PackageMap) (resolve : ResolveMap)
    (config : SbomConfig) : Res (PackageMap × ResolveMap) := do
  let rootNode ← resolve.index root
  let outResolve ← bfsLoop resolve config (resolve.length + 2) [rootNode] []
  .ok (packages.filter (fun kv => outResolve.contains kv.1), outResolve)

end Cdx
