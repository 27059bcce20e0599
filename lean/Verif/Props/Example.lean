import Verif.Model.Generator
import Verif.Spec.Bom

/-!
# A concrete workspace

Used beside the property theorems to show that their hypotheses are met by a non-trivial
case: a root package with a normal, a build and a dev dependency, a diamond, a cycle closed
by a dev edge, and an unrelated package.
-/

namespace Cdx.Example

/-- An environment. -/
def env : Env where
  uriValid := fun s => startsWith s "http"
  spdxStrict := fun s => s == "MIT" || s == "MIT OR Apache-2.0"
  spdxLax := fun s => s == "MIT" || s == "MIT/Apache-2.0"
  emailValid := fun s => s.toList.contains '@'
  dateTimeValid := fun s => !s.toList.isEmpty
  readFile := fun p => if p == ["w", "LICENSE"] then some "text" else none
  isFile := fun p => p == ["w", "Cargo.lock"]
  loadLock := fun p => if p == ["w", "Cargo.lock"] then some
    [{ name := "a", version := "1.0.0", source := some "registry+https://r",
       checksum := some (Vector.replicate 32 171) }] else none
  sourceDateEpoch := none
  now := some "2024-01-01T00:00:00Z"
  formatUnix := fun i => if i = 0 then some "1970-01-01T00:00:00Z" else none
  uuid := fun i => Vector.replicate 16 (UInt8.ofNat i)
  purlRender := fun n v _ _ => some ("pkg:cargo/" ++ n ++ "@" ++ v)
  purlValid := fun _ => true
  debug := true
  toolVersion := "0.5.7"

/-- Root package with a library, a binary and a test target. -/
def rootPkg : Package where
  id := "root"
  name := "root"
  version := "0.1.0"
  authors := ["Jo Doe <jo@example.org>", "X <bad>"]
  license := some "MIT/Apache-2.0"
  documentation := some "http://docs"
  repository := some "no uri"
  manifestPath := ["w", "Cargo.toml"]
  targets := [{ name := "root", kind := ["lib"], srcPath := ["w", "src", "lib.rs"] },
              { name := "t", kind := ["test"], srcPath := ["w", "tests", "t.rs"] },
              { name := "cli", kind := ["bin"], srcPath := ["w", "src", "main.rs"] }]

/-- A package from a registry. -/
def pkg (id : String) : Package where
  id := id
  name := id
  version := "1.0.0"
  source := some "registry+https://r"
  manifestPath := ["home", ".cargo", id, "Cargo.toml"]

/-- A dependency edge. -/
def dep (p : String) (ks : List DependencyKind) : NodeDep :=
  { pkg := p, depKinds := ks.map fun k => { kind := k } }

/-- The resolve graph. -/
def nodes : List Node :=
  [{ id := "z", deps := [], dependencies := [] },
   { id := "root", deps := [dep "a" [.normal], dep "b" [.build], dep "t" [.development]],
     dependencies := ["a", "b", "t"] },
   { id := "b", deps := [dep "c" [.normal]], dependencies := ["c"] },
   { id := "a", deps := [dep "c" [.development, .build]], dependencies := ["c"] },
   { id := "c", deps := [dep "a" [.development]], dependencies := ["a"] },
   { id := "t", deps := [dep "a" [.normal]], dependencies := ["a"] }]

/-- The whole metadata. -/
def md : CargoMetadata where
  packages := [rootPkg, pkg "z", pkg "t", pkg "c", pkg "b", pkg "a"]
  workspaceMembers := ["root"]
  resolve := some nodes
  workspaceRoot := ["w"]

/-- A configuration as `resolve_config` produces it. -/
def config : SbomConfig := { target := some (.singleTarget "x86_64-unknown-linux-gnu") }

/-- The same in top-level mode. -/
def topConfig : SbomConfig := { config with includedDependencies := some .topLevelDependencies }

/-- The same with `--no-build-deps`. -/
def normalConfig : SbomConfig := { config with onlyNormalDeps := some true }

theorem md_ok : Spec.MetadataOk md nodes where
  resolve := rfl
  graph := { nodup := by decide, closed := by decide, known := by decide }
  packagesNodup := by decide
  packages := by decide
  members := by decide

end Cdx.Example
