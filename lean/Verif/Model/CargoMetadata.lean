/-!
# `cargo metadata` output

The fields of the external crate `cargo_metadata` (data only) that
`cargo-cyclonedx/src/generator.rs` and `purl.rs` read.
-/

namespace Cdx

/-- `cargo_metadata::PackageId` (a newtype around a string, `generator.rs` 72, 1024). -/
abbrev PackageId := String

/-- An absolute path as the list of its components (`camino::Utf8PathBuf`,
`generator.rs` 106, 318-322, 1002-1011). Simplification: no prefixes, no `.`/`..`. -/
abbrev FPath := List String

/-- `cargo_metadata::DependencyKind` (`generator.rs` 83-102); the enum is
`#[non_exhaustive]` with an `Unknown` variant. -/
inductive DependencyKind where
  | normal | development | build | unknown
  deriving DecidableEq, Repr

/-- `cargo_metadata::DepKindInfo` (`generator.rs` 663). -/
structure DepKindInfo where
  kind : DependencyKind
  target : Option String := none
  deriving DecidableEq, Repr

/-- `cargo_metadata::NodeDep` (`generator.rs` 662-667, 806). -/
structure NodeDep where
  name : String := ""
  pkg : PackageId
  depKinds : List DepKindInfo
  deriving DecidableEq, Repr

/-- `cargo_metadata::Node` (`generator.rs` 708-717, 797-802). -/
structure Node where
  id : PackageId
  deps : List NodeDep
  dependencies : List PackageId
  features : List String := []
  deriving DecidableEq, Repr

/-- `cargo_metadata::Target` (`generator.rs` 272-334, 608-614). -/
structure Target where
  name : String
  kind : List String
  srcPath : FPath
  deriving DecidableEq, Repr

namespace Target
/-- `cargo_metadata::Target::is_bin` (used at `generator.rs` 275, 348). -/
def isBin (t : Target) : Bool := t.kind.any (· == "bin")
/-- `cargo_metadata::Target::is_bench` (used at `generator.rs` 612). -/
def isBench (t : Target) : Bool := t.kind.any (· == "bench")
/-- `cargo_metadata::Target::is_example` (used at `generator.rs` 612). -/
def isExample (t : Target) : Bool := t.kind.any (· == "example")
/-- `cargo_metadata::Target::is_test` (used at `generator.rs` 612). -/
def isTest (t : Target) : Bool := t.kind.any (· == "test")
/-- `cargo_metadata::Target::is_custom_build` (used at `generator.rs` 612). -/
def isCustomBuild (t : Target) : Bool := t.kind.any (· == "custom-build")
end Target

/-- `cargo_metadata::Package` (`generator.rs` 216-263, 355-496; `purl.rs` 8-65).
`version` is the rendered `semver::Version`; `licenseFile` is the value of
`Package::license_file()` (path relative to the manifest directory, already joined). -/
structure Package where
  id : PackageId
  name : String
  version : String
  authors : List String := []
  description : Option String := none
  license : Option String := none
  licenseFile : Option FPath := none
  documentation : Option String := none
  homepage : Option String := none
  links : Option String := none
  repository : Option String := none
  source : Option String := none
  targets : List Target := []
  manifestPath : FPath
  deriving DecidableEq, Repr

/-- `cargo_metadata::Metadata` (`generator.rs` 120-127). -/
structure CargoMetadata where
  packages : List Package
  workspaceMembers : List PackageId
  resolve : Option (List Node)
  workspaceRoot : FPath
  deriving DecidableEq, Repr

end Cdx
