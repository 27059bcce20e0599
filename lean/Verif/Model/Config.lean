import Verif.Model.BTreeMap

/-!
# Configuration of cargo-cyclonedx

`cargo-cyclonedx/src/config.rs`, `format.rs`, the configuration part of `cli.rs` and
`main.rs`.
-/

namespace Cdx

/-- `Format` (`cargo-cyclonedx/src/format.rs` 22-28); default `Xml` (`format.rs` 30-34). -/
inductive Format where
  | json | xml
  deriving DecidableEq, Repr

/-- `impl Display for Format` (`cargo-cyclonedx/src/format.rs` 36-43). -/
def Format.display : Format → String
  | .json => "json"
  | .xml => "xml"

/-- `impl FromStr for Format` (`cargo-cyclonedx/src/format.rs` 45-55). -/
def Format.parse : String → Except String Format
  | "xml" => .ok .xml
  | "json" => .ok .json
  | s => .error ("Expected xml or json, got `" ++ s ++ "`")

/-- `SpecVersion` (`cyclonedx-bom/src/models/bom.rs` 47-59). -/
inductive SpecVersion where
  | v1_3 | v1_4 | v1_5
  deriving DecidableEq, Repr

/-- The derived `Ord` of `SpecVersion` (`cyclonedx-bom/src/models/bom.rs` 48: `#[repr(u16)]`,
values 1, 2, 3). -/
def SpecVersion.ord : SpecVersion → Nat
  | .v1_3 => 1
  | .v1_4 => 2
  | .v1_5 => 3

/-- `IncludedDependencies` (`config.rs` 99-104). -/
inductive IncludedDependencies where
  | topLevelDependencies | allDependencies
  deriving DecidableEq, Repr

/-- `FilenamePattern` with `FilenameOverride` (`config.rs` 147-151, 184-185). -/
inductive FilenamePattern where
  | crateName
  | custom (name : String)
  deriving DecidableEq, Repr

/-- `PlatformSuffix` (`config.rs` 213-218). -/
inductive PlatformSuffix where
  | included | notIncluded
  deriving DecidableEq, Repr

/-- `OutputOptions` (`config.rs` 118-122), defaults from 153-157 and 216-217. -/
structure OutputOptions where
  filename : FilenamePattern := .crateName
  platformSuffix : PlatformSuffix := .notIncluded
  deriving DecidableEq, Repr

/-- `Features` (`config.rs` 124-129). -/
structure Features where
  allFeatures : Bool := false
  noDefaultFeatures : Bool := false
  features : List String := []
  deriving DecidableEq, Repr

/-- `Target` (compilation target, `config.rs` 131-136). -/
inductive TargetPlatform where
  | allTargets
  | singleTarget (triple : String)
  deriving DecidableEq, Repr

/-- `Target::as_str` (`config.rs` 138-145). -/
def TargetPlatform.asStr : TargetPlatform → String
  | .allTargets => "all"
  | .singleTarget t => t

/-- `ParseMode` (`config.rs` 243-251), default `Lax`. -/
inductive ParseMode where
  | strict | lax
  deriving DecidableEq, Repr

/-- `LicenseParserOptions` (`config.rs` 220-229). The `HashSet` `accept_named` is a list;
only membership is observable. -/
structure LicenseParserOptions where
  mode : ParseMode := .lax
  acceptNamed : List String := []
  deriving DecidableEq, Repr

/-- `Describe` (`config.rs` 253-263), default `Crate`. -/
inductive Describe where
  | crate | binaries | allCargoTargets
  deriving DecidableEq, Repr

/-- `SbomConfig` (`config.rs` 26-37). -/
structure SbomConfig where
  format : Option Format := none
  includedDependencies : Option IncludedDependencies := none
  outputOptions : Option OutputOptions := none
  features : Option Features := none
  target : Option TargetPlatform := none
  licenseParser : Option LicenseParserOptions := none
  describe : Option Describe := none
  specVersion : Option SpecVersion := none
  onlyNormalDeps : Option Bool := none
  deriving DecidableEq, Repr

/-- `LicenseParserOptions::merge` (`config.rs` 231-241). -/
def LicenseParserOptions.merge (self other : LicenseParserOptions) : LicenseParserOptions where
  mode := other.mode
  acceptNamed := self.acceptNamed ++ other.acceptNamed

/-- `SbomConfig::merge` (`config.rs` 44-64). The comment there says "`self` takes
precedence over `other`"; the code does the opposite, and this is the code. -/
def SbomConfig.merge (self other : SbomConfig) : SbomConfig where
  format := other.format.or self.format
  includedDependencies := other.includedDependencies.or self.includedDependencies
  outputOptions := other.outputOptions.or self.outputOptions
  features := other.features.or self.features
  target := other.target.or self.target
  licenseParser :=
    (other.licenseParser.map (fun o => (self.licenseParser.getD {}).merge o)).or
      self.licenseParser
  describe := other.describe.or self.describe
  specVersion := other.specVersion.or self.specVersion
  onlyNormalDeps := other.onlyNormalDeps.or self.onlyNormalDeps

/-- `SbomConfig::from_env` (`config.rs` 66-80); the argument is the value of
`CARGO_BUILD_TARGET` if set. -/
def SbomConfig.fromEnv (cargoBuildTarget : Option String) : SbomConfig :=
  { target := cargoBuildTarget.map .singleTarget }

/-- `SbomConfig::format` (`config.rs` 82-84) with `Format::default` (`format.rs` 30-34). -/
def SbomConfig.getFormat (c : SbomConfig) : Format := c.format.getD .xml

/-- `SbomConfig::included_dependencies` (`config.rs` 86-88). -/
def SbomConfig.getIncludedDependencies (c : SbomConfig) : IncludedDependencies :=
  c.includedDependencies.getD .allDependencies

/-- `SbomConfig::output_options` (`config.rs` 90-92). -/
def SbomConfig.getOutputOptions (c : SbomConfig) : OutputOptions := c.outputOptions.getD {}

/-- `SbomConfig::license_parser` (`config.rs` 94-96). -/
def SbomConfig.getLicenseParser (c : SbomConfig) : LicenseParserOptions := c.licenseParser.getD {}

end Cdx
