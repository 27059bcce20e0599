import Verif.Model.Config
import Verif.Model.Strings

/-!
# Command line and configuration resolution

`cargo-cyclonedx/src/cli.rs` 32-198, `config.rs` 106-116, 170-199, `main.rs` 121-191.
-/

namespace Cdx

/-- `Args` (`cli.rs` 32-111). -/
structure Args where
  format : Option Format := none
  describe : Option Describe := none
  verbose : Nat := 0
  quiet : Nat := 0
  allFeatures : Bool := false
  noDefaultFeatures : Bool := false
  features : List String := []
  target : Option String := none
  targetInFilename : Bool := false
  all : Bool := false
  topLevel : Bool := false
  filenameOverride : Option String := none
  licenseStrict : Bool := false
  licenseAcceptNamed : List String := []
  specVersion : Option SpecVersion := none
  noBuildDeps : Bool := false
  manifestPath : Option String := none
  deriving DecidableEq, Repr

/-- The combinations of options that `clap` accepts (`conflicts_with` at `cli.rs` 85 and 92). -/
def Args.accepted (a : Args) : Bool :=
  !(a.topLevel && a.all) && !(a.filenameOverride.isSome && a.describe.isSome)

/-- `std::path::MAIN_SEPARATOR` on Unix (`config.rs` 191). -/
def mainSeparator : Char := '/'

/-- `FilenameOverride::new` (`config.rs` 187-199). -/
def FilenameOverride.new (s : String) : Except String String :=
  if s.toList.contains mainSeparator then
    .error "Illegal characters in custom prefix string: /"
  else .ok s

/-- `IncludedDependencies::from_str` (`config.rs` 106-116). -/
def IncludedDependencies.parse : String → Except String IncludedDependencies
  | "all" => .ok .allDependencies
  | "top-level" => .ok .topLevelDependencies
  | s => .error ("Expected all or top-level, got `" ++ s ++ "`")

/-- The nested splitting loops over the `--features` arguments (`cli.rs` 125-137). -/
def splitFeatures (args : List String) : List String :=
  args.flatMap fun a =>
    (splitStr ',' a).flatMap fun s => (splitStr ' ' s).filter fun f => !f.toList.isEmpty

/-- The file name pattern (`cli.rs` 161-167). -/
def Args.filenamePattern (a : Args) : Except String FilenamePattern :=
  match a.filenameOverride with
  | some s => (FilenameOverride.new s).map FilenamePattern.custom
  | none => .ok .crateName

/-- The configuration assembled by `Args::as_config` once the file name pattern is known
(`cli.rs` 115-159, 169-196). -/
def Args.configWith (a : Args) (filename : FilenamePattern) : SbomConfig where
  format := a.format
  includedDependencies := match a.all, a.topLevel with
    | true, _ => some .allDependencies
    | _, true => some .topLevelDependencies
    | _, _ => none
  outputOptions := some
    { filename := filename
      platformSuffix := if a.targetInFilename then .included else .notIncluded }
  features :=
    if !a.allFeatures && !a.noDefaultFeatures && a.features.isEmpty then none
    else some { allFeatures := a.allFeatures, noDefaultFeatures := a.noDefaultFeatures,
                features := splitFeatures a.features }
  target := a.target.map fun t => if t = "all" then .allTargets else .singleTarget t
  licenseParser := some { mode := if a.licenseStrict then .strict else .lax,
                          acceptNamed := a.licenseAcceptNamed }
  describe := a.describe
  specVersion := a.specVersion
  onlyNormalDeps := some a.noBuildDeps

/-- `Args::as_config` (`cli.rs` 113-197). -/
def Args.asConfig (a : Args) : Except String SbomConfig :=
  a.filenamePattern.map a.configWith

/-- `resolve_config` (`main.rs` 121-137); `cargoBuildTarget` is the environment variable,
`hostPlatform` the output of `host_platform()`. -/
def resolveConfig (cargoBuildTarget : Option String) (hostPlatform : String) (a : Args) :
    Except String SbomConfig := do
  let envConfig := SbomConfig.fromEnv cargoBuildTarget
  let cliConfig ← a.asConfig
  let merged := cliConfig.merge envConfig
  .ok (if merged.target.isNone then { merged with target := some (.singleTarget hostPlatform) }
       else merged)

/-- `CargoOpt` (crate `cargo_metadata`, used at `main.rs` 167-173). -/
inductive CargoOpt where
  | allFeatures
  | noDefaultFeatures
  | someFeatures (l : List String)
  deriving DecidableEq, Repr

/-- What `get_metadata` asks of `cargo metadata` (`main.rs` 157-191): feature options,
verbosity, and `other_options`. -/
structure MetadataCommand where
  features : List CargoOpt := []
  verbose : Bool := false
  otherOptions : List String := []
  deriving DecidableEq, Repr

/-- `get_metadata` up to running the command (`main.rs` 162-188). -/
def metadataCommand (a : Args) (config : SbomConfig) : MetadataCommand where
  features := match config.features with
    | none => []
    | some f =>
      (if f.allFeatures then [.allFeatures] else []) ++
      (if f.noDefaultFeatures then [.noDefaultFeatures] else []) ++
      (if f.features.isEmpty then [] else [.someFeatures f.features])
  verbose := a.quiet == 0
  otherOptions := match config.target with
    | some (.singleTarget t) => ["--filter-platform", t]
    | _ => []

end Cdx
