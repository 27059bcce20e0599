import Verif.Model.Main

/-!
# The command line

`cargo-cyclonedx/src/cli.rs` 16-111, `main.rs` 85-119. What is modelled of `clap` is what its derive
makes of the attributes in `cli.rs`: which options there are, how they are spelled, which of them take
a value, and how often they may be given. Arguments are texts. Simplifications: a request for help or for
the version ends the run like an error does, messages and exit codes are left out, and so is the
argument `--`, after which only positional arguments could follow, of which there are none.
-/

namespace Cdx

/-- The fields of `Args` (`cli.rs` 32-111). -/
inductive Opt where
  | manifestPath | format | describe | verbose | quiet | allFeatures | noDefaultFeatures | features
  | target | targetInFilename | all | topLevel | filenameOverride | licenseStrict | licenseAcceptNamed
  | specVersion | noBuildDeps
  deriving DecidableEq, Repr

/-- All fields, in their order (`cli.rs` 32-111). -/
def Opt.list : List Opt :=
  [.manifestPath, .format, .describe, .verbose, .quiet, .allFeatures, .noDefaultFeatures, .features,
   .target, .targetInFilename, .all, .topLevel, .filenameOverride, .licenseStrict, .licenseAcceptNamed,
   .specVersion, .noBuildDeps]

/-- The attribute `long` (`cli.rs` 34, 38, 42, 46, 50, 56, 60, 64, 69, 77, 81, 85, 90, 97, 101, 105,
109). -/
def Opt.long : Opt → String
  | .manifestPath => "manifest-path"
  | .format => "format"
  | .describe => "describe"
  | .verbose => "verbose"
  | .quiet => "quiet"
  | .allFeatures => "all-features"
  | .noDefaultFeatures => "no-default-features"
  | .features => "features"
  | .target => "target"
  | .targetInFilename => "target-in-filename"
  | .all => "all"
  | .topLevel => "top-level"
  | .filenameOverride => "override-filename"
  | .licenseStrict => "license-strict"
  | .licenseAcceptNamed => "license-accept-named"
  | .specVersion => "spec-version"
  | .noBuildDeps => "no-build-deps"

/-- The attribute `short` (`cli.rs` 38, 46, 50, 64, 81). -/
def Opt.short : Opt → Option Char
  | .format => some 'f'
  | .verbose => some 'v'
  | .quiet => some 'q'
  | .features => some 'F'
  | .all => some 'a'
  | _ => none

/-- Whether an option has a value, which the derive takes from the type of the field: `bool` and
`u8` with `ArgAction::Count` have none, `Option` and `Vec` have one (`cli.rs` 35-110). -/
def Opt.takesValue : Opt → Bool
  | .manifestPath => true
  | .format => true
  | .describe => true
  | .features => true
  | .target => true
  | .filenameOverride => true
  | .licenseAcceptNamed => true
  | .specVersion => true
  | _ => false

/-- The option with a long name, looked up by `clap` (`cli.rs` 32-111). -/
def Opt.byLong (s : String) : Option Opt := Opt.list.find? fun o => o.long == s

/-- The option with a short name, looked up by `clap` (`cli.rs` 32-111). -/
def Opt.byShort (c : Char) : Option Opt := Opt.list.find? fun o => o.short == some c

/-- An argument after `--`, in `clap` (`main.rs` 86): the options that it sets, and the option whose
value must come next. -/
def readLong (cs : List Char) : Option (List (Opt × String) × Option Opt) :=
  match Opt.byLong (String.ofList (cs.takeWhile (· ≠ '='))) with
  | none => none
  | some o => match cs.dropWhile (· ≠ '=') with
    | [] => if o.takesValue then some ([], some o) else some ([(o, "")], none)
    | _ :: v => if o.takesValue then some ([(o, String.ofList v)], none) else none

/-- An argument after `-`, in `clap` (`main.rs` 86): short options without a value, then possibly one
with a value, which may follow at once or after `=`. -/
def readShorts : List Char → Option (List (Opt × String) × Option Opt)
  | [] => some ([], none)
  | c :: cs => match Opt.byShort c with
    | none => none
    | some o =>
      if o.takesValue then
        match cs with
        | [] => some ([], some o)
        | '=' :: v => some ([(o, String.ofList v)], none)
        | v => some ([(o, String.ofList v)], none)
      else match readShorts cs with
        | none => none
        | some (gs, p) => some ((o, "") :: gs, p)

/-- An argument, in `clap` (`main.rs` 86). There are no positional arguments. -/
def readArgument (x : String) : Option (List (Opt × String) × Option Opt) :=
  match x.toList with
  | '-' :: '-' :: cs => readLong cs
  | '-' :: c :: cs => readShorts (c :: cs)
  | _ => none

/-- Whether an argument looks like an option, and therefore is no value (`main.rs` 86, in `clap`). -/
def looksLikeOption (x : String) : Bool :=
  match x.toList with
  | '-' :: _ :: _ => true
  | _ => false

/-- All arguments, in `clap` (`main.rs` 86), after an option that needs a value or not. -/
def readArguments : Option Opt → List String → Option (List (Opt × String))
  | none, [] => some []
  | some _, [] => none
  | some o, x :: l =>
    if looksLikeOption x then none else (readArguments none l).map ((o, x) :: ·)
  | none, x :: l => match readArgument x with
    | none => none
    | some (gs, p) => (readArguments p l).map (gs ++ ·)

/-- The values of an option, in their order (`main.rs` 86, in `clap`). -/
def valuesOf (gs : List (Opt × String)) (o : Opt) : List String :=
  gs.filterMap fun g => if g.1 = o then some g.2 else none

/-- A field of type `Option` (`cli.rs` 35, 39, 43, 74, 95, 106): `clap` refuses an option that is
repeated, and a value that is not read by `parse`. -/
def optionField {α : Type} (parse : String → Option α) (gs : List (Opt × String)) (o : Opt) :
    Option (Option α) :=
  match valuesOf gs o with
  | [] => some none
  | [v] => (parse v).map some
  | _ => none

/-- A field of type `bool` (`cli.rs` 57, 61, 78, 82, 86, 98, 110): `clap` refuses an option that is
repeated. -/
def flagField (gs : List (Opt × String)) (o : Opt) : Option Bool :=
  match valuesOf gs o with
  | [] => some false
  | [_] => some true
  | _ => none

/-- A field with `ArgAction::Count` (`cli.rs` 46-51), a saturating `u8`. -/
def countField (gs : List (Opt × String)) (o : Opt) : Nat := min 255 (valuesOf gs o).length

/-- The derived `ValueEnum` of `Describe` (`config.rs` 254-263). -/
def Describe.parse : String → Option Describe
  | "crate" => some .crate
  | "binaries" => some .binaries
  | "all-cargo-targets" => some .allCargoTargets
  | _ => none

/-- The parser that `clap` has for paths, which refuses empty ones (`cli.rs` 35). -/
def pathValue (s : String) : Option String := if s = "" then none else some s

/-- The derived `FromArgMatches` of `Args` (`cli.rs` 25-111). -/
def argsOf (gs : List (Opt × String)) : Option Args := do
  let manifestPath ← optionField pathValue gs .manifestPath
  let format ← optionField (fun s => (Format.parse s).toOption) gs .format
  let describe ← optionField Describe.parse gs .describe
  let allFeatures ← flagField gs .allFeatures
  let noDefaultFeatures ← flagField gs .noDefaultFeatures
  let target ← optionField some gs .target
  let targetInFilename ← flagField gs .targetInFilename
  let all ← flagField gs .all
  let topLevel ← flagField gs .topLevel
  let filenameOverride ← optionField some gs .filenameOverride
  let licenseStrict ← flagField gs .licenseStrict
  let specVersion ← optionField SpecVersion.ofString gs .specVersion
  let noBuildDeps ← flagField gs .noBuildDeps
  some
    { manifestPath, format, describe, allFeatures, noDefaultFeatures, target, targetInFilename, all,
      topLevel, filenameOverride, licenseStrict, specVersion, noBuildDeps
      verbose := countField gs .verbose
      quiet := countField gs .quiet
      features := valuesOf gs .features
      licenseAcceptNamed := valuesOf gs .licenseAcceptNamed }

/-- `Opts::parse` (`main.rs` 86, `cli.rs` 16-111): the name of the program, the subcommand, the options
and the checks for conflicts. -/
def parseCommandLine : List String → Option Args
  | _ :: "cyclonedx" :: ws =>
    (readArguments none ws).bind fun gs => (argsOf gs).bind fun a => if a.accepted then some a else none
  | _ => none

/-- `LevelFilter` of the crate `log` (`main.rs` 103-112). -/
inductive LevelFilter where
  | off | error | warn | info | debug | trace
  deriving DecidableEq, Repr

/-- `setup_logging` (`main.rs` 100-119): the level that the options ask for. The environment variable
`RUST_LOG`, which comes first, is left out. -/
def logLevel (a : Args) : LevelFilter :=
  if a.quiet ≥ 2 then .off
  else match a.verbose with
    | 0 => .warn
    | 1 => .info
    | 2 => .debug
    | _ => .trace

/-- `main` (`main.rs` 85-98) with the reading of the command line. -/
def commandProgram [F32Format] (W : World) (argv : List String) : Program :=
  match parseCommandLine argv with
  | none => .exit (.error (.err "usage"))
  | some a => mainProgram W a

end Cdx
