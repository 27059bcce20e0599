import Verif.Model.Args

/-!
# Specification: what a command line means

The options as `cargo cyclonedx --help` lists them, the ways to spell them, and what they mean.
-/

namespace Cdx.Spec

/-- The options: the setting, its name after `--`, its letter after `-` if it has one, and whether it
has a value. -/
def options : List (Opt × String × Option Char × Bool) :=
  [(.manifestPath, "manifest-path", none, true),
   (.format, "format", some 'f', true),
   (.describe, "describe", none, true),
   (.verbose, "verbose", some 'v', false),
   (.quiet, "quiet", some 'q', false),
   (.allFeatures, "all-features", none, false),
   (.noDefaultFeatures, "no-default-features", none, false),
   (.features, "features", some 'F', true),
   (.target, "target", none, true),
   (.targetInFilename, "target-in-filename", none, false),
   (.all, "all", some 'a', false),
   (.topLevel, "top-level", none, false),
   (.filenameOverride, "override-filename", none, true),
   (.licenseStrict, "license-strict", none, false),
   (.licenseAcceptNamed, "license-accept-named", none, true),
   (.specVersion, "spec-version", none, true),
   (.noBuildDeps, "no-build-deps", none, false)]

/-- An argument that can be the value of the option before it: it does not start with `-`, or is `-`
itself. -/
def IsValue (v : String) : Prop := ∀ c l, v.toList = '-' :: c :: l → False

/-- Letters of options without a value. -/
inductive Letters : List (Opt × String) → List Char → Prop where
  | nil : Letters [] []
  | cons {o n c fs cs} : (o, n, some c, false) ∈ options → Letters fs cs →
      Letters ((o, "") :: fs) (c :: cs)

/-- `Spelled gs ws`: the arguments `ws` give the options `gs`, each with its value (which is empty for
those without one), in this order. -/
inductive Spelled : List (Opt × String) → List String → Prop where
  | nil : Spelled [] []
  /-- `--name` -/
  | flag {o n s gs ws} : (o, n, s, false) ∈ options → Spelled gs ws →
      Spelled ((o, "") :: gs) (("--" ++ n) :: ws)
  /-- `--name=value` -/
  | equals {o n s v gs ws} : (o, n, s, true) ∈ options → Spelled gs ws →
      Spelled ((o, v) :: gs) (("--" ++ n ++ "=" ++ v) :: ws)
  /-- `--name value` -/
  | next {o n s v gs ws} : (o, n, s, true) ∈ options → IsValue v → Spelled gs ws →
      Spelled ((o, v) :: gs) (("--" ++ n) :: v :: ws)
  /-- `-abc` -/
  | letters {fs cs gs ws} : Letters fs cs → cs ≠ [] → Spelled gs ws →
      Spelled (fs ++ gs) (String.ofList ('-' :: cs) :: ws)
  /-- `-abcx=value` -/
  | lettersEquals {fs cs o n c v gs ws} : Letters fs cs → (o, n, some c, true) ∈ options →
      Spelled gs ws →
      Spelled (fs ++ (o, v) :: gs) (String.ofList ('-' :: (cs ++ c :: '=' :: v.toList)) :: ws)
  /-- `-abcxvalue` -/
  | lettersJoined {fs cs o n c v gs ws} : Letters fs cs → (o, n, some c, true) ∈ options → v ≠ "" →
      v.toList.head? ≠ some '=' → Spelled gs ws →
      Spelled (fs ++ (o, v) :: gs) (String.ofList ('-' :: (cs ++ c :: v.toList)) :: ws)
  /-- `-abcx value` -/
  | lettersNext {fs cs o n c v gs ws} : Letters fs cs → (o, n, some c, true) ∈ options → IsValue v →
      Spelled gs ws →
      Spelled (fs ++ (o, v) :: gs) (String.ofList ('-' :: (cs ++ [c])) :: v :: ws)

/-- The texts for formats. -/
def formatText : Format → String
  | .json => "json"
  | .xml => "xml"

/-- The texts for what an SBOM describes. -/
def describeText : Describe → String
  | .crate => "crate"
  | .binaries => "binaries"
  | .allCargoTargets => "all-cargo-targets"

/-- The texts for versions of the specification. -/
def versionText : SpecVersion → String
  | .v1_3 => "1.3"
  | .v1_4 => "1.4"
  | .v1_5 => "1.5"

/-- The options that may be given more than once. -/
def repeatable : List Opt := [.verbose, .quiet, .features, .licenseAcceptNamed]

/-- The option is among those given. -/
def Switched (gs : List (Opt × String)) (o : Opt) : Prop := ∃ v, (o, v) ∈ gs

/-- The values given for an option that may be repeated. -/
def listed (gs : List (Opt × String)) (o : Opt) : List String := (gs.filter (·.1 = o)).map (·.2)

/-- `Means gs a`: the options `gs` ask for the settings `a`. -/
structure Means (gs : List (Opt × String)) (a : Args) : Prop where
  once : ∀ o, o ∉ repeatable → (gs.filter (·.1 = o)).length ≤ 1
  manifestPath : ∀ v, (.manifestPath, v) ∈ gs ↔ a.manifestPath = some v
  manifestPathGiven : a.manifestPath ≠ some ""
  format : ∀ v, (.format, v) ∈ gs ↔ a.format.map formatText = some v
  describe : ∀ v, (.describe, v) ∈ gs ↔ a.describe.map describeText = some v
  target : ∀ v, (.target, v) ∈ gs ↔ a.target = some v
  filenameOverride : ∀ v, (.filenameOverride, v) ∈ gs ↔ a.filenameOverride = some v
  specVersion : ∀ v, (.specVersion, v) ∈ gs ↔ a.specVersion.map versionText = some v
  allFeatures : Switched gs .allFeatures ↔ a.allFeatures = true
  noDefaultFeatures : Switched gs .noDefaultFeatures ↔ a.noDefaultFeatures = true
  targetInFilename : Switched gs .targetInFilename ↔ a.targetInFilename = true
  all : Switched gs .all ↔ a.all = true
  topLevel : Switched gs .topLevel ↔ a.topLevel = true
  licenseStrict : Switched gs .licenseStrict ↔ a.licenseStrict = true
  noBuildDeps : Switched gs .noBuildDeps ↔ a.noBuildDeps = true
  verbose : a.verbose = min 255 (listed gs .verbose).length
  quiet : a.quiet = min 255 (listed gs .quiet).length
  features : a.features = listed gs .features
  licenseAcceptNamed : a.licenseAcceptNamed = listed gs .licenseAcceptNamed

/-- Settings that cannot be asked for together: all dependencies and only the top-level ones, and a
file name and several files. -/
def Conflict (a : Args) : Prop :=
  (a.all = true ∧ a.topLevel = true) ∨ (a.filenameOverride ≠ none ∧ a.describe ≠ none)

/-- A command line for given settings. -/
def spelling (a : Args) : List String :=
  let value (n : String) (o : Option String) : List String := o.toList.map fun v => "--" ++ n ++ "=" ++ v
  let flag (n : String) (b : Bool) : List String := if b then ["--" ++ n] else []
  value "manifest-path" a.manifestPath ++ value "format" (a.format.map formatText) ++
  value "describe" (a.describe.map describeText) ++ List.replicate a.verbose "--verbose" ++
  List.replicate a.quiet "--quiet" ++ flag "all-features" a.allFeatures ++
  flag "no-default-features" a.noDefaultFeatures ++ a.features.map ("--features=" ++ ·) ++
  value "target" a.target ++ flag "target-in-filename" a.targetInFilename ++ flag "all" a.all ++
  flag "top-level" a.topLevel ++ value "override-filename" a.filenameOverride ++
  flag "license-strict" a.licenseStrict ++ a.licenseAcceptNamed.map ("--license-accept-named=" ++ ·) ++
  value "spec-version" (a.specVersion.map versionText) ++ flag "no-build-deps" a.noBuildDeps

end Cdx.Spec
