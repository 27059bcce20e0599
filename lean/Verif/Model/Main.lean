import Verif.Model.Cli
import Verif.Model.WriteFile

/-!
# A whole run of `cargo cyclonedx`

`cargo-cyclonedx/src/main.rs`, `platform.rs` and the file operations of `generator.rs` 837-894. A run
is a program of file operations, so that it can be stopped between and during any two of them.
-/

set_option linter.unusedVariables false

namespace Cdx

/-- What a run asks of its surroundings. -/
structure World where
  /-- The environment variable `CARGO_BUILD_TARGET` (`config.rs` 69). -/
  buildTarget : Option String
  /-- The lines that `rustc -vV` prints (`platform.rs` 21-26), `none` for one that is not UTF-8;
  `none` if `rustc` cannot be run. -/
  rustc : Option (List (Option String))
  /-- `std::path::absolute` (`main.rs` 141). -/
  absolute : String → Option FPath
  /-- `std::env::current_dir` (`main.rs` 148). -/
  currentDir : Option FPath
  /-- `MetadataCommand::exec` for a manifest (`main.rs` 162-190). -/
  cargo : FPath → MetadataCommand → Except String CargoMetadata
  /-- What generation asks of its surroundings. -/
  env : Env
  /-- What validation asks of the libraries. -/
  venv : VEnv

/-- The search for the line with the platform (`platform.rs` 26-30). -/
def findHost : List (Option String) → Res String
  | [] => .error (.panic "Failed to parse rustc output to determine the current platform.")
  | none :: _ => .error (.panic "called `Result::unwrap()` on an `Err` value")
  | some l :: ls =>
    if "host: ".toList.isPrefixOf l.toList then .ok (String.ofList (l.toList.drop 6)) else findHost ls

/-- `host_platform` (`platform.rs` 7-31). -/
def World.hostPlatform (W : World) : Res String :=
  match W.rustc with
  | none => .error (.panic "Failed to invoke rustc! Is it in your $PATH?")
  | some ls => findHost ls

/-- `resolve_config` (`main.rs` 121-137): the host platform is only asked for if there is no other
target. -/
def World.resolveConfig (W : World) (a : Args) : Res SbomConfig :=
  match a.asConfig with
  | .error e => .error (.err e)
  | .ok cli =>
    let merged := cli.merge (SbomConfig.fromEnv W.buildTarget)
    if merged.target.isNone then do
      let host ← W.hostPlatform
      .ok { merged with target := some (.singleTarget host) }
    else .ok merged

/-- `locate_manifest` (`main.rs` 139-155). -/
def World.locateManifest (W : World) (a : Args) : Res FPath :=
  match a.manifestPath with
  | some m => match W.absolute m with
    | some p => .ok p
    | none => .error (.err "absolute")
  | none => match W.currentDir with
    | some d => .ok (d ++ ["Cargo.toml"])
    | none => .error (.err "current_dir")

/-- `get_metadata` (`main.rs` 157-191). -/
def World.getMetadata (W : World) (a : Args) (manifest : FPath) (config : SbomConfig) :
    Res CargoMetadata :=
  match W.cargo manifest (metadataCommand a config) with
  | .ok md => .ok md
  | .error e => .error (.err e)

/-- `generate_sboms` (`main.rs` 69-83). -/
def World.generateSboms (W : World) (a : Args) : Res (List GeneratedSbom) := do
  let config ← W.resolveConfig a
  let manifest ← W.locateManifest a
  let md ← W.getMetadata a manifest config
  createSboms W.env md config

/-- A program of file operations: the end of the run with its result, `File::create`, and writing
the whole content of the file just created including the final `flush`. -/
inductive Program where
  | exit (r : Res Unit)
  | create (path : FPath) (next : Program)
  | fill (path : FPath) (content : FileContent) (next : Program)

/-- Goes on with a value, or ends the run with its fault (`?`, and unwinding for panics). -/
def Program.after {α : Type} (r : Res α) (next : α → Program) : Program :=
  match r with
  | .ok x => next x
  | .error e => .exit (.error e)

section
variable [F32Format]

/-- `write_to_file` (`generator.rs` 861-894): the validation comes before the file is created, the
conversion of the BOM after that. -/
def writeToFileProgram (W : World) (w : FileWrite) (next : Program) : Program :=
  .after (debugCheck W.venv W.env.debug w.bom) fun _ =>
    .create w.path (.after (serialise w) fun c => .fill w.path c next)

/-- The loop of `write_to_files` (`generator.rs` 846-856) over the iterator of `per_artifact_sboms`
(`generator.rs` 896-947), which is lazy: a file is written before the next artifact is looked at. -/
def artifactsProgram (W : World) (s : GeneratedSbom) (md : Metadata) (top : Component)
    (describe : Describe) (next : Program) : List Component → Program
  | [] => next
  | c :: cs => .after (kindsOf s.targetKinds c) fun k =>
    .after (artifactSelected describe k) fun selected =>
      if selected then
        .after (filename W.env.debug s (some c.name) k) fun name =>
          writeToFileProgram W (fileWrite (artifactBom s.bom md top c)
            (s.manifestPath.withFileName name) s.sbomConfig)
            (artifactsProgram W s md top describe next cs)
      else artifactsProgram W s md top describe next cs

/-- `write_to_files` (`generator.rs` 838-859). -/
def writeToFilesProgram (W : World) (s : GeneratedSbom) (next : Program) : Program :=
  match s.sbomConfig.describe.getD .crate with
  | .crate => .after (filename W.env.debug s none []) fun name =>
    writeToFileProgram W (fileWrite s.bom (s.manifestPath.withFileName name) s.sbomConfig) next
  | d => match s.bom.metadata with
    | none => .exit (.error (.panic "called `Option::unwrap()` on a `None` value"))
    | some md => match md.component with
      | none => .exit (.error (.panic "called `Option::unwrap()` on a `None` value"))
      | some top => match top.components with
        | none => .exit (.error (.panic "called `Option::unwrap()` on a `None` value"))
        | some cs => artifactsProgram W s md top d next cs

/-- The loop of `main` (`main.rs` 92-94). -/
def writeAllProgram (W : World) : List GeneratedSbom → Program
  | [] => .exit (.ok ())
  | s :: ss => writeToFilesProgram W s (writeAllProgram W ss)

/-- `main` (`main.rs` 85-98), without logging: `clap` ends the run for conflicting options, all SBOMs
are generated, then all are written. -/
def mainProgram (W : World) (a : Args) : Program :=
  if a.accepted then .after (W.generateSboms a) (writeAllProgram W)
  else .exit (.error (.err "usage"))

end

end Cdx
