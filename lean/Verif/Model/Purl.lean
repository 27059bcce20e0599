import Verif.Model.Basic
import Verif.Model.CargoMetadata
import Verif.Model.Strings

/-!
# Package URLs

`cargo-cyclonedx/src/purl.rs`, and the paths it computes.
-/

namespace Cdx

/-- `cargo_lock::Package` (crate `cargo-lock`, used at `generator.rs` 1020-1037): name,
version, rendered source id, SHA-256 checksum. -/
structure LockPackage where
  name : String
  version : String
  source : Option String := none
  checksum : Option (Vector UInt8 32) := none
  deriving DecidableEq, Repr

/-- Facts about the outside world and external crates that the generator depends on. Each
field is a parameter of the model; theorems hold for every value of it unless a hypothesis
says otherwise. -/
structure Env where
  /-- `fluent_uri::UriRef::parse` accepts (`external_models/uri.rs` 68, 91). -/
  uriValid : String → Bool
  /-- `spdx::Expression::parse_mode` with strict mode plus deprecated ids accepts
  (`external_models/spdx.rs` 169-175, 195-201). -/
  spdxStrict : String → Bool
  /-- `spdx::Expression::parse_mode` with `LAX` accepts (`external_models/spdx.rs` 143). -/
  spdxLax : String → Bool
  /-- `validator::ValidateEmail` accepts (`generator.rs` 592). -/
  emailValid : String → Bool
  /-- `OffsetDateTime::parse(_, Iso8601::DEFAULT)` accepts (`external_models/date_time.rs` 64). -/
  dateTimeValid : String → Bool
  /-- `std::fs::read_to_string` (`generator.rs` 468). -/
  readFile : FPath → Option String
  /-- `Path::is_file` (`generator.rs` 1008). -/
  isFile : FPath → Bool
  /-- `Lockfile::load` (`generator.rs` 146). -/
  loadLock : FPath → Option (List LockPackage)
  /-- The environment variable `SOURCE_DATE_EPOCH` (`generator.rs` 193, 530). -/
  sourceDateEpoch : Option String
  /-- `DateTime::now` (`external_models/date_time.rs` 52-57). -/
  now : Option String
  /-- `OffsetDateTime::from_unix_timestamp(t).unwrap().format(Iso8601::DEFAULT).unwrap()`
  (`generator.rs` 533-536); `none` where one of the `unwrap`s panics. -/
  formatUnix : Int → Option String
  /-- The 16 bytes of the UUID drawn for the `i`-th SBOM (`models/bom.rs` 585). -/
  uuid : Nat → Vector UInt8 16
  /-- `PurlBuilder::build` followed by `to_string`, from name, version, qualifiers and
  subpath (`purl.rs` 14-15, 23, 26, 52, 56, 59-60); `none` if the builder reports an error. -/
  purlRender : String → String → List (String × String) → Option String → Option String
  /-- `GenericPurl::<String>::from_str` accepts (`external_models/uri.rs` 28). -/
  purlValid : String → Bool
  /-- `cfg!(debug_assertions)` (`purl.rs` 42, 61). -/
  debug : Bool
  /-- `env!("CARGO_PKG_VERSION")` (`generator.rs` 548). -/
  toolVersion : String

/-- `Path::parent` (`purl.rs` 37, 41; `generator.rs` 320): `none` for the root. -/
def FPath.parent (p : FPath) : Option FPath := if p.isEmpty then none else some p.dropLast

/-- `Path::starts_with` (`purl.rs` 40, 42), component-wise. -/
def FPath.startsWith (p base : FPath) : Bool := base.isPrefixOf p

/-- `Path::strip_prefix` (`generator.rs` 322), component-wise. -/
def FPath.stripPrefix : FPath → FPath → Option FPath
  | p, [] => some p
  | [], _ :: _ => none
  | c :: p, b :: base => if c = b then FPath.stripPrefix p base else none

/-- `pathdiff::diff_utf8_paths` for two absolute paths (`purl.rs` 43): the relative path from
`base` to `p`. -/
def FPath.diff : FPath → FPath → List String
  | c :: p, b :: base =>
    if c = b then FPath.diff p base else (b :: base).map (fun _ => "..") ++ c :: p
  | p, base => base.map (fun _ => "..") ++ p

/-- The text of an absolute path (`package_dir.as_str()`, `purl.rs` 50). -/
def FPath.absStr (p : FPath) : String := "/" ++ joinStr "/" p

/-- `Source::is_crates_io` of the `cargo_metadata` crate (used at `purl.rs` 18). -/
def isCratesIo (source : String) : Bool :=
  source == "registry+https://github.com/rust-lang/crates.io-index"

/-- The first `branch=`, `tag=` or `rev=` value (`purl.rs` 99-106). -/
def refParam : List (List Char) → Option (List Char)
  | [] => none
  | p :: ps =>
    match (stripPrefixChars "branch=".toList p).or
        ((stripPrefixChars "tag=".toList p).or (stripPrefixChars "rev=".toList p)) with
    | some v => some v
    | none => refParam ps

/-- `source_to_vcs_url` (`purl.rs` 79-113) on characters. -/
def sourceToVcsUrlChars (url : List Char) : List Char :=
  match splitOnceChars '?' url, splitOnceChars '#' url with
  | some (base, _), some (_, commit) => base ++ '@' :: commit
  | none, some _ => url.map fun c => if c = '#' then '@' else c
  | some (base, query), none =>
    base ++ '@' :: (refParam (splitChars '&' query)).getD query
  | none, none => url

/-- `source_to_vcs_url` (`purl.rs` 79-113). -/
def sourceToVcsUrl (source : String) : Res String :=
  if startsWith source "git+" then .ok (String.ofList (sourceToVcsUrlChars source.toList))
  else .error (.panic "assertion failed: source.repr.starts_with(\"git+\")")

/-- `to_purl_subpath` (`purl.rs` 116-120). The argument is the list of components of a
relative path, so the `assert!` cannot fail. -/
def toPurlSubpath (path : List String) : String := joinStr "/" path

/-- The directory named in the `download_url` qualifier of a local package
(`purl.rs` 37-48). -/
def localPackageDir (env : Env) (package rootPackage : Package) (workspaceRoot : FPath) :
    Res String :=
  match FPath.parent package.manifestPath with
  | none => .error (.panic "called `Option::unwrap()` on a `None` value")
  | some packageDir =>
    if FPath.startsWith packageDir workspaceRoot then
      match FPath.parent rootPackage.manifestPath with
      | none => .error (.panic "called `Option::unwrap()` on a `None` value")
      | some rootDir =>
        if env.debug && !FPath.startsWith rootDir workspaceRoot then
          .error (.panic "assertion failed: root_package_dir.starts_with(workspace_root)")
        else
          let d := joinStr "/" (FPath.diff packageDir rootDir)
          .ok (if d = "" then "." else d)
    else .ok (FPath.absStr packageDir)

/-- The qualifiers set by `get_purl` (`purl.rs` 17-53). -/
def purlQualifiers (env : Env) (package rootPackage : Package) (workspaceRoot : FPath) :
    Res (List (String × String)) :=
  match package.source with
  | some source =>
    if isCratesIo source then .ok []
    else match splitOnceChars '+' source.toList with
      | some (kind, rest) =>
        if kind = "git".toList then do
          let u ← sourceToVcsUrl source
          .ok [("vcs_url", u)]
        else if kind = "registry".toList ∨ kind = "sparse".toList then
          .ok [("repository_url", String.ofList rest)]
        else .ok []
      | none => .ok []
  | none => do
    let dir ← localPackageDir env package rootPackage workspaceRoot
    .ok [("download_url", "file://" ++ dir)]

/-- `get_purl` (`purl.rs` 8-65); `none` is an `Err`. -/
def getPurl (env : Env) (package rootPackage : Package) (workspaceRoot : FPath)
    (subpath : Option (List String)) : Res (Option Purl) := do
  let qs ← purlQualifiers env package rootPackage workspaceRoot
  match env.purlRender package.name package.version qs (subpath.map toPurlSubpath) with
  | none => .ok none
  | some p =>
    if env.debug && !env.purlValid p then
      .error (.panic "assertion failed: validate_purl(purl).is_ok()")
    else .ok (some p)

end Cdx
