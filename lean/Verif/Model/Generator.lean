import Verif.Model.DepGraph
import Verif.Model.Purl
import Verif.Model.DecEq

/-!
# SBOM generation

`cargo-cyclonedx/src/generator.rs` 104-614, 821-835, 897-1053. Logging is not modelled.
-/

namespace Cdx

/-- `TargetKinds` (`generator.rs` 110-117). -/
abbrev TargetKinds := OMap String (List String)

/-- `HashMap<PackageId, Checksum>` (`generator.rs` 107). -/
abbrev CrateHashes := OMap PackageId (Vector UInt8 32)

/-- `SbomGenerator` (`generator.rs` 104-108). -/
structure SbomGenerator where
  config : SbomConfig
  workspaceRoot : FPath
  crateHashes : CrateHashes

/-- `GeneratedSbom` (`generator.rs` 821-835). -/
structure GeneratedSbom where
  bom : Bom
  manifestPath : FPath
  packageName : String
  sbomConfig : SbomConfig
  targetKinds : TargetKinds
  deriving DecidableEq, Repr

/-- `ExternalReference::new` (`models/external_reference.rs` 48-55). -/
def ExternalReference.new (t : ExternalReferenceType) (u : String) : ExternalReference :=
  { externalReferenceType := t, url := .ofUrl u }

/-- `Component::new` (`models/component.rs` 82-116). -/
def Component.new (t : Classification) (name version : String) (bomRef : Option String) :
    Component :=
  { componentType := t, name := normalizedString name,
    version := some (normalizedString version), bomRef := bomRef }

/-- `License::named_license` (`models/license.rs` 101-110). -/
def License.named (s : String) : License := { licenseIdentifier := .name (normalizedString s) }

/-- `OrganizationalContact::new` (`models/organization.rs` 47-54). -/
def OrganizationalContact.new (name : String) (email : Option String) : OrganizationalContact :=
  { name := some (normalizedString name), email := email.map normalizedString }

/-- `Property::new` (`models/property.rs` 60-65). -/
def Property.new (name value : String) : Property :=
  { name := name, value := normalizedString value }

/-- `Tool::new` (`models/tool.rs` 91-99). -/
def Tool.new (vendor name version : String) : Tool :=
  { vendor := some (normalizedString vendor), name := some (normalizedString name),
    version := some (normalizedString version) }

/-- `SpdxExpression::try_from` (`external_models/spdx.rs` 165-186). -/
def SpdxExpression.tryFrom (env : Env) (s : String) : Option SpdxExpression :=
  if env.spdxStrict s then some { expression := s } else none

/-- `expression.replace('/', " OR ")` (`external_models/spdx.rs` 153). -/
def replaceSlash (l : List Char) : List Char :=
  l.flatMap fun c => if c = '/' then " OR ".toList else [c]

/-- `SpdxExpression::parse_lax` with `convert_lax` (`external_models/spdx.rs` 142-162). -/
def SpdxExpression.parseLax (env : Env) (s : String) : Option SpdxExpression :=
  if env.spdxLax s then SpdxExpression.tryFrom env (String.ofList (replaceSlash s.toList))
  else none

/-- The four optional URL fields of a package with the reference type used for each, in the
order of the code (`generator.rs` 358, 373, 387, 401). -/
def referenceFields (p : Package) : List (ExternalReferenceType × Option String) :=
  [(.documentation, p.documentation), (.website, p.homepage), (.other, p.links),
   (.vcs, p.repository)]

/-- One of the four blocks of `get_external_references` (`generator.rs` 358-371, 373-385,
387-399, 401-411). -/
def pushReference (env : Env) (refs : List ExternalReference)
    (f : ExternalReferenceType × Option String) : List ExternalReference :=
  match f.2 with
  | some u => if env.uriValid u then refs ++ [ExternalReference.new f.1 u] else refs
  | none => refs

/-- `get_external_references` (`generator.rs` 355-418). -/
def getExternalReferences (env : Env) (p : Package) : Option ExternalReferences :=
  let refs := (referenceFields p).foldl (pushReference env) []
  if refs.isEmpty then none else some refs

/-- The part of `get_licenses` about the license string (`generator.rs` 423-460). -/
def licenseOfString (env : Env) (config : SbomConfig) (license : String) : LicenseChoice :=
  let mode := match config.licenseParser with
    | some o => o.mode
    | none => .lax
  let result := match mode with
    | .strict => SpdxExpression.tryFrom env license
    | .lax => SpdxExpression.parseLax env license
  match result with
  | some e => .expression e
  | none => .license (License.named license)

/-- `get_licenses` (`generator.rs` 420-496). -/
def getLicenses (env : Env) (config : SbomConfig) (p : Package) : Option Licenses :=
  let licenses := match p.license with
    | some l => [licenseOfString env config l]
    | none => []
  let licenses :=
    if licenses.isEmpty then
      match p.licenseFile with
      | some f => match env.readFile f with
        | some content =>
          licenses ++ [.license { License.named "Unknown" with
            text := some (attachedText none (utf8Bytes content)) }]
        | none => licenses
      | none => licenses
    else licenses
  if licenses.isEmpty then none else some licenses

/-- `to_bom_hash` (`generator.rs` 1040-1053). -/
def toBomHash (h : Vector UInt8 32) : Hash :=
  { alg := .sha256, content := String.ofList (hexBytes h.toList) }

/-- `pkgid` (`generator.rs` 1032-1037). -/
def pkgid (p : LockPackage) : PackageId :=
  match p.source with
  | some s => s ++ "#" ++ p.name ++ "@" ++ p.version
  | none => p.name ++ "@" ++ p.version

/-- `package_hashes` (`generator.rs` 1020-1028). -/
def packageHashes (l : List LockPackage) : CrateHashes :=
  l.foldl (fun m p => match p.checksum with
    | some h => m.insert (pkgid p) h
    | none => m) []

/-- `get_hashes` (`generator.rs` 498-514). -/
def getHashes (hashes : CrateHashes) (p : Package) : Option Hashes :=
  match hashes.lookup p.id with
  | some h => some [toBomHash h]
  | none => none

/-- The scope rule of `create_component` (`generator.rs` 241-247). -/
def componentScope (depKinds : DependencyKindMap) (id : PackageId) : Scope :=
  match (depKinds.lookup id).getD .normal with
  | .normal => .required
  | _ => .excluded

/-- `create_component` (`generator.rs` 216-263). -/
def createComponent (env : Env) (g : SbomGenerator) (package rootPackage : Package)
    (depKinds : DependencyKindMap) : Res Component := do
  let name := trim package.name
  let purl ← getPurl env package rootPackage g.workspaceRoot none
  .ok { Component.new .library name package.version (some package.id) with
    purl := purl
    scope := some (componentScope depKinds package.id)
    externalReferences := getExternalReferences env package
    licenses := getLicenses env g.config package
    hashes := getHashes g.crateHashes package
    description := package.description.map normalizedString
    author :=
      if package.authors.isEmpty then none
      else some (normalizedString (joinStr ", " package.authors)) }

/-- `get_classification` (`generator.rs` 339-353). -/
def getClassification (p : Package) : Classification :=
  if p.targets.any (·.isBin) then .application else .library

/-- `filter_targets` (`generator.rs` 606-614). -/
def filterTargets (ts : List Target) : List Target :=
  ts.filter fun t => !(t.isBench || t.isExample || t.isTest || t.isCustomBuild)

/-- The classification of a target, `none` for `continue` (`generator.rs` 275-290). -/
def targetType (t : Target) : Option Classification :=
  if t.isBin then some .application
  else if t.kind.any (· == "proc-macro") then some .library
  else if t.kind.any (fun k => containsStr k "lib") then some .library
  else none

/-- `format!("{} bin-target-{}", bom_ref, n)` (`generator.rs` 293-297). -/
def targetRef (ref : String) (n : Nat) : String := ref ++ " bin-target-" ++ toString n

/-- The subcomponent of one target (`generator.rs` 303-331). -/
def createSubcomponent (env : Env) (g : SbomGenerator) (package : Package) (t : Target)
    (cdxType : Classification) (ref : String) : Res Component :=
  let sub := Component.new cdxType t.name package.version (some ref)
  match FPath.parent package.manifestPath with
  | none => .error (.panic "manifest_path in `cargo metadata` output is not a file!")
  | some packageDir =>
    match FPath.stripPrefix t.srcPath packageDir with
    | some rel => do
      let purl ← getPurl env package package g.workspaceRoot (some rel)
      .ok { sub with purl := purl }
    | none => .ok sub

/-- The loop over the targets (`generator.rs` 272-334). -/
def targetLoop (env : Env) (g : SbomGenerator) (package : Package) (ref : String) :
    List Target → List Component → TargetKinds → Res (List Component × TargetKinds)
  | [], subs, kinds => .ok (subs, kinds)
  | t :: ts, subs, kinds =>
    match targetType t with
    | none => targetLoop env g package ref ts subs kinds
    | some cdxType => do
      let bomRef := targetRef ref subs.length
      let sub ← createSubcomponent env g package t cdxType bomRef
      targetLoop env g package ref ts (subs ++ [sub]) (kinds.insert bomRef t.kind)

/-- `create_toplevel_component` (`generator.rs` 265-337). -/
def createToplevelComponent (env : Env) (g : SbomGenerator) (package : Package) :
    Res (Component × TargetKinds) := do
  let top ← createComponent env g package package []
  let r ← targetLoop env g package package.id (filterTargets package.targets) [] []
  .ok ({ top with componentType := getClassification package, components := some r.1 }, r.2)

/-- The captures of `^(?P<author>[^<]+)\s*(<(?P<email>[^>]+)>)?$` (`generator.rs` 581-589).
`[^<]+` is greedy and can only stop at the first `<` or at the end; backtracking cannot help,
since whatever follows it and the white space must still be the end of the text or a `<`. -/
def authorCaptures (s : List Char) : Option (List Char × Option (List Char)) :=
  let name := s.takeWhile (· ≠ '<')
  if name.isEmpty then none
  else match s.dropWhile (· ≠ '<') with
    | [] => some (name, none)
    | _ :: rest =>
      let email := rest.takeWhile (· ≠ '>')
      if email.isEmpty then none
      else match rest.dropWhile (· ≠ '>') with
        | ['>'] => some (name, some email)
        | _ => none

/-- `parse_author` (`generator.rs` 580-603); `none` is the `Err` of an invalid email. -/
def parseAuthor (env : Env) (author : String) : Option OrganizationalContact :=
  match authorCaptures author.toList with
  | some (name, email) =>
    let name := String.ofList (trimChars name)
    match email with
    | some e =>
      let e := String.ofList e
      if env.emailValid e then some (OrganizationalContact.new name (some e)) else none
    | none => some (OrganizationalContact.new name none)
  | none => some (OrganizationalContact.new author none)

/-- `create_authors` (`generator.rs` 562-578). -/
def createAuthors (env : Env) (p : Package) : List OrganizationalContact :=
  p.authors.filterMap (parseAuthor env)

/-- The timestamp of the metadata (`generator.rs` 522, 530-538; `Metadata::new`,
`models/metadata.rs` 61-69). -/
def metadataTimestamp (env : Env) : Res DateTime :=
  match env.now with
  | none => .error (.err "Failed to get current time")
  | some now =>
    match env.sourceDateEpoch with
    | none => .ok now
    | some s =>
      match parseI64 s with
      | none => .error (.panic "Invalid reproducible build timestamp")
      | some t =>
        match env.formatUnix t with
        | none => .error (.panic "called `Result::unwrap()` on an `Err` value")
        | some d =>
          if env.dateTimeValid d then .ok d
          else .error (.panic "called `Result::unwrap()` on an `Err` value")

/-- The properties of the metadata (`generator.rs` 552-557). -/
def targetProperties (config : SbomConfig) : Res Properties :=
  match config.target with
  | none => .error (.panic "called `Option::unwrap()` on a `None` value")
  | some (.singleTarget t) => .ok [Property.new "cdx:rustc:sbom:target:triple" t]
  | some .allTargets => .ok [Property.new "cdx:rustc:sbom:target:all_targets" "true"]

/-- `create_metadata` (`generator.rs` 516-560). -/
def createMetadata (env : Env) (g : SbomGenerator) (package : Package) :
    Res (Metadata × TargetKinds) := do
  let authors := createAuthors env package
  let timestamp ← metadataTimestamp env
  let r ← createToplevelComponent env g package
  let tool := Tool.new "CycloneDX" "cargo-cyclonedx" env.toolVersion
  let properties ← targetProperties g.config
  .ok ({ timestamp := some timestamp
         authors := if authors.isEmpty then none else some authors
         component := some r.1
         tools := some (.list [tool])
         properties := some properties }, r.2)

/-- `Bom::default` (`models/bom.rs` 337-357) for the given UUID bytes. -/
def Bom.default (uuid : Vector UInt8 16) : Bom :=
  { version := 1, serialNumber := some (urnUuidGenerate uuid), specVersion := .v1_3 }

/-- `create_bom` (`generator.rs` 181-214); `i` numbers the UUID drawn. -/
def createBom (env : Env) (i : Nat) (g : SbomGenerator) (package : PackageId)
    (packages : PackageMap) (resolve : ResolveMap) (depKinds : DependencyKindMap) :
    Res (Bom × TargetKinds) := do
  let bom := Bom.default (env.uuid i)
  let bom := if env.sourceDateEpoch.isSome then { bom with serialNumber := none } else bom
  let rootPackage ← packages.index package
  let components ← (packages.values.filter (fun p => p.id != package)).mapM
    (fun c => createComponent env g c rootPackage depKinds)
  let bom := { bom with components := some components }
  let r ← createMetadata env g rootPackage
  let bom := { bom with metadata := some r.1 }
  let bom := { bom with dependencies := some ((createDependencies resolve).map
    fun d => { dependencyRef := d.1, dependencies := d.2 }) }
  .ok (bom, r.2)

/-- The ancestors of a path given by its reversed list of components, nearest first
(`Path::ancestors`, `generator.rs` 1004). -/
def ancestorsRev : List String → List FPath
  | [] => [[]]
  | c :: r => (c :: r).reverse :: ancestorsRev r

/-- `Path::ancestors` (`generator.rs` 1004): the path itself, then its parents up to the root. -/
def FPath.ancestors (p : FPath) : List FPath := ancestorsRev p.reverse

/-- `locate_cargo_lock` (`generator.rs` 1002-1016). `std::path::absolute` is the identity on
absolute paths; `none` is the `NotFound` error. -/
def locateCargoLock (env : Env) (manifestPath : FPath) : Option FPath :=
  ((FPath.ancestors manifestPath).map (fun p => p ++ ["Cargo.lock"])).find? env.isFile

/-- The hashes used for one workspace member (`generator.rs` 144-157). -/
def memberHashes (env : Env) (manifestPath : FPath) : CrateHashes :=
  match locateCargoLock env manifestPath with
  | some path => match env.loadLock path with
    | some lock => packageHashes lock
    | none => []
  | none => []

/-- The loop body of `create_sboms` (`generator.rs` 130-176); `i` is the number of the member. -/
def createSbom (env : Env) (config : SbomConfig) (workspaceRoot : FPath) (packages : PackageMap)
    (resolve : ResolveMap) (i : Nat) (member : PackageId) : Res GeneratedSbom := do
  let depKinds ← indexDepKinds member resolve
  let pr ← (if config.getIncludedDependencies = .allDependencies
    then allDependencies member packages resolve config
    else topLevelDependencies member packages resolve config)
  let pkg ← packages.index member
  let hashes := memberHashes env pkg.manifestPath
  let g : SbomGenerator := ⟨config, workspaceRoot, hashes⟩
  let r ← createBom env i g member pr.1 pr.2 depKinds
  .ok { bom := r.1, manifestPath := pkg.manifestPath, packageName := pkg.name,
        sbomConfig := config, targetKinds := r.2 }

/-- The loop of `create_sboms` (`generator.rs` 129-176). -/
def createSbomsLoop (env : Env) (config : SbomConfig) (workspaceRoot : FPath)
    (packages : PackageMap) (resolve : ResolveMap) : Nat → List PackageId → Res (List GeneratedSbom)
  | _, [] => .ok []
  | i, m :: ms => do
    let s ← createSbom env config workspaceRoot packages resolve i m
    let rest ← createSbomsLoop env config workspaceRoot packages resolve (i + 1) ms
    .ok (s :: rest)

/-- `create_sboms` (`generator.rs` 120-179). -/
def createSboms (env : Env) (md : CargoMetadata) (config : SbomConfig) :
    Res (List GeneratedSbom) :=
  let packages := indexPackages md.packages
  match md.resolve with
  | none => .error (.panic "called `Option::unwrap()` on a `None` value")
  | some nodes =>
    createSbomsLoop env config md.workspaceRoot packages (indexResolve nodes) 0 md.workspaceMembers

/-! ## Per-artifact SBOMs and file names -/

/-- `&target_kinds.0[component.bom_ref.as_ref().unwrap()]` (`generator.rs` 910, 924). -/
def kindsOf (kinds : TargetKinds) (c : Component) : Res (List String) :=
  match c.bomRef with
  | none => .error (.panic "called `Option::unwrap()` on a `None` value")
  | some r => kinds.index r

/-- The filter closure (`generator.rs` 909-922). -/
def artifactSelected (describe : Describe) (kinds : List String) : Res Bool :=
  match describe with
  | .binaries => .ok (kinds.contains "bin" || kinds.contains "cdylib")
  | .allCargoTargets => .ok true
  | .crate => .error (.panic "internal error: entered unreachable code")

/-- The map closure (`generator.rs` 923-946) for a describe mode other than `Crate`. -/
def artifactBom (bom : Bom) (md : Metadata) (top c : Component) : Bom :=
  { bom with metadata := some { md with component := some { top with
      name := c.name, componentType := c.componentType, purl := c.purl, components := none } } }

/-- The iteration over the subcomponents (`generator.rs` 906-947). -/
def artifactLoop (bom : Bom) (md : Metadata) (top : Component) (kinds : TargetKinds)
    (describe : Describe) : List Component → Res (List (Bom × List String))
  | [] => .ok []
  | c :: cs => do
    let k ← kindsOf kinds c
    let sel ← artifactSelected describe k
    let rest ← artifactLoop bom md top kinds describe cs
    .ok (if sel then (artifactBom bom md top c, k) :: rest else rest)

/-- `per_artifact_sboms` (`generator.rs` 896-947). The Rust function returns a lazy iterator;
the model returns all its items. -/
def perArtifactSboms (bom : Bom) (kinds : TargetKinds) (describe : Describe) :
    Res (List (Bom × List String)) :=
  match bom.metadata with
  | none => .error (.panic "called `Option::unwrap()` on a `None` value")
  | some md => match md.component with
    | none => .error (.panic "called `Option::unwrap()` on a `None` value")
    | some top => match top.components with
      | none => .error (.panic "called `Option::unwrap()` on a `None` value")
      | some cs => artifactLoop bom md top kinds describe cs

/-- `filename` (`generator.rs` 949-996). The `debug_assert!` at 970 is checked in `debug`
builds only. -/
def filename (debug : Bool) (s : GeneratedSbom) (binaryName : Option String)
    (targetKind : List String) : Res String := do
  let o := s.sbomConfig.getOutputOptions
  let describe := s.sbomConfig.describe.getD .crate
  let pre ← match describe, binaryName with
    | .crate, _ => .ok s.packageName
    | _, some n => .ok n
    | _, none => .error (.panic "called `Option::unwrap()` on a `None` value")
  let pe := match o.filename with
    | .crateName => (pre, ".cdx")
    | .custom n => (n, "")
  let targetKindSuffix ←
    if targetKind.isEmpty then .ok ""
    else if debug && describe == .crate then
      .error (.panic "assertion failed: matches!(describe, ...)")
    else .ok ("_" ++ joinStr "-" targetKind)
  let pse ← match o.platformSuffix with
    | .notIncluded => .ok ("", pe.2)
    | .included => match s.sbomConfig.target with
      | none => .error (.panic "called `Option::unwrap()` on a `None` value")
      | some t => .ok ("_" ++ t.asStr, ".cdx")
  .ok (pe.1 ++ targetKindSuffix ++ pse.1 ++ pse.2 ++ "." ++ s.sbomConfig.getFormat.display)

/-- `Path::with_file_name` (`generator.rs` 842, 851-853) for a path with a file name. -/
def FPath.withFileName (p : FPath) (n : String) : FPath := p.dropLast ++ [n]

/-- What is written where: the path, and the arguments of `write_to_file`
(`generator.rs` 861-894) without the serialisation itself. -/
structure FileWrite where
  path : FPath
  bom : Bom
  format : Format
  specVersion : SpecVersion
  deriving DecidableEq, Repr

/-- The output of `write_to_file` (`generator.rs` 861-894): serialisation in format
`config.format()` and version `config.spec_version` (default 1.3). The debug-only validation
is not included here. -/
def fileWrite (bom : Bom) (path : FPath) (config : SbomConfig) : FileWrite :=
  { path := path, bom := bom, format := config.getFormat,
    specVersion := config.specVersion.getD .v1_3 }

/-- The loop of `write_to_files` over the per-artifact SBOMs (`generator.rs` 846-855). -/
def artifactWrites (debug : Bool) (s : GeneratedSbom) :
    List (Bom × List String) → Res (List FileWrite)
  | [] => .ok []
  | (b, k) :: rest => do
    let md ← match b.metadata with
      | some md => .ok md
      | none => .error (.panic "called `Option::unwrap()` on a `None` value")
    let c ← match md.component with
      | some c => .ok c
      | none => .error (.panic "called `Option::unwrap()` on a `None` value")
    let name ← filename debug s (some c.name) k
    let more ← artifactWrites debug s rest
    .ok (fileWrite b (s.manifestPath.withFileName name) s.sbomConfig :: more)

/-- `write_to_files` (`generator.rs` 838-859): the list of files written, in order. -/
def writeToFiles (debug : Bool) (s : GeneratedSbom) : Res (List FileWrite) :=
  match s.sbomConfig.describe.getD .crate with
  | .crate => do
    let n ← filename debug s none []
    .ok [fileWrite s.bom (s.manifestPath.withFileName n) s.sbomConfig]
  | d => do
    let arts ← perArtifactSboms s.bom s.targetKinds d
    artifactWrites debug s arts

end Cdx
