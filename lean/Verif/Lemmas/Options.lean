import Verif.Lemmas.Presentation
import Verif.Lemmas.Generator
import Verif.Spec.Options

set_option linter.unusedSectionVars false

/-!
# What the options for licenses and for dependencies have no influence on
-/

namespace Cdx

open Spec OMap

/-- A configuration with other options for licenses. -/
def SbomConfig.licensed (c : SbomConfig) (l : Option LicenseParserOptions) : SbomConfig :=
  { c with licenseParser := l }

variable {c : SbomConfig} {l : Option LicenseParserOptions}

theorem drainQueue_licensed {resolve : ResolveMap} : ∀ (q next : List Node) (out : ResolveMap),
    drainQueue resolve (c.licensed l) q next out = drainQueue resolve c q next out
  | [], _, _ => rfl
  | x :: q, next, out => by
    have ih := fun n o => drainQueue_licensed (resolve := resolve) q n o
    unfold drainQueue
    simp only [ih]
    rfl

theorem bfsLoop_licensed {resolve : ResolveMap} : ∀ (n : Nat) (q : List Node) (out : ResolveMap),
    bfsLoop resolve (c.licensed l) n q out = bfsLoop resolve c n q out
  | 0, _, _ => rfl
  | n + 1, q, out => by
    unfold bfsLoop
    simp only [drainQueue_licensed, bfsLoop_licensed n]

theorem allDependencies_licensed (root : PackageId) (packages : PackageMap) (resolve : ResolveMap) :
    allDependencies root packages resolve (c.licensed l) = allDependencies root packages resolve c := by
  unfold allDependencies
  simp only [bfsLoop_licensed]

theorem topLevelDependencies_licensed (root : PackageId) (packages : PackageMap) (resolve : ResolveMap) :
    topLevelDependencies root packages resolve (c.licensed l) = topLevelDependencies root packages resolve c :=
  rfl

theorem targetLoop_config (env : Env) (c' : SbomConfig) (r : FPath) (hs : CrateHashes) (p : Package) (ref : String) :
    ∀ (ts : List Target) (subs : List Component) (kinds : TargetKinds),
      targetLoop env ⟨c', r, hs⟩ p ref ts subs kinds = targetLoop env ⟨c, r, hs⟩ p ref ts subs kinds
  | [], _, _ => rfl
  | t :: ts, _, _ => by
    unfold targetLoop
    simp only [targetLoop_config env c' r hs p ref ts]
    rfl

theorem createComponent_licensed (env : Env) (r : FPath) (hs : CrateHashes) (p q : Package)
    (k : DependencyKindMap) : (createComponent env ⟨c.licensed l, r, hs⟩ p q k).map withoutLicenses =
      (createComponent env ⟨c, r, hs⟩ p q k).map withoutLicenses := by
  unfold createComponent
  cases h : getPurl env p q r none <;> simp only [h, bind, Except.bind] <;> rfl

theorem createComponents_licensed (env : Env) (r : FPath) (hs : CrateHashes) (q : Package)
    (k : DependencyKindMap) : ∀ ps : List Package,
      (ps.mapM fun p => createComponent env ⟨c.licensed l, r, hs⟩ p q k).map (List.map withoutLicenses) =
        (ps.mapM fun p => createComponent env ⟨c, r, hs⟩ p q k).map (List.map withoutLicenses)
  | [] => rfl
  | p :: ps => by
    have h := createComponent_licensed (c := c) (l := l) env r hs p q k
    have ih := createComponents_licensed env r hs q k ps
    simp only [List.mapM_cons]
    revert h ih
    cases createComponent env ⟨c.licensed l, r, hs⟩ p q k <;> cases createComponent env ⟨c, r, hs⟩ p q k <;>
      simp only [Except.map, bind, Except.bind, Except.ok.injEq, Except.error.injEq, reduceCtorEq, false_implies,
        imp_self, implies_true]
    · exact fun h _ => h
    · cases (ps.mapM fun p => createComponent env ⟨c.licensed l, r, hs⟩ p q k) <;>
        cases (ps.mapM fun p => createComponent env ⟨c, r, hs⟩ p q k) <;>
        simp only [Except.ok.injEq, Except.error.injEq, reduceCtorEq, false_implies, implies_true, pure, Except.pure,
          List.map_cons]
      · exact fun _ h => h
      · intro h ih
        rw [h, ih]

/-- Metadata without licenses. -/
def Metadata.unlicensed (m : Metadata) : Metadata := { m with component := m.component.map withoutLicenses }

theorem createMetadata_licensed (env : Env) (r : FPath) (hs : CrateHashes) (p : Package) :
    (createMetadata env ⟨c.licensed l, r, hs⟩ p).map (Prod.map Metadata.unlicensed id) =
      (createMetadata env ⟨c, r, hs⟩ p).map (Prod.map Metadata.unlicensed id) := by
  have h := createComponent_licensed (c := c) (l := l) env r hs p p []
  have ht : targetProperties (c.licensed l) = targetProperties c := rfl
  unfold createMetadata createToplevelComponent
  simp only [targetLoop_config (c := c) env (c.licensed l), ht]
  cases metadataTimestamp env with
  | error e => rfl
  | ok ts =>
    revert h
    cases createComponent env ⟨c.licensed l, r, hs⟩ p p [] <;> cases createComponent env ⟨c, r, hs⟩ p p [] <;>
      simp only [Except.map, bind, Except.bind, Except.ok.injEq, Except.error.injEq, reduceCtorEq, false_implies]
    · exact fun h => h
    · rename_i x y
      intro h
      cases targetLoop env ⟨c, r, hs⟩ p p.id (filterTargets p.targets) [] [] with
      | error e => rfl
      | ok t =>
        simp only
        cases targetProperties c with
        | error e => rfl
        | ok ps =>
          have hx : withoutLicenses { x with componentType := getClassification p, components := some t.1 } =
              withoutLicenses { y with componentType := getClassification p, components := some t.1 } := by
            cases x; cases y
            simp only [withoutLicenses, Component.mk.injEq] at h ⊢
            simp only [h, and_self]
          simp only [Prod.map, Metadata.unlicensed, Option.map_some, hx]

theorem createBom_licensed (env : Env) (i : Nat) (r : FPath) (hs : CrateHashes) (package : PackageId)
    (packages : PackageMap) (resolve : ResolveMap) (k : DependencyKindMap) :
    (createBom env i ⟨c.licensed l, r, hs⟩ package packages resolve k).map (Prod.map unlicensed id) =
      (createBom env i ⟨c, r, hs⟩ package packages resolve k).map (Prod.map unlicensed id) := by
  unfold createBom
  cases packages.index package with
  | error e => rfl
  | ok root =>
    have h1 := createComponents_licensed (c := c) (l := l) env r hs root k
      (packages.values.filter (fun p => p.id != package))
    have h2 := createMetadata_licensed (c := c) (l := l) env r hs root
    revert h1 h2
    simp only [bind, Except.bind]
    cases ((packages.values.filter (fun p => p.id != package)).mapM
        fun p => createComponent env ⟨c.licensed l, r, hs⟩ p root k) <;>
      cases ((packages.values.filter (fun p => p.id != package)).mapM
        fun p => createComponent env ⟨c, r, hs⟩ p root k) <;>
      simp only [Except.map, Except.ok.injEq, Except.error.injEq, reduceCtorEq, false_implies]
    · exact fun h _ => h
    · rename_i xs ys
      cases createMetadata env ⟨c.licensed l, r, hs⟩ root <;> cases createMetadata env ⟨c, r, hs⟩ root <;>
        simp only [Except.ok.injEq, Except.error.injEq, reduceCtorEq, false_implies, implies_true]
      · exact fun _ h => h
      · rename_i m n
        intro h1 h2
        have h3 : m.1.unlicensed = n.1.unlicensed := congrArg Prod.fst h2
        have h4 : m.2 = n.2 := (Prod.mk.inj h2).2
        simp only [Metadata.unlicensed] at h3
        simp only [Prod.map, unlicensed, Option.map_some, h1, h3, h4]

theorem createSbom_licensed (env : Env) (r : FPath) (packages : PackageMap) (resolve : ResolveMap) (i : Nat)
    (m : PackageId) : (createSbom env (c.licensed l) r packages resolve i m).map unlicensedContent =
      (createSbom env c r packages resolve i m).map unlicensedContent := by
  unfold createSbom
  simp only [allDependencies_licensed, topLevelDependencies_licensed]
  show (indexDepKinds m resolve >>= fun k => (if c.getIncludedDependencies = _ then _ else _) >>= fun pr => _).map _ = _
  cases indexDepKinds m resolve with
  | error e => rfl
  | ok k =>
    simp only [bind, Except.bind]
    cases (if c.getIncludedDependencies = .allDependencies then allDependencies m packages resolve c
        else topLevelDependencies m packages resolve c) with
    | error e => rfl
    | ok pr =>
      simp only
      cases packages.index m with
      | error e => rfl
      | ok pkg =>
        have h := createBom_licensed (c := c) (l := l) env i r (memberHashes env pkg.manifestPath) m pr.1 pr.2 k
        revert h
        simp only
        cases createBom env i ⟨c.licensed l, r, memberHashes env pkg.manifestPath⟩ m pr.1 pr.2 k <;>
          cases createBom env i ⟨c, r, memberHashes env pkg.manifestPath⟩ m pr.1 pr.2 k <;>
          simp only [Except.map, Except.ok.injEq, Except.error.injEq, reduceCtorEq, false_implies]
        · exact fun h => h
        · rename_i x y
          intro h
          have h3 : unlicensed x.1 = unlicensed y.1 := congrArg Prod.fst h
          have h4 : x.2 = y.2 := (Prod.mk.inj h).2
          simp only [unlicensedContent, h3, h4]

theorem createSbomsLoop_licensed (env : Env) (r : FPath) (packages : PackageMap) (resolve : ResolveMap) :
    ∀ (ms : List PackageId) (i : Nat),
      (createSbomsLoop env (c.licensed l) r packages resolve i ms).map (List.map unlicensedContent) =
        (createSbomsLoop env c r packages resolve i ms).map (List.map unlicensedContent)
  | [], _ => rfl
  | m :: ms, i => by
    unfold createSbomsLoop
    have h := createSbom_licensed (c := c) (l := l) env r packages resolve i m
    have ih := createSbomsLoop_licensed env r packages resolve ms (i + 1)
    revert h ih
    simp only [bind, Except.bind]
    cases createSbom env (c.licensed l) r packages resolve i m <;> cases createSbom env c r packages resolve i m <;>
      simp only [Except.map, Except.ok.injEq, Except.error.injEq, reduceCtorEq, false_implies]
    · exact fun h _ => h
    · cases createSbomsLoop env (c.licensed l) r packages resolve (i + 1) ms <;>
        cases createSbomsLoop env c r packages resolve (i + 1) ms <;>
        simp only [Except.ok.injEq, Except.error.injEq, reduceCtorEq, false_implies, implies_true, List.map_cons]
      · exact fun _ h => h
      · intro h ih
        rw [h, ih]

theorem createSboms_licensed (env : Env) (md : CargoMetadata) :
    (createSboms env md (c.licensed l)).map (List.map unlicensedContent) =
      (createSboms env md c).map (List.map unlicensedContent) := by
  unfold createSboms
  cases md.resolve with
  | none => rfl
  | some nodes => exact createSbomsLoop_licensed _ _ _ _ _ _

theorem resolveConfig_licensed {W : World} {a : Args} {x : Bool} {n : List String} :
    W.resolveConfig { a with licenseStrict := x, licenseAcceptNamed := n } =
      (W.resolveConfig a).map fun c => c.licensed (some ⟨if x then .strict else .lax, n⟩) := by
  unfold World.resolveConfig Args.asConfig
  have hf : ({ a with licenseStrict := x, licenseAcceptNamed := n } : Args).filenamePattern = a.filenamePattern := rfl
  rw [hf]
  cases a.filenamePattern with
  | error e => rfl
  | ok f =>
    simp only [Except.map]
    have ht : ((Args.configWith { a with licenseStrict := x, licenseAcceptNamed := n } f).merge
        (SbomConfig.fromEnv W.buildTarget)).target =
      ((a.configWith f).merge (SbomConfig.fromEnv W.buildTarget)).target := rfl
    rw [ht]
    split
    · cases W.hostPlatform <;> rfl
    · rfl

/-! ### Names that are accepted as licenses -/

section
variable (hl : l.map (·.mode) = c.licenseParser.map (·.mode))
include hl

theorem createComponent_named (env : Env) (r : FPath) (hs : CrateHashes) (p q : Package) (k : DependencyKindMap) :
    createComponent env ⟨c.licensed l, r, hs⟩ p q k = createComponent env ⟨c, r, hs⟩ p q k := by
  have h : ∀ t, licenseOfString env (c.licensed l) t = licenseOfString env c t := by
    intro t
    unfold licenseOfString
    have hm : (match (c.licensed l).licenseParser with
        | some o => o.mode
        | none => LicenseParserOptions.mode {}) = (match c.licenseParser with
        | some o => o.mode
        | none => LicenseParserOptions.mode {}) := by
      show (match l with
        | some o => o.mode
        | none => _) = _
      revert hl
      cases l <;> cases c.licenseParser <;> simp
    exact congrArg (fun m : ParseMode => match (match m with
      | .strict => SpdxExpression.tryFrom env t
      | .lax => SpdxExpression.parseLax env t) with
      | some e => LicenseChoice.expression e
      | none => .license (License.named t)) hm
  unfold createComponent getLicenses
  simp only [h]

theorem createBom_named (env : Env) (i : Nat) (r : FPath) (hs : CrateHashes) (package : PackageId)
    (packages : PackageMap) (resolve : ResolveMap) (k : DependencyKindMap) :
    createBom env i ⟨c.licensed l, r, hs⟩ package packages resolve k =
      createBom env i ⟨c, r, hs⟩ package packages resolve k := by
  have hm : ∀ p, createMetadata env ⟨c.licensed l, r, hs⟩ p = createMetadata env ⟨c, r, hs⟩ p := by
    intro p
    unfold createMetadata createToplevelComponent
    simp only [targetLoop_config (c := c) env (c.licensed l), createComponent_named hl]
    rfl
  unfold createBom
  simp only [hm, createComponent_named hl]

theorem createSbom_named (env : Env) (r : FPath) (packages : PackageMap) (resolve : ResolveMap) (i : Nat)
    (m : PackageId) : createSbom env (c.licensed l) r packages resolve i m =
      (createSbom env c r packages resolve i m).map (GeneratedSbom.under (c.licensed l)) := by
  unfold createSbom
  simp only [allDependencies_licensed, topLevelDependencies_licensed, createBom_named hl]
  show (indexDepKinds m resolve >>= fun k => (if c.getIncludedDependencies = _ then _ else _) >>= fun pr => _) = _
  cases indexDepKinds m resolve with
  | error e => rfl
  | ok k =>
    simp only [bind, Except.bind]
    cases (if c.getIncludedDependencies = .allDependencies then allDependencies m packages resolve c
        else topLevelDependencies m packages resolve c) with
    | error e => rfl
    | ok pr =>
      simp only
      cases packages.index m with
      | error e => rfl
      | ok pkg =>
        simp only
        cases createBom env i ⟨c, r, memberHashes env pkg.manifestPath⟩ m pr.1 pr.2 k <;> rfl

theorem createSbomsLoop_named (env : Env) (r : FPath) (packages : PackageMap) (resolve : ResolveMap) :
    ∀ (ms : List PackageId) (i : Nat), createSbomsLoop env (c.licensed l) r packages resolve i ms =
      (createSbomsLoop env c r packages resolve i ms).map (List.map (GeneratedSbom.under (c.licensed l)))
  | [], _ => rfl
  | m :: ms, i => by
    unfold createSbomsLoop
    rw [createSbom_named hl]
    cases createSbom env c r packages resolve i m with
    | error e => rfl
    | ok s =>
      simp only [bind, Except.bind, Except.map, createSbomsLoop_named env r packages resolve ms (i + 1)]
      cases createSbomsLoop env c r packages resolve (i + 1) ms <;> rfl

theorem createSboms_named (env : Env) (md : CargoMetadata) :
    (createSboms env md (c.licensed l)).map (List.map content) = (createSboms env md c).map (List.map content) := by
  unfold createSboms
  cases md.resolve with
  | none => rfl
  | some nodes =>
    simp only
    rw [createSbomsLoop_named hl]
    cases createSbomsLoop env c md.workspaceRoot (indexPackages md.packages) (indexResolve nodes) 0
      md.workspaceMembers with
    | error e => rfl
    | ok x => exact congrArg Except.ok (by rw [List.map_map]; rfl)

end

/-! ### Options for dependencies -/

theorem Listed.full {nodes : List Node} {c' : SbomConfig} {root id : PackageId} (ha : AllMode c)
    (hb : noBuildDeps c = false) (h : Listed nodes c' root id) : Listed nodes c root id := by
  have hF : ∀ {b : Bool} {k : DependencyKind}, Followed b k → Followed (noBuildDeps c) k := by
    intro b k hk
    rw [hb]
    cases b with
    | false => exact hk
    | true =>
      have : k = .normal := by simpa [Followed] using hk
      subst this
      simp [Followed]
  have hR : ∀ {b : Bool} {id : PackageId}, ReachVia nodes (Followed b) root id →
      ReachVia nodes (Followed (noBuildDeps c)) root id := by
    intro b id h
    induction h with
    | root => exact .root
    | step _ he hk ih => exact .step ih he (hF hk)
  unfold Listed at h ⊢
  rw [if_pos ha]
  split at h
  · exact hR h
  · rcases h with rfl | ⟨k, he, hk⟩
    · exact .root
    · exact .step .root he (hF hk)

theorem createMetadata_same {env : Env} {c c' : SbomConfig} {r : FPath} {hs : CrateHashes} {p : Package}
    (hl : c'.licenseParser = c.licenseParser) (ht : c'.target = c.target) :
    createMetadata env ⟨c', r, hs⟩ p = createMetadata env ⟨c, r, hs⟩ p := by
  have hp : targetProperties c' = targetProperties c := by unfold targetProperties; rw [ht]
  have hc : createComponent env ⟨c', r, hs⟩ p p [] = createComponent env ⟨c, r, hs⟩ p p [] := by
    unfold createComponent getLicenses licenseOfString
    simp only [hl]
  unfold createMetadata createToplevelComponent
  simp only [targetLoop_config (c := c) env c', hp, hc]

theorem restricted {env : Env} {md : CargoMetadata} {nodes : List Node} (hmd : MetadataOk md nodes)
    {c c' : SbomConfig} (ha : AllMode c) (hb : noBuildDeps c = false) (hl : c'.licenseParser = c.licenseParser)
    (ht : c'.target = c.target) {l l' : List GeneratedSbom} (h : createSboms env md c = .ok l)
    (h' : createSboms env md c' = .ok l') {i : Nat} {s s' : GeneratedSbom} (hs : l[i]? = some s)
    (hs' : l'[i]? = some s') {root : PackageId} (hr : md.workspaceMembers[i]? = some root) :
    s'.manifestPath = s.manifestPath ∧ s'.packageName = s.packageName ∧ s'.targetKinds = s.targetKinds ∧
      s'.bom.metadata = s.bom.metadata ∧ s'.bom.serialNumber = s.bom.serialNumber ∧
      ∀ x ∈ components s'.bom, x ∈ components s.bom := by
  obtain ⟨kinds, pr, pkg, comps, m, sh, sel⟩ := sbom_shape' hmd h hs hr
  obtain ⟨kinds', pr', pkg', comps', m', sh', sel'⟩ := sbom_shape' hmd h' hs' hr
  have hk : kinds' = kinds := by
    have := sh'.kindsOk.symm.trans sh.kindsOk
    exact Except.ok.inj this
  have hp : pkg' = pkg := Option.some.inj (sh'.pkgOk.symm.trans sh.pkgOk)
  subst hk hp
  have hm : (m', s'.targetKinds) = (m, s.targetKinds) := by
    have := sh'.mdOk.symm.trans ((createMetadata_same hl ht).trans sh.mdOk)
    exact Except.ok.inj this
  refine ⟨sh'.manifest.trans sh.manifest.symm, sh'.name.trans sh.name.symm, (Prod.mk.inj hm).2, ?_, ?_, ?_⟩
  · rw [sh.bom, sh'.bom, (Prod.mk.inj hm).1]
  · rw [sh.bom, sh'.bom]
  · intro x hx
    have hx' : x ∈ comps' := by simpa [components, sh'.bom] using hx
    obtain ⟨p, hp, hpc⟩ := Rel₂.mem_right sh'.compsOk hx'
    obtain ⟨hp1, hp2⟩ := List.mem_filter.1 hp
    obtain ⟨kv, hkv, rfl⟩ := List.mem_map.1 hp1
    have hlk := (lookup_iff_mem sel'.sorted₁).2 (show (kv.1, kv.2) ∈ pr'.1 from hkv)
    obtain ⟨hl1, hl2⟩ := (sel'.pkgs _ _).1 hlk
    have hlk' := (sel.pkgs _ _).2 ⟨hl1, hl2.full ha hb⟩
    have hin : (kv.1, kv.2) ∈ pr.1 := (lookup_iff_mem sel.sorted₁).1 hlk'
    have hin' : kv.2 ∈ pr.1.values.filter (fun p => p.id != root) :=
      List.mem_filter.2 ⟨List.mem_map.2 ⟨_, hin, rfl⟩, hp2⟩
    obtain ⟨y, hy, hyc⟩ := Rel₂.mem_left sh.compsOk hin'
    have hxy : x = y := by
      have hc : createComponent env ⟨c', md.workspaceRoot, memberHashes env pkg'.manifestPath⟩ kv.2 pkg' kinds' =
          createComponent env ⟨c, md.workspaceRoot, memberHashes env pkg'.manifestPath⟩ kv.2 pkg' kinds' := by
        unfold createComponent getLicenses licenseOfString
        simp only [hl]
      exact Except.ok.inj (hpc.symm.trans (hc.trans hyc))
    subst hxy
    simpa [components, sh.bom] using hy

theorem resolveConfig_restricted {W : World} {a : Args} {x y n : Bool} :
    W.resolveConfig { a with all := x, topLevel := y, noBuildDeps := n } =
      (W.resolveConfig a).map fun c => { c with
        includedDependencies := (match x, y with
          | true, _ => some .allDependencies
          | _, true => some .topLevelDependencies
          | _, _ => none), onlyNormalDeps := some n } := by
  unfold World.resolveConfig Args.asConfig
  have hf : ({ a with all := x, topLevel := y, noBuildDeps := n } : Args).filenamePattern = a.filenamePattern := rfl
  rw [hf]
  cases a.filenamePattern with
  | error e => rfl
  | ok f =>
    simp only [Except.map]
    have ht : ((Args.configWith { a with all := x, topLevel := y, noBuildDeps := n } f).merge
        (SbomConfig.fromEnv W.buildTarget)).target =
      ((a.configWith f).merge (SbomConfig.fromEnv W.buildTarget)).target := rfl
    rw [ht]
    split
    · cases W.hostPlatform <;> rfl
    · rfl

end Cdx
