import Verif.Lemmas.Files
import Verif.Model.Cli
import Verif.Props.Component

/-!
# Properties C13-C15: the files written
-/

set_option linter.unusedSimpArgs false

namespace Cdx.Props
open Cdx OMap

variable {env : Env} {md : CargoMetadata} {nodes : List Node} {config : SbomConfig}
  {sboms : List GeneratedSbom} {s : GeneratedSbom} {root : PackageId}

open Classical in
/-- Everything written for one workspace member in a per-artifact mode. -/
private theorem writes (hmd : Spec.MetadataOk md nodes) (h : createSboms env md config = .ok sboms)
    (hs : Spec.At sboms s md.workspaceMembers root) :
    s.sbomConfig = config ∧ config.target ≠ none ∧
    ∃ p ∈ md.packages, p.id = root ∧ s.manifestPath = p.manifestPath ∧ s.packageName = p.name ∧
      ∃ m top subs, s.bom.metadata = some m ∧ m.component = some top ∧
      top.components = some subs ∧ subs.length = (p.targets.filter (Spec.IsDescribed ·)).length ∧
      (∀ x ∈ (p.targets.filter (Spec.IsDescribed ·)).zip subs, x.2.name = normalizedString x.1.name) ∧
      (config.describe.getD .crate ≠ .crate → ∀ debug, writeToFiles debug s =
        .ok ((((p.targets.filter (Spec.IsDescribed ·)).zip subs).filter
            (fun x => selects (config.describe.getD .crate) x.1.kind)).map fun x =>
          fileWrite (artifactBom s.bom m top x.2) (s.manifestPath.withFileName
            (nameStem config x.2.name ++ nameKinds x.1.kind ++ nameTail config)) config)) := by
  obtain ⟨p, hp, hpid, ts, rfl, top, subs, c1, c2, c3, _, _, c6⟩ := C17_targets hmd h hs
  obtain ⟨i, kinds, pr, pkg, comps, m, h1, h2, sh, sel⟩ := sbom_shape hmd h hs
  obtain ⟨tms, top', props, _, _, m3, m4⟩ := createMetadata_ok sh.mdOk
  have hpk : pkg = p := by
    have := (lookup_indexPackages hmd.packagesNodup).2 ⟨hp, hpid⟩
    rw [sh.pkgOk] at this
    exact Option.some.inj this
  subst hpk
  have hmdt : s.bom.metadata = some m := by rw [sh.bom]
  have htop : m.component = some top := by
    simpa [Spec.topComponent, hmdt] using c1
  have htarget : config.target ≠ none := by
    intro e; simp [targetProperties, e] at m3
  refine ⟨sh.cfg, htarget, pkg, hp, hpid, sh.manifest, sh.name, m, top, subs, hmdt, htop, c2, c3,
    ?_, ?_⟩
  · intro x hx
    obtain ⟨j, hj⟩ := List.mem_iff_getElem?.1 hx
    obtain ⟨g1, g2⟩ := List.getElem?_zip_eq_some.1 hj
    obtain ⟨c, d1, d2, _⟩ := c6 j _ g1
    rw [g2] at d1; cases d1; exact d2
  · intro hd debug
    have hcfg := sh.cfg
    let l := ((pkg.targets.filter (Spec.IsDescribed ·)).zip subs).map fun x => (x.1.kind, x.2)
    have hl : l.map (·.2) = subs := by
      simp only [l, List.map_map, Function.comp_def]
      exact List.map_snd_zip (by omega)
    have hk : ∀ x ∈ l, kindsOf s.targetKinds x.2 = .ok x.1 := by
      intro x hx
      obtain ⟨y, hy, rfl⟩ := List.mem_map.1 hx
      obtain ⟨j, hj⟩ := List.mem_iff_getElem?.1 hy
      obtain ⟨g1, g2⟩ := List.getElem?_zip_eq_some.1 hj
      obtain ⟨c, d1, _, _, d4, _, _, d7⟩ := c6 j _ g1
      rw [g2] at d1; cases d1
      simp only [kindsOf, d4]
      unfold OMap.index
      rw [d7]
    have e1 := artifactLoop_ok (bom := s.bom) (m := m) (top := top) hd l hk
    rw [hl] at e1
    have e2 : perArtifactSboms s.bom s.targetKinds (config.describe.getD .crate) =
        artifactLoop s.bom m top s.targetKinds (config.describe.getD .crate) subs := by
      unfold perArtifactSboms
      rw [hmdt]; simp only; rw [htop]; simp only; rw [c2]
    have e3 := artifactWrites_ok (debug := debug) (s := s) (m := m) (top := top)
      (by rw [hcfg]; exact hd) (by rw [hcfg]; exact htarget)
      (l.filter (fun x => selects (config.describe.getD .crate) x.1))
    have e4 : writeToFiles debug s = (do
        let arts ← perArtifactSboms s.bom s.targetKinds (config.describe.getD .crate)
        artifactWrites debug s arts) := by
      unfold writeToFiles
      rw [hcfg]
      generalize config.describe.getD .crate = d at hd
      cases d with
      | crate => exact absurd rfl hd
      | binaries => rfl
      | allCargoTargets => rfl
    rw [e4, e2, e1]
    simp only [bind, Except.bind]
    rw [e3, hcfg]
    simp only [l, List.filter_map, List.map_map, Function.comp_def]

private theorem write_crate (hcfg : s.sbomConfig = config) (htarget : config.target ≠ none)
    (hd : config.describe.getD .crate = .crate) (debug : Bool) :
    writeToFiles debug s = .ok [fileWrite s.bom (s.manifestPath.withFileName
      (nameStem config s.packageName ++ nameTail config)) config] := by
  unfold writeToFiles
  rw [hcfg, hd]
  simp only [filename_crate (debug := debug) (s := s) (by rw [hcfg]; exact hd)
    (by rw [hcfg]; exact htarget), bind, Except.bind, hcfg]

/-! ## C13 -/

/-- The file extension of a format. -/
def extension : Format → String
  | .json => ".json"
  | .xml => ".xml"

private theorem nameTail_extension (config : SbomConfig) :
    ∃ pre, nameTail config = pre ++ extension config.getFormat := by
  unfold nameTail
  have : ∀ x : String, ∃ pre, x ++ "." ++ config.getFormat.display = pre ++
      extension config.getFormat := by
    intro x
    refine ⟨x, ?_⟩
    rw [String.append_assoc]
    congr 1
    cases config.getFormat <;> rfl
  exact this _

/-- C13: every file is written next to the manifest of its package, under a single file name
ending in `.json` or `.xml` according to the format, and with the configured format and
specification version; writing never panics. -/
theorem C13_directory_and_extension (hmd : Spec.MetadataOk md nodes)
    (h : createSboms env md config = .ok sboms) (hs : Spec.At sboms s md.workspaceMembers root)
    (debug : Bool) :
    ∃ p ∈ md.packages, p.id = root ∧ ∃ ws, writeToFiles debug s = .ok ws ∧
      ∀ w ∈ ws, w.format = config.format.getD .xml ∧ w.specVersion = config.specVersion.getD .v1_3 ∧
        ∃ stem, w.path = p.manifestPath.dropLast ++ [stem ++ extension (config.format.getD .xml)] := by
  obtain ⟨hcfg, htarget, p, hp, hpid, hman, hname, m, top, subs, _, _, _, _, _, hw⟩ := writes hmd h hs
  obtain ⟨pre, hpre⟩ := nameTail_extension config
  have hf : config.getFormat = config.format.getD .xml := rfl
  refine ⟨p, hp, hpid, ?_⟩
  by_cases hd : config.describe.getD .crate = .crate
  · refine ⟨_, write_crate hcfg htarget hd debug, ?_⟩
    intro w hw
    simp only [List.mem_singleton] at hw
    subst hw
    refine ⟨rfl, rfl, nameStem config s.packageName ++ pre, ?_⟩
    simp only [fileWrite, FPath.withFileName, hman, hpre, hf, String.append_assoc]
  · refine ⟨_, hw hd debug, ?_⟩
    intro w hw
    obtain ⟨x, _, rfl⟩ := List.mem_map.1 hw
    refine ⟨rfl, rfl, nameStem config x.2.name ++ nameKinds x.1.kind ++ pre, ?_⟩
    simp only [fileWrite, FPath.withFileName, hman, hpre, hf, String.append_assoc]

private theorem noSlash_append {a b : String} (ha : '/' ∉ a.toList) (hb : '/' ∉ b.toList) :
    '/' ∉ (a ++ b).toList := by
  simp [String.toList_append, ha, hb]

private theorem noSlash_nameTail (ht : ∀ t, config.target = some (.singleTarget t) → '/' ∉ t.toList) :
    '/' ∉ (nameTail config).toList := by
  unfold nameTail
  refine noSlash_append (noSlash_append ?_ (by decide)) ?_
  · split
    · refine noSlash_append (noSlash_append (by decide) ?_) (by decide)
      cases hc : config.target with
      | none => simp
      | some t =>
        cases t with
        | allTargets => simp [TargetPlatform.asStr]
        | singleTarget t => simpa [TargetPlatform.asStr] using ht t hc
    · split <;> decide
  · cases config.getFormat <;> decide

private theorem mem_replaceCrLfTab {c : Char} {l : List Char} (h : c ∈ replaceCrLfTab l)
    (hc : c ≠ ' ') : c ∈ l := by
  unfold replaceCrLfTab at h
  obtain ⟨a, ha, e⟩ := List.mem_map.1 h
  split at e
  · exact absurd e.symm hc
  · exact e ▸ ha

private theorem mem_replaceCrLf {c : Char} {l : List Char} (h : c ∈ replaceCrLf l)
    (hc : c ≠ ' ') : c ∈ l := by
  fun_induction replaceCrLf l <;> grind

private theorem noSlash_normalized {s : String} (h : '/' ∉ s.toList) :
    '/' ∉ (normalizedString s).toList := by
  unfold normalizedString
  rw [String.toList_ofList]
  intro hm
  exact h (mem_replaceCrLf (mem_replaceCrLfTab hm (by decide)) (by decide))

/-- C13: the file name has no path separator if the names it is built from have none: the
package name, the target names and kinds, the platform, and the override. -/
theorem C13_no_separator (hmd : Spec.MetadataOk md nodes)
    (h : createSboms env md config = .ok sboms) (hs : Spec.At sboms s md.workspaceMembers root)
    (debug : Bool)
    (hnames : ∀ p ∈ md.packages, '/' ∉ p.name.toList ∧ ∀ t ∈ p.targets, '/' ∉ t.name.toList ∧
      ∀ k ∈ t.kind, '/' ∉ k.toList)
    (ht : ∀ t, config.target = some (.singleTarget t) → '/' ∉ t.toList)
    (ho : ∀ o n, config.outputOptions = some o → o.filename = .custom n → '/' ∉ n.toList) :
    ∃ ws, writeToFiles debug s = .ok ws ∧
      ∀ w ∈ ws, ∀ f, w.path.getLast? = some f → '/' ∉ f.toList := by
  obtain ⟨hcfg, htarget, p, hp, hpid, hman, hname, m, top, subs, _, _, _, _, hn, hw⟩ := writes hmd h hs
  have htail := noSlash_nameTail ht
  have hstem : ∀ d : String, '/' ∉ d.toList → '/' ∉ (nameStem config d).toList := by
    intro d hd
    unfold nameStem
    split
    · exact hd
    · next n hcn =>
      unfold SbomConfig.getOutputOptions at hcn
      cases hoo : config.outputOptions with
      | none => rw [hoo] at hcn; simp at hcn
      | some o => rw [hoo] at hcn; exact ho o n hoo hcn
  by_cases hd : config.describe.getD .crate = .crate
  · refine ⟨_, write_crate hcfg htarget hd debug, ?_⟩
    intro w hw f hf
    simp only [List.mem_singleton] at hw
    subst hw
    simp only [fileWrite, FPath.withFileName, List.getLast?_append, List.getLast?_singleton,
      Option.some_or, Option.some.injEq] at hf
    subst hf
    exact noSlash_append (hstem _ (by rw [hname]; exact (hnames p hp).1)) htail
  · refine ⟨_, hw hd debug, ?_⟩
    intro w hw f hf
    obtain ⟨x, hx, rfl⟩ := List.mem_map.1 hw
    simp only [fileWrite, FPath.withFileName, List.getLast?_append, List.getLast?_singleton,
      Option.some_or, Option.some.injEq] at hf
    subst hf
    have hx' := (List.mem_filter.1 hx).1
    have hxt : x.1 ∈ p.targets := (List.mem_filter.1 (List.of_mem_zip hx').1).1
    obtain ⟨t1, t2⟩ := (hnames p hp).2 _ hxt
    refine noSlash_append (noSlash_append (hstem _ ?_) ?_) htail
    · rw [hn x hx']; exact noSlash_normalized t1
    · unfold nameKinds
      split
      · decide
      · refine noSlash_append (by decide) ?_
        clear hx hx' hxt t1 hn
        generalize x.1.kind = ks at t2
        induction ks with
        | nil => simp [joinStr, List.intercalate]
        | cons k ks ih =>
          rw [kinds_join_cons, List.mem_append]
          rintro (hm | hm)
          · exact t2 k List.mem_cons_self hm
          · split at hm
            · cases hm
            · rcases List.mem_cons.1 hm with e | e
              · exact absurd e (by decide)
              · exact ih (fun y hy => t2 y (List.mem_cons_of_mem _ hy)) e

/-- C13: an override with a path separator is rejected on the command line; every other one is
taken over. -/
theorem C13_override_checked (a : Args) (o : String) (ho : a.filenameOverride = some o) :
    ('/' ∈ o.toList → ∃ e, a.asConfig = .error e) ∧
    ('/' ∉ o.toList → ∃ c opts, a.asConfig = .ok c ∧ c.outputOptions = some opts ∧
      opts.filename = .custom o) := by
  unfold Args.asConfig Args.filenamePattern FilenameOverride.new
  rw [ho]
  constructor
  · intro hm
    have : o.toList.contains mainSeparator = true := by
      simpa [mainSeparator] using hm
    simp only [this, if_true]
    exact ⟨_, rfl⟩
  · intro hm
    have : o.toList.contains mainSeparator = false := by
      simpa [mainSeparator] using hm
    simp only [this]
    exact ⟨_, _, rfl, rfl, rfl⟩

/-- C13: with an override and no platform in the name, the crate SBOM is written to exactly
`<override>.<format>`; without override to `<package>.cdx.<format>`, and the platform goes
before `.cdx`. -/
theorem C13_exact_name (hmd : Spec.MetadataOk md nodes)
    (h : createSboms env md config = .ok sboms) (hs : Spec.At sboms s md.workspaceMembers root)
    (debug : Bool) (hd : config.describe.getD .crate = .crate) :
    ∃ p ∈ md.packages, p.id = root ∧ ∃ w, writeToFiles debug s = .ok [w] ∧ w.bom = s.bom ∧
      ∀ opts, config.outputOptions.getD {} = opts →
        (∀ o, opts.filename = .custom o → opts.platformSuffix = .notIncluded →
          w.path = p.manifestPath.dropLast ++ [o ++ extension (config.format.getD .xml)]) ∧
        (opts.filename = .crateName → opts.platformSuffix = .notIncluded →
          w.path = p.manifestPath.dropLast ++
            [p.name ++ ".cdx" ++ extension (config.format.getD .xml)]) ∧
        (∀ t, config.target = some (.singleTarget t) → opts.platformSuffix = .included →
          (∀ o, opts.filename = .custom o → w.path = p.manifestPath.dropLast ++
            [o ++ "_" ++ t ++ ".cdx" ++ extension (config.format.getD .xml)]) ∧
          (opts.filename = .crateName → w.path = p.manifestPath.dropLast ++
            [p.name ++ "_" ++ t ++ ".cdx" ++ extension (config.format.getD .xml)])) := by
  obtain ⟨hcfg, htarget, p, hp, hpid, hman, hname, m, top, subs, _⟩ := writes hmd h hs
  refine ⟨p, hp, hpid, _, write_crate hcfg htarget hd debug, rfl, ?_⟩
  rintro opts rfl
  have hext : "." ++ config.getFormat.display = extension (config.format.getD .xml) := by
    have hf : config.getFormat = config.format.getD .xml := rfl
    rw [hf]
    cases config.format.getD .xml <;> rfl
  have hopt : config.getOutputOptions = config.outputOptions.getD {} := rfl
  simp only [fileWrite, FPath.withFileName, hman, hname]
  refine ⟨?_, ?_, ?_⟩
  · intro o h1 h2
    simp only [nameStem, nameTail, hopt, h1, h2, String.append_assoc, hext, String.empty_append]
  · intro h1 h2
    simp only [nameStem, nameTail, hopt, h1, h2, String.append_assoc, hext]
  · intro t h1 h2
    constructor
    · intro o h3
      simp only [nameStem, nameTail, hopt, h1, h2, h3, String.append_assoc, hext, Option.map_some,
        Option.getD_some, TargetPlatform.asStr]
    · intro h3
      simp only [nameStem, nameTail, hopt, h1, h2, h3, String.append_assoc, hext, Option.map_some,
        Option.getD_some, TargetPlatform.asStr]

private theorem joinStr_eq (l : List String) : joinStr "-" l = "-".intercalate l := by
  rw [← String.toList_inj, String.toList_intercalate, joinStr, String.toList_ofList]

open Classical in
/-- C13: the SBOM of an artifact is written to `<artifact>_<kinds>.cdx.<format>`, with the kinds of the
target joined by `-`, in the order of the targets; an override takes the place of the artifact name
and, without a platform in the name, of `.cdx` too; the platform goes before `.cdx`. -/
theorem C13_artifact_names (hmd : Spec.MetadataOk md nodes)
    (h : createSboms env md config = .ok sboms) (hs : Spec.At sboms s md.workspaceMembers root)
    (debug : Bool) (d : Describe) (hd : config.describe = some d) (hdc : d ≠ .crate) :
    ∃ p ∈ md.packages, p.id = root ∧ ∃ ws, writeToFiles debug s = .ok ws ∧
      ∀ (opts : OutputOptions) (before : Target → String) (after : String),
        config.outputOptions.getD {} = opts →
        (∀ o, opts.filename = .custom o → ∀ t, before t = o) →
        (opts.filename = .crateName → ∀ t : Target, before t = normalizedString t.name) →
        (opts.platformSuffix = .included →
          (∀ t, config.target = some (.singleTarget t) → after = "_" ++ t ++ ".cdx") ∧
          (config.target = some .allTargets → after = "_all.cdx")) →
        (opts.platformSuffix = .notIncluded → opts.filename = .crateName → after = ".cdx") →
        (∀ o, opts.platformSuffix = .notIncluded → opts.filename = .custom o → after = "") →
        ws.map (·.path) = (p.targets.filter (fun t => Spec.IsDescribed t ∧
            (d = .allCargoTargets ∨ "bin" ∈ t.kind ∨ "cdylib" ∈ t.kind))).map fun t =>
          p.manifestPath.dropLast ++
            [before t ++ "_" ++ "-".intercalate t.kind ++ after ++
              extension (config.format.getD .xml)] := by
  obtain ⟨hcfg, htarget, p, hp, hpid, hman, hname, m, top, subs, a1, a2, a3, a4, hn, hw⟩ :=
    writes hmd h hs
  have hdd : config.describe.getD .crate = d := by rw [hd]; rfl
  rw [hdd] at hw
  refine ⟨p, hp, hpid, _, hw hdc debug, ?_⟩
  rintro opts before after rfl b1 b2 c1 c2 c3
  have hopt : config.getOutputOptions = config.outputOptions.getD {} := rfl
  have hext : "." ++ config.getFormat.display = extension (config.format.getD .xml) := by
    have hf : config.getFormat = config.format.getD .xml := rfl
    rw [hf]
    cases config.format.getD .xml <;> rfl
  have htail : nameTail config = after ++ extension (config.format.getD .xml) := by
    unfold nameTail
    rw [String.append_assoc, hext, hopt]
    congr 1
    cases hs : (config.outputOptions.getD {}).platformSuffix with
    | included =>
      simp only
      cases ht : config.target with
      | none => exact absurd ht htarget
      | some t =>
        cases t with
        | allTargets => rw [(c1 hs).2 ht]; rfl
        | singleTarget t => rw [(c1 hs).1 t ht]; rfl
    | notIncluded =>
      simp only
      cases hf : (config.outputOptions.getD {}).filename with
      | crateName => rw [c2 hs hf]
      | custom o => rw [c3 o hs hf]
  have hstem : ∀ t : Target, nameStem config (normalizedString t.name) = before t := by
    intro t
    unfold nameStem
    rw [hopt]
    cases hf : (config.outputOptions.getD {}).filename with
    | crateName => exact (b2 hf t).symm
    | custom o => exact (b1 o hf t).symm
  have hsel : p.targets.filter (fun t => Spec.IsDescribed t ∧
        (d = .allCargoTargets ∨ "bin" ∈ t.kind ∨ "cdylib" ∈ t.kind)) =
      (((p.targets.filter (Spec.IsDescribed ·)).zip subs).filter
        (fun x => selects d x.1.kind)).map (·.1) := by
    have e : ((p.targets.filter (Spec.IsDescribed ·)).zip subs).map (·.1) =
        p.targets.filter (Spec.IsDescribed ·) := List.map_fst_zip (by omega)
    rw [show (fun x : Target × Component => selects d x.1.kind) =
      (fun t : Target => selects d t.kind) ∘ (·.1) from rfl, ← List.filter_map, e, List.filter_filter]
    refine List.filter_congr fun t _ => ?_
    rw [Bool.eq_iff_iff, decide_eq_true_iff]
    simp [selects, and_comm]
  rw [hsel, List.map_map, List.map_map]
  refine List.map_congr_left fun x hx => ?_
  have hx' := (List.mem_filter.1 hx).1
  have hdesc := of_decide_eq_true (List.mem_filter.1 (List.of_mem_zip hx').1).2
  have hk : x.1.kind.isEmpty = false := by
    cases hk : x.1.kind with
    | nil => obtain ⟨_, hx⟩ := hdesc; rw [hk] at hx; simp at hx
    | cons _ _ => rfl
  simp only [Function.comp_apply, fileWrite, FPath.withFileName, hman, hn x hx', hstem, nameKinds, hk,
    Bool.false_eq_true, if_false, joinStr_eq, htail, String.append_assoc]

/-! ## C14 -/

open Classical in
/-- C14: with per-artifact description, no override and cargo's target kinds, artifacts that
differ in name or kinds are written to different files. -/
theorem C14_distinct_files (hmd : Spec.MetadataOk md nodes)
    (h : createSboms env md config = .ok sboms) (hs : Spec.At sboms s md.workspaceMembers root)
    (debug : Bool) (ho : ∀ opts, config.outputOptions = some opts → opts.filename = .crateName)
    (hd : config.describe.getD .crate ≠ .crate)
    (hkinds : ∀ p ∈ md.packages, ∀ t ∈ p.targets, Spec.IsDescribed t → ∀ k ∈ t.kind, k ∈ cargoKinds)
    (hdist : ∀ p ∈ md.packages, ((p.targets.filter (Spec.IsDescribed ·)).map
      fun t => (normalizedString t.name, t.kind)).Nodup) :
    ∃ ws, writeToFiles debug s = .ok ws ∧ (ws.map (·.path)).Nodup := by
  obtain ⟨hcfg, htarget, p, hp, hpid, hman, hname, m, top, subs, _, _, _, hlen, hn, hw⟩ :=
    writes hmd h hs
  refine ⟨_, hw hd debug, ?_⟩
  have hstem : ∀ d, nameStem config d = d := by
    intro d
    unfold nameStem SbomConfig.getOutputOptions
    cases hoo : config.outputOptions with
    | none => rfl
    | some o => simp only [Option.getD_some]; rw [ho o hoo]
  simp only [List.map_map, Function.comp_def, fileWrite]
  have hnd := hdist p hp
  have hz : (((p.targets.filter (Spec.IsDescribed ·)).zip subs).map
      fun x => (x.2.name, x.1.kind)).Nodup := by
    have e : ((p.targets.filter (Spec.IsDescribed ·)).zip subs).map (fun x => (x.2.name, x.1.kind)) =
        (((p.targets.filter (Spec.IsDescribed ·)).zip subs).map (·.1)).map
          fun t => (normalizedString t.name, t.kind) := by
      rw [List.map_map]
      apply List.map_congr_left
      intro x hx
      simp [hn x hx]
    rw [e, List.map_fst_zip (by omega)]
    exact hnd
  have hf := List.Pairwise.filter (fun x : Target × Component =>
    selects (config.describe.getD .crate) x.1.kind) (List.pairwise_map.1 hz)
  unfold List.Nodup
  rw [List.pairwise_map]
  refine List.Pairwise.imp_of_mem ?_ hf
  intro x y hx hy hne e
  apply hne
  have hx' := (List.mem_filter.1 hx).1
  have hy' := (List.mem_filter.1 hy).1
  obtain ⟨a1, a2⟩ := List.mem_filter.1 (List.of_mem_zip hx').1
  obtain ⟨b1, b2⟩ := List.mem_filter.1 (List.of_mem_zip hy').1
  have a2 := of_decide_eq_true a2
  have b2 := of_decide_eq_true b2
  have hne' : ∀ t : Target, Spec.IsDescribed t → t.kind ≠ [] := by
    rintro t ⟨_, hx⟩ e
    rw [e] at hx
    simp at hx
  simp only [FPath.withFileName, List.append_cancel_left_eq, List.cons.injEq, and_true, hstem] at e
  obtain ⟨e1, e2⟩ := artifact_name_inj (hne' _ a2) (hne' _ b2) (hkinds p hp _ a1 a2)
    (hkinds p hp _ b1 b2) e
  simp [e1, e2]

/-- Non-vacuity: two artifacts of the example. -/
private def artifactConfig : SbomConfig := { Example.config with describe := some .allCargoTargets }
example : ∃ s ws, createSboms Example.env Example.md artifactConfig = .ok [s] ∧
    writeToFiles true s = .ok ws ∧
    ws.map (·.path) = [["w", "root_lib.cdx.xml"], ["w", "cli_bin.cdx.xml"]] :=
  ⟨_, _, rfl, rfl, by decide +kernel⟩

/-- A package with two binaries. -/
def twoBinsRoot : Package :=
  { Example.rootPkg with
    targets := [{ name := "x", kind := ["bin"], srcPath := ["w", "src", "x.rs"] },
      { name := "y", kind := ["bin"], srcPath := ["w", "src", "y.rs"] }] }

/-- The example with two binaries. -/
def twoBins : CargoMetadata :=
  { Example.md with packages := twoBinsRoot :: Example.md.packages.drop 1 }

/-- C14: with an override the name of the artifact is not part of the file name, so that two
binaries of one package overwrite each other (the command line forbids this combination). -/
theorem C14_override_collapses :
    ∃ s ws, createSboms Example.env twoBins
        { artifactConfig with outputOptions := some { filename := .custom "bom" } } = .ok [s] ∧
      writeToFiles true s = .ok ws ∧
      ws.map (·.path) = [["w", "bom_bin.xml"], ["w", "bom_bin.xml"]] ∧ ws[0]? ≠ ws[1]? :=
  ⟨_, _, rfl, rfl, by decide +kernel, by decide +kernel⟩

/-! ## C15 -/

open Classical in
/-- C15: describing binaries writes one SBOM per `bin` or `cdylib` target and no other,
describing all targets one per described target, in order. Each is the crate SBOM with the
artifact's name, type and package URL at the top and without nested targets. -/
theorem C15_artifacts (hmd : Spec.MetadataOk md nodes)
    (h : createSboms env md config = .ok sboms) (hs : Spec.At sboms s md.workspaceMembers root)
    (debug : Bool) (d : Describe) (hd : config.describe = some d) (hdc : d ≠ .crate) :
    ∃ p ∈ md.packages, p.id = root ∧ ∃ m top subs ws, s.bom.metadata = some m ∧
      m.component = some top ∧ top.components = some subs ∧
      subs.length = (p.targets.filter (Spec.IsDescribed ·)).length ∧
      writeToFiles debug s = .ok ws ∧
      ws.map (·.bom) = (((p.targets.filter (Spec.IsDescribed ·)).zip subs).filter (fun x =>
          d = .allCargoTargets ∨ "bin" ∈ x.1.kind ∨ "cdylib" ∈ x.1.kind)).map fun x =>
        { s.bom with metadata := some { m with component := some { top with
            name := x.2.name, componentType := x.2.componentType, purl := x.2.purl,
            components := none } } } := by
  obtain ⟨hcfg, htarget, p, hp, hpid, hman, hname, m, top, subs, a1, a2, a3, a4, _, hw⟩ :=
    writes hmd h hs
  have hdd : config.describe.getD .crate = d := by rw [hd]; rfl
  rw [hdd] at hw
  refine ⟨p, hp, hpid, m, top, subs, _, a1, a2, a3, a4, hw hdc debug, ?_⟩
  simp only [List.map_map, Function.comp_def, fileWrite]
  congr 1
  refine List.filter_congr fun x _ => ?_
  rw [Bool.eq_iff_iff, decide_eq_true_iff]
  simp [selects]

/-- Non-vacuity: describing binaries keeps only the binary of the example. -/
example : ∃ s ws, createSboms Example.env Example.md
      { Example.config with describe := some .binaries } = .ok [s] ∧
    writeToFiles true s = .ok ws ∧
    ws.map (fun w => ((Spec.topComponent w.bom).map (·.name),
      (Spec.topComponent w.bom).map (·.componentType))) = [(some "cli", some .application)] ∧
    ws.map (fun w => Spec.components w.bom) = [Spec.components s.bom] :=
  ⟨_, _, rfl, rfl, by decide +kernel, by decide +kernel⟩

end Cdx.Props
