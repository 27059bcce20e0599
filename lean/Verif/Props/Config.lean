import Verif.Lemmas.Total
import Verif.Props.Example
import Verif.Model.Cli
import Verif.Lemmas.Pieces

/-!
# Properties C10-C12: reproducibility and configuration
-/

set_option linter.unusedSimpArgs false

namespace Cdx.Props
open Cdx OMap

variable {env : Env} {md : CargoMetadata} {nodes : List Node} {config : SbomConfig}
  {sboms : List GeneratedSbom} {s : GeneratedSbom} {root : PackageId}

/-- Two worlds that agree on everything but the clock and the random source. -/
def SameButClockAndRandom (e e' : Env) : Prop :=
  ∃ now uuid, e' = { e with now := now, uuid := uuid }

/-- C10: when `SOURCE_DATE_EPOCH` is set, two runs that differ in the clock and in the random
source give the same result, whatever it is. -/
theorem C10_reproducible {env' : Env} (h : SameButClockAndRandom env env')
    (he : env.sourceDateEpoch ≠ none) (hn : env.now ≠ none) (hn' : env'.now ≠ none) :
    createSboms env' md config = createSboms env md config := by
  obtain ⟨now', uuid', rfl⟩ := h
  have ht : metadataTimestamp { env with now := now', uuid := uuid' } = metadataTimestamp env := by
    unfold metadataTimestamp
    cases h1 : env.now with
    | none => exact absurd h1 hn
    | some a =>
      cases h2 : now' with
      | none => exact absurd h2 hn'
      | some b =>
        cases h3 : env.sourceDateEpoch with
        | none => exact absurd h3 he
        | some e => rfl
  have hm : ∀ g p, createMetadata { env with now := now', uuid := uuid' } g p =
      createMetadata env g p := by
    intro g p
    have hl : ∀ ref ts subs kinds,
        targetLoop { env with now := now', uuid := uuid' } g p ref ts subs kinds =
        targetLoop env g p ref ts subs kinds := by
      intro ref ts
      induction ts with
      | nil => intro subs kinds; rfl
      | cons t ts ih =>
        intro subs kinds
        unfold targetLoop
        simp only [ih]
        rfl
    unfold createMetadata createToplevelComponent
    simp only [ht, hl]
    rfl
  have hb : ∀ i g m packages resolve kinds,
      createBom { env with now := now', uuid := uuid' } i g m packages resolve kinds =
      createBom env i g m packages resolve kinds := by
    intro i g m packages resolve kinds
    unfold createBom
    simp only [hm]
    have h1 : env.sourceDateEpoch.isSome = true := by
      cases h3 : env.sourceDateEpoch with
      | none => exact absurd h3 he
      | some e => rfl
    simp only [h1, if_true]
    rfl
  have hs : ∀ ws packages resolve i m,
      createSbom { env with now := now', uuid := uuid' } config ws packages resolve i m =
      createSbom env config ws packages resolve i m := by
    intro ws packages resolve i m
    unfold createSbom
    simp only [hb]
    rfl
  have hl : ∀ ws packages resolve ms i,
      createSbomsLoop { env with now := now', uuid := uuid' } config ws packages resolve i ms =
      createSbomsLoop env config ws packages resolve i ms := by
    intro ws packages resolve ms
    induction ms with
    | nil => intro i; rfl
    | cons m ms ih => intro i; unfold createSbomsLoop; rw [hs, ih]
  unfold createSboms
  simp only [hl]

/-- C10: with `SOURCE_DATE_EPOCH` the BOM has no serial number and its timestamp is the given
instant; without it the BOM has the serial number made of the UUID drawn for it, and the
current time. -/
theorem C10_serial_and_time (hmd : Spec.MetadataOk md nodes)
    (h : createSboms env md config = .ok sboms)
    (i : Nat) (hs : sboms[i]? = some s) :
    (∀ e, env.sourceDateEpoch = some e → s.bom.serialNumber = none ∧
      ∃ t, parseI64 e = some t ∧ (∃ m, s.bom.metadata = some m ∧ m.timestamp = env.formatUnix t) ∧
        env.formatUnix t ≠ none) ∧
    (env.sourceDateEpoch = none → s.bom.serialNumber = some (urnUuidGenerate (env.uuid i)) ∧
      ∃ m, s.bom.metadata = some m ∧ m.timestamp = env.now ∧ env.now ≠ none) := by
  have hlen : sboms.length = md.workspaceMembers.length := by
    unfold createSboms at h
    rw [hmd.resolve] at h
    exact (createSbomsLoop_ok h).1
  have hi : i < sboms.length := by
    rcases Nat.lt_or_ge i sboms.length with h | h
    · exact h
    · rw [List.getElem?_eq_none h] at hs; cases hs
  obtain ⟨root, hr⟩ : ∃ root, md.workspaceMembers[i]? = some root :=
    ⟨_, List.getElem?_eq_getElem (by omega)⟩
  obtain ⟨kinds, pr, pkg, comps, m, sh, sel⟩ := sbom_shape' hmd h hs hr
  obtain ⟨ts, top, props, m1, _, _, m4⟩ := createMetadata_ok sh.mdOk
  have hmeta : s.bom.metadata = some m := by rw [sh.bom]
  have hser : s.bom.serialNumber =
      if env.sourceDateEpoch.isSome then none else some (urnUuidGenerate (env.uuid i)) := by
    rw [sh.bom]
  have hts : m.timestamp = some ts := by simp only at m4; rw [m4]
  unfold metadataTimestamp at m1
  constructor
  · intro e he
    rw [he] at m1 hser
    refine ⟨by simpa using hser, ?_⟩
    split at m1
    · cases m1
    · simp only at m1
      split at m1
      · cases m1
      · next t ht =>
        split at m1
        · cases m1
        · next d hd =>
          split at m1
          · cases m1
            exact ⟨t, ht, ⟨m, hmeta, by rw [hts, hd]⟩, by simp [hd]⟩
          · cases m1
  · intro he
    rw [he] at m1 hser
    refine ⟨by simpa using hser, m, hmeta, ?_⟩
    split at m1
    · cases m1
    · next now hn =>
      simp only [Except.ok.injEq] at m1
      subst m1
      exact ⟨by rw [hts, hn], by simp [hn]⟩

/-- Non-vacuity: the example with and without `SOURCE_DATE_EPOCH=0`. -/
example : ∃ s, createSboms { Example.env with sourceDateEpoch := some "0" } Example.md
      Example.config = .ok [s] ∧ s.bom.serialNumber = none ∧
    s.bom.metadata.bind (·.timestamp) = some "1970-01-01T00:00:00Z" := ⟨_, rfl, by decide +kernel⟩
example : ∃ s, createSboms Example.env Example.md Example.config = .ok [s] ∧
    s.bom.serialNumber = some "urn:uuid:00000000-0000-0000-0000-000000000000" :=
  ⟨_, rfl, by decide +kernel⟩
example :
    createSboms
      { Example.env with
        sourceDateEpoch := some "0", now := some "later", uuid := fun _ => Vector.replicate 16 7 }
      Example.md Example.config =
    createSboms { Example.env with sourceDateEpoch := some "0" } Example.md Example.config :=
  C10_reproducible (env := { Example.env with sourceDateEpoch := some "0" })
    ⟨some "later", fun _ => Vector.replicate 16 7, rfl⟩ (by decide) (by decide) (by decide)

/-! ## C11 -/

/-- C11 refuted as documented ("CLI options take precedence over environment variables"): with
`CARGO_BUILD_TARGET` set, the `--target` option is ignored. -/
theorem C11_cli_target_loses (a : Args) (cli envTarget host : String)
    (ht : a.target = some cli) (hf : ∀ f, a.filenameOverride = some f → '/' ∉ f.toList) :
    ∃ c, resolveConfig (some envTarget) host a = .ok c ∧
      c.target = some (.singleTarget envTarget) := by
  have : ∃ f, a.filenamePattern = .ok f := by
    unfold Args.filenamePattern
    cases h : a.filenameOverride with
    | none => exact ⟨_, rfl⟩
    | some f => exact ⟨.custom f, by simp [FilenameOverride.new, mainSeparator, hf f h, Except.map]⟩
  obtain ⟨f, hf⟩ := this
  unfold resolveConfig Args.asConfig
  simp only [hf, Except.map, bind, Except.bind]
  refine ⟨_, rfl, ?_⟩
  simp [SbomConfig.merge, SbomConfig.fromEnv]

/-- Non-vacuity: the user asks for wasm, the environment says linux, and linux is used. -/
example : ∃ c, resolveConfig (some "x86_64-unknown-linux-gnu") "host"
      { target := some "wasm32-unknown-unknown" } = .ok c ∧
    c.target ≠ some (.singleTarget "wasm32-unknown-unknown") := ⟨_, rfl, by decide⟩

/-- C11 (partial): every setting other than the target platform is the one given on the command
line; the target is the one on the command line if the environment gives none, the one of the
environment if the command line gives none, and the host platform if neither does. Missing: the
command line does not win if both give a target (`C11_cli_target_loses`). -/
theorem C11_precedence_partial (cbt : Option String) (host : String) (a : Args) (c : SbomConfig)
    (h : resolveConfig cbt host a = .ok c) :
    ∃ cli, a.asConfig = .ok cli ∧
      c.format = cli.format ∧ c.includedDependencies = cli.includedDependencies ∧
      c.outputOptions = cli.outputOptions ∧ c.features = cli.features ∧
      c.describe = cli.describe ∧ c.specVersion = cli.specVersion ∧
      c.onlyNormalDeps = cli.onlyNormalDeps ∧ c.licenseParser = cli.licenseParser ∧
      (cbt = none → c.target = some (cli.target.getD (.singleTarget host))) ∧
      (cli.target = none → c.target = some (.singleTarget (cbt.getD host))) := by
  unfold resolveConfig at h
  cases hc : a.asConfig with
  | error e => simp [hc, bind, Except.bind] at h
  | ok cli =>
    refine ⟨cli, rfl, ?_⟩
    simp only [hc, bind, Except.bind, Except.ok.injEq] at h
    subst h
    cases cbt <;> cases hcli : cli.target <;>
      simp [SbomConfig.merge, SbomConfig.fromEnv, hcli]

/-- What the command line settings are: each option given is carried over. -/
theorem C11_cli_settings_partial (a : Args) (cli : SbomConfig) (h : a.asConfig = .ok cli) :
    cli.format = a.format ∧ cli.describe = a.describe ∧ cli.specVersion = a.specVersion ∧
    cli.onlyNormalDeps = some a.noBuildDeps ∧
    (cli.target = none ↔ a.target = none) ∧
    (a.target = some "all" → cli.target = some .allTargets) ∧
    (∀ t, a.target = some t → t ≠ "all" → cli.target = some (.singleTarget t)) ∧
    (a.all = true → cli.includedDependencies = some .allDependencies) ∧
    (a.all = false → a.topLevel = true → cli.includedDependencies = some .topLevelDependencies) ∧
    (a.all = false → a.topLevel = false → cli.includedDependencies = none) ∧
    (∃ o, cli.outputOptions = some o ∧
      (∀ f, a.filenameOverride = some f → o.filename = .custom f ∧ '/' ∉ f.toList) ∧
      (a.filenameOverride = none → o.filename = .crateName) ∧
      (o.platformSuffix = .included ↔ a.targetInFilename = true)) ∧
    (∃ l, cli.licenseParser = some l ∧ l.acceptNamed = a.licenseAcceptNamed ∧
      (l.mode = .strict ↔ a.licenseStrict = true)) := by
  unfold Args.asConfig at h
  cases hf : a.filenamePattern with
  | error e => rw [hf] at h; cases h
  | ok f =>
    rw [hf] at h
    cases h
    unfold Args.filenamePattern at hf
    refine ⟨rfl, rfl, rfl, rfl, ?_, ?_, ?_, ?_, ?_, ?_, ⟨_, rfl, ?_, ?_, ?_⟩, ⟨_, rfl, rfl, ?_⟩⟩ <;>
      simp only [Args.configWith]
    · simp
    · intro e; simp [e]
    · intro t e hne; simp [e, hne]
    · intro e; simp [e]
    · intro e e'; simp [e, e']
    · intro e e'; simp [e, e']
    · intro f' e
      rw [e] at hf
      simp only [FilenameOverride.new] at hf
      by_cases hc : f'.toList.contains mainSeparator = true
      · rw [if_pos hc] at hf; cases hf
      · rw [if_neg hc] at hf; cases hf; exact ⟨rfl, by simpa [mainSeparator] using hc⟩
    · intro e; rw [e] at hf; cases hf; rfl
    · by_cases e : a.targetInFilename = true <;> simp [e]
    · by_cases e : a.licenseStrict = true <;> simp [e]

/-- Non-vacuity. -/
example : ∃ c, resolveConfig none "host"
      { target := some "all", topLevel := true, filenameOverride := some "bom", noBuildDeps := true }
        = .ok c ∧
    c.target = some .allTargets ∧ c.includedDependencies = some .topLevelDependencies ∧
    c.onlyNormalDeps = some true := ⟨_, rfl, by decide⟩

/-! ## C12 -/

/-- C12: the features passed on to cargo are exactly the maximal stretches without comma and
space of the `--features` arguments, in order. -/
theorem C12_features (a : Args) (cli : SbomConfig) (f : Features)
    (h : a.asConfig = .ok cli) (hf : cli.features = some f) :
    Spec.AllPieces (fun c => c = ',' ∨ c = ' ') a.features f.features := by
  unfold Args.asConfig at h
  cases hp : a.filenamePattern with
  | error e => rw [hp] at h; cases h
  | ok f =>
    rw [hp] at h
    cases h
    simp only [Args.configWith] at hf
    split at hf
    · cases hf
    · cases hf
      exact splitFeatures_pieces a.features

/-- C12: the maximal stretches are unique, so nothing is lost, merged or invented; each is
non-empty and free of commas and spaces. -/
theorem C12_pieces_unique {sep : Char → Prop} {args ws vs : List String}
    (h1 : Spec.AllPieces sep args ws) (h2 : Spec.AllPieces sep args vs) :
    ws = vs ∧ ∀ w ∈ ws, w ≠ "" ∧ ∀ c ∈ w.toList, ¬ sep c :=
  ⟨allPieces_unique h1 h2, fun w hw => allPieces_mem h1 w hw⟩

/-- C12: features are passed on if some `--features` argument was given, and with the two
flags. -/
theorem C12_features_present (a : Args) (cli : SbomConfig) (h : a.asConfig = .ok cli) :
    (∀ f, cli.features = some f → f.allFeatures = a.allFeatures ∧
      f.noDefaultFeatures = a.noDefaultFeatures) ∧
    (cli.features = none ↔
      a.allFeatures = false ∧ a.noDefaultFeatures = false ∧ a.features = []) := by
  unfold Args.asConfig at h
  cases hp : a.filenamePattern with
  | error e => rw [hp] at h; cases h
  | ok f =>
    rw [hp] at h
    cases h
    simp only [Args.configWith]
    split
    · next hc => simpa [and_assoc] using hc
    · next hc =>
      constructor
      · intro f hf; cases hf; exact ⟨rfl, rfl⟩
      · simpa [and_assoc] using hc

/-- Non-vacuity. -/
example : ∃ c f, ({ features := ["a, b", ",c/d  e,"] } : Args).asConfig = .ok c ∧
    c.features = some f ∧ f.features = ["a", "b", "c/d", "e"] := ⟨_, _, rfl, rfl, by decide⟩

end Cdx.Props
