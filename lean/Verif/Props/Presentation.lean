import Verif.Lemmas.Presentation
import Verif.Props.Run

/-!
# C100: options for files do not change what the SBOMs say
-/

namespace Cdx.Props

open Spec

/-- C100: the options for the format, the version, what gets a file, and the target in file names have
no influence on the SBOMs that are generated, nor on whether this fails. -/
theorem C100_content (W : World) (a : Args) (t : Bool) (f : Option Format) (d : Option Describe)
    (v : Option SpecVersion) :
    (W.generateSboms { a with targetInFilename := t, format := f, describe := d, specVersion := v }).map
      (List.map content) = (W.generateSboms a).map (List.map content) := by
  have h := generateSboms_shown (W := W) (a := a) (t := t) (f := f) (d := d) (v := v)
  rw [Args.shown] at h
  rw [h]
  cases W.generateSboms a with
  | error e => rfl
  | ok l => exact congrArg Except.ok (by rw [List.map_map]; rfl)

/-- C100: neither has `--override-filename` with a name that is accepted, which is one without `/`. -/
theorem C100_override (W : World) (a : Args) {n : String} (hn : '/' ∉ n.toList)
    (ha : ∀ t, a.filenameOverride = some t → '/' ∉ t.toList) :
    (W.generateSboms { a with filenameOverride := some n }).map (List.map content) =
      (W.generateSboms a).map (List.map content) := by
  have hnew : ∀ t : String, '/' ∉ t.toList → FilenameOverride.new t = .ok t := by
    intro t ht
    unfold FilenameOverride.new
    rw [if_neg]
    simpa [mainSeparator] using ht
  have h1 : ({ a with filenameOverride := some n } : Args).filenamePattern = .ok (.custom n) := by
    unfold Args.filenamePattern
    simp only [hnew n hn]
    rfl
  obtain ⟨f, h2⟩ : ∃ f, a.filenamePattern = .ok f := by
    unfold Args.filenamePattern
    cases h : a.filenameOverride with
    | none => exact ⟨_, rfl⟩
    | some t => simp only [hnew t (ha t h)]; exact ⟨_, rfl⟩
  have hr : W.resolveConfig { a with filenameOverride := some n } = (W.resolveConfig a).map fun c =>
      c.shown (c.outputOptions.map fun o => { o with filename := .custom n }) c.format c.describe c.specVersion := by
    unfold World.resolveConfig Args.asConfig
    rw [h1, h2]
    simp only [Except.map]
    have ht : ((Args.configWith { a with filenameOverride := some n } (.custom n)).merge
        (SbomConfig.fromEnv W.buildTarget)).target =
      ((a.configWith f).merge (SbomConfig.fromEnv W.buildTarget)).target := rfl
    rw [ht]
    split
    · cases W.hostPlatform <;> rfl
    · rfl
  unfold World.generateSboms
  rw [hr]
  cases W.resolveConfig a with
  | error e => rfl
  | ok c =>
    show (W.locateManifest a >>= fun m => W.getMetadata a m c >>= fun md =>
      createSboms W.env md (c.shown _ _ _ _)).map _ = (W.locateManifest a >>= fun m => W.getMetadata a m c >>= fun md =>
      createSboms W.env md c).map _
    cases W.locateManifest a with
    | error e => rfl
    | ok m =>
      show (W.getMetadata a m c >>= _).map _ = (W.getMetadata a m c >>= _).map _
      cases W.getMetadata a m c with
      | error e => rfl
      | ok md =>
        show (createSboms W.env md (c.shown _ _ _ _)).map _ = (createSboms W.env md c).map _
        rw [createSboms_shown]
        cases createSboms W.env md c with
        | error e => rfl
        | ok l => exact congrArg Except.ok (by rw [List.map_map]; rfl)

/-- Non-vacuity: `sbom` is such a name, and with it SBOMs are generated. -/
example : '/' ∉ "sbom".toList ∧ (∀ t, exampleArgs.filenameOverride = some t → '/' ∉ t.toList) ∧
    ∃ l, exampleWorld.generateSboms { exampleArgs with filenameOverride := some "sbom" } = .ok l ∧ l.length = 2 := by
  refine ⟨by decide, ?_, ⟨_, rfl, rfl⟩⟩
  intro t h
  cases h

section
variable [F32Format] {W : World} {a : Args} {w : SpecVersion} {fs fs₁ : Files} {e : Exit}

/-- C100: a run with a later version does the same file operations in the same order, and what is written
differs only in the version. -/
theorem C100_version (hmd : ∀ config md, Asked W a config md → ∃ nodes, MetadataOk md nodes)
    (hlt : (a.specVersion.getD .v1_3).ord < w.ord) :
    mainProgram W { a with specVersion := some w } = mapContents (withVersion w) (mainProgram W a) := by
  unfold mainProgram
  have hacc : ({ a with specVersion := some w } : Args).accepted = a.accepted := rfl
  rw [hacc]
  cases ha : a.accepted with
  | false => rfl
  | true =>
    simp only [if_true]
    have h := generateSboms_shown (W := W) (a := a) (t := a.targetInFilename) (f := a.format) (d := a.describe)
      (v := some w)
    have he : a.shown a.targetInFilename a.format a.describe (some w) = { a with specVersion := some w } := rfl
    rw [he] at h
    rw [h]
    cases hg : W.generateSboms a with
    | error e => rfl
    | ok l =>
      simp only [Except.map, Program.after]
      have hg' := hg
      unfold World.generateSboms at hg
      simp only [Res.bind_ok] at hg
      obtain ⟨config, h1, m, h2, md, h3, h4⟩ := hg
      have hask : Asked W a config md := by
        refine ⟨ha, h1, m, h2, ?_⟩
        unfold World.getMetadata at h3
        split at h3
        · next md' h' => cases h3; exact h'
        · cases h3
      obtain ⟨nodes, hok⟩ := hmd config md hask
      have hcfg := createSboms_config h4
      have hsame : config.reshown a.targetInFilename a.format a.describe (some w) =
          config.shown config.outputOptions config.format config.describe (some w) := by
        unfold World.resolveConfig Args.asConfig at h1
        cases hn : a.filenamePattern with
        | error e => rw [hn] at h1; exact nomatch h1
        | ok n =>
          rw [hn] at h1
          simp only [Except.map] at h1
          split at h1
          · simp only [Res.bind_ok] at h1
            obtain ⟨host, -, h1⟩ := h1
            cases h1
            rfl
          · cases h1
            rfl
      have hmap : l.map (fun s => s.under (s.sbomConfig.reshown a.targetInFilename a.format a.describe (some w))) =
          l.map (GeneratedSbom.newer w) := by
        refine List.map_congr_left fun s hs => ?_
        rw [GeneratedSbom.newer, hcfg s hs, hsame]
      rw [hmap]
      refine writeAllProgram_newer hlt l fun s hs => ⟨?_, ?_⟩
      · rw [hcfg s hs, (resolveConfig_ok h1).2.2.1]
      · obtain ⟨i, hi⟩ := List.mem_iff_getElem?.1 hs
        have hlen := (C22_one_per_member hok h4).1
        have hi' : i < md.workspaceMembers.length := by
          rw [← hlen]; exact (List.getElem?_eq_some_iff.1 hi).1
        exact generated_gen hok h4 ⟨i, hi, List.getElem?_eq_getElem hi'⟩

/-- Files after two runs: untouched by both, torn in both, or with the same document, up to the version. -/
def Correspond (w : SpecVersion) (fs fs₁ fs₂ : Files) : Prop := ∀ p,
  (fs₁ p = fs p ∧ fs₂ p = fs p) ∨ (fs₁ p = some .torn ∧ fs₂ p = some .torn) ∨
    ∃ c, fs₁ p = some (.whole c) ∧ fs₂ p = some (.whole (withVersion w c))

private theorem correspond_set {fs fs₁ fs₂ : Files} {p : FPath} {x y : FileState} (h : Correspond w fs fs₁ fs₂)
    (hxy : (x = .torn ∧ y = .torn) ∨ ∃ c, x = .whole c ∧ y = .whole (withVersion w c)) :
    Correspond w fs (fs₁.set p x) (fs₂.set p y) := by
  intro q
  by_cases hq : q = p
  · simp only [Files.set, if_pos hq]
    rcases hxy with ⟨rfl, rfl⟩ | ⟨c, rfl, rfl⟩
    · exact .inr (.inl ⟨rfl, rfl⟩)
    · exact .inr (.inr ⟨c, rfl, rfl⟩)
  · simp only [Files.set, if_neg hq]
    exact h q

private theorem corresponding {fs₀ fs fs₁ fs' : Files} {P : Program} (h : Runs P fs fs₁ e)
    (hc : Correspond w fs₀ fs fs') :
    ∃ fs₂, Runs (mapContents (withVersion w) P) fs' fs₂ e ∧ Correspond w fs₀ fs₁ fs₂ := by
  induction h generalizing fs' with
  | success => exact ⟨_, .success _, hc⟩
  | fault => exact ⟨_, .fault _ _, hc⟩
  | stop => exact ⟨_, .stop _ _, hc⟩
  | create _ ih =>
    obtain ⟨fs₂, h1, h2⟩ := ih (correspond_set hc (.inl ⟨rfl, rfl⟩))
    exact ⟨fs₂, .create h1, h2⟩
  | createError => exact ⟨_, .createError _ _ _, hc⟩
  | fill _ ih =>
    obtain ⟨fs₂, h1, h2⟩ := ih (correspond_set hc (.inr ⟨_, rfl, rfl⟩))
    exact ⟨fs₂, .fill h1, h2⟩
  | fillError => exact ⟨_, .fillError _ _ _ _, correspond_set hc (.inl ⟨rfl, rfl⟩)⟩
  | fillStop => exact ⟨_, .fillStop _ _ _ _, correspond_set hc (.inl ⟨rfl, rfl⟩)⟩

/-- C100: so whatever a run does to the files, with or without failures, a run with a later version can
do as well, with the same documents but for the version. -/
theorem C100_files (hmd : ∀ config md, Asked W a config md → ∃ nodes, MetadataOk md nodes)
    (hlt : (a.specVersion.getD .v1_3).ord < w.ord) (h : Runs (mainProgram W a) fs fs₁ e) :
    ∃ fs₂, Runs (mainProgram W { a with specVersion := some w }) fs fs₂ e ∧ Correspond w fs fs₁ fs₂ := by
  rw [C100_version hmd hlt]
  exact corresponding h fun p => .inl ⟨rfl, rfl⟩

end

/-! ### Non-vacuity -/

attribute [local instance] Example.f32 Example.limit

/-- The example meets the hypotheses: whatever cargo answers in it is consistent, the version is the
default 1.3, and two SBOMs are generated, also with other options. -/
example : (∀ config md, Asked exampleWorld exampleArgs config md → ∃ nodes, MetadataOk md nodes) ∧
    (exampleArgs.specVersion.getD .v1_3).ord < SpecVersion.v1_5.ord ∧
    (∃ l, exampleWorld.generateSboms exampleArgs = .ok l ∧ l.length = 2) ∧
    ∃ l, exampleWorld.generateSboms
      { exampleArgs with format := some .xml, describe := some .binaries, specVersion := some .v1_5 } = .ok l ∧
      l.length = 2 := by
  refine ⟨?_, by decide, ⟨_, rfl, rfl⟩, ⟨_, rfl, rfl⟩⟩
  rintro config md ⟨-, -, m, -, h⟩
  change (if _ then Except.ok twoMembers else _) = _ at h
  split at h
  · cases h
    exact ⟨_, example_metadataOk⟩
  · exact nomatch h

/-- The files that a program writes, with the version in those that are JSON. -/
def versionsOf : Program → List (FPath × Option String)
  | .exit _ => []
  | .create _ next => versionsOf next
  | .fill p (.json (.obj o)) next => (p, (o.lookup "specVersion").bind fun
    | .str s => some s
    | _ => none) :: versionsOf next
  | .fill p _ next => (p, none) :: versionsOf next

/-- The files of the example are the same for 1.3 and 1.5, but for the version. -/
example : versionsOf (mainProgram exampleWorld exampleArgs) =
      [(["w", "root.cdx.json"], some "1.3"), (["home", ".cargo", "z", "z.cdx.json"], some "1.3")] ∧
    versionsOf (mainProgram exampleWorld { exampleArgs with specVersion := some .v1_5 }) =
      [(["w", "root.cdx.json"], some "1.5"), (["home", ".cargo", "z", "z.cdx.json"], some "1.5")] := by
  decide +kernel

end Cdx.Props
