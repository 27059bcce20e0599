import Verif.Lemmas.Options
import Verif.Props.Run

/-!
# C101: each option changes only what it is about
-/

namespace Cdx.Props

open Spec

variable {W : World} {a : Args}

/-- C101: the options for licenses have no influence on anything in the SBOMs but the licenses of components,
nor on whether generation fails, and how. -/
theorem C101_licenses (W : World) (a : Args) (x : Bool) (n : List String) :
    (W.generateSboms { a with licenseStrict := x, licenseAcceptNamed := n }).map (List.map unlicensedContent) =
      (W.generateSboms a).map (List.map unlicensedContent) := by
  unfold World.generateSboms
  rw [resolveConfig_licensed]
  cases W.resolveConfig a with
  | error e => rfl
  | ok c =>
    show (W.locateManifest a >>= fun m => W.getMetadata a m c >>= fun md =>
      createSboms W.env md (c.licensed _)).map _ = (W.locateManifest a >>= fun m => W.getMetadata a m c >>= fun md =>
      createSboms W.env md c).map _
    cases W.locateManifest a with
    | error e => rfl
    | ok m =>
      show (W.getMetadata a m c >>= _).map _ = (W.getMetadata a m c >>= _).map _
      cases W.getMetadata a m c with
      | error e => rfl
      | ok md => exact createSboms_licensed _ _

/-- C101: with the options for dependencies, packages are left out, but nothing else changes: next to a run
that lists all dependencies, `--top-level` and `--no-build-deps` give as many SBOMs, each about the same
package with the same metadata and serial number, and with components that are all, to the last field,
components of the full SBOM. -/
theorem C101_dependencies (hmd : ∀ config md, Asked W a config md → ∃ nodes, MetadataOk md nodes)
    (hacc : a.accepted = true) (htop : a.topLevel = false) (hbuild : a.noBuildDeps = false) {x y n : Bool}
    {l l' : List GeneratedSbom} (h : W.generateSboms a = .ok l)
    (h' : W.generateSboms { a with all := x, topLevel := y, noBuildDeps := n } = .ok l') :
    l'.length = l.length ∧ ∀ (i : Nat) (s s' : GeneratedSbom), l[i]? = some s → l'[i]? = some s' →
      s'.manifestPath = s.manifestPath ∧ s'.packageName = s.packageName ∧ s'.targetKinds = s.targetKinds ∧
      s'.bom.metadata = s.bom.metadata ∧ s'.bom.serialNumber = s.bom.serialNumber ∧
      ∀ c ∈ components s'.bom, c ∈ components s.bom := by
  unfold World.generateSboms at h h'
  rw [resolveConfig_restricted] at h'
  simp only [Res.bind_ok] at h h'
  obtain ⟨config, h1, m, h2, md, h3, h4⟩ := h
  obtain ⟨config', h1', m', h2', md', h3', h4'⟩ := h'
  rw [h1] at h1'
  simp only [Except.map, Except.ok.injEq] at h1'
  have hm : m' = m := Except.ok.inj (h2'.symm.trans h2)
  subst hm
  have hlic : config'.licenseParser = config.licenseParser := by rw [← h1']
  have htgt : config'.target = config.target := by rw [← h1']
  have hft : config'.features = config.features := by rw [← h1']
  have hmd' : md' = md := by
    refine Except.ok.inj (h3'.symm.trans (Eq.trans ?_ h3))
    unfold World.getMetadata metadataCommand
    rw [htgt, hft]
  subst hmd'
  have hask : Asked W a config md' := by
    refine ⟨hacc, h1, m', h2, ?_⟩
    unfold World.getMetadata at h3
    split at h3
    · next z h' => cases h3; exact h'
    · cases h3
  obtain ⟨nodes, hok⟩ := hmd config md' hask
  have hfull : AllMode config ∧ noBuildDeps config = false := by
    unfold World.resolveConfig Args.asConfig at h1
    cases hn : a.filenamePattern with
    | error e => rw [hn] at h1; exact nomatch h1
    | ok f =>
      rw [hn] at h1
      simp only [Except.map] at h1
      have hi : ((a.configWith f).merge (SbomConfig.fromEnv W.buildTarget)).includedDependencies ≠
          some .topLevelDependencies := by
        show (match a.all, a.topLevel with
          | true, _ => some IncludedDependencies.allDependencies
          | _, true => some .topLevelDependencies
          | _, _ => none) ≠ _
        rw [htop]
        cases a.all <;> decide
      have hb : ((a.configWith f).merge (SbomConfig.fromEnv W.buildTarget)).onlyNormalDeps = some false := by
        show some a.noBuildDeps = _
        rw [hbuild]
      split at h1
      · simp only [Res.bind_ok] at h1
        obtain ⟨host, -, h1⟩ := h1
        cases h1
        exact ⟨hi, by simp [noBuildDeps, hb]⟩
      · cases h1
        exact ⟨hi, by simp [noBuildDeps, hb]⟩
  have e1 := (C22_one_per_member hok h4).1
  have e2 := (C22_one_per_member hok h4').1
  refine ⟨by rw [e1, e2], fun i s s' hs hs' => ?_⟩
  have hi : i < md'.workspaceMembers.length := by
    rw [← e1]; exact (List.getElem?_eq_some_iff.1 hs).1
  exact restricted hok hfull.1 hfull.2 hlic htgt h4 h4' hs hs' (List.getElem?_eq_getElem hi)

/-- C101: names that are accepted as licenses have no influence on the SBOMs at all: they only silence
warnings. -/
theorem C101_accept_named (W : World) (a : Args) (n : List String) :
    (W.generateSboms { a with licenseAcceptNamed := n }).map (List.map content) =
      (W.generateSboms a).map (List.map content) := by
  have hr := resolveConfig_licensed (W := W) (a := a) (x := a.licenseStrict) (n := n)
  have he : ({ a with licenseStrict := a.licenseStrict, licenseAcceptNamed := n } : Args) =
    { a with licenseAcceptNamed := n } := rfl
  rw [he] at hr
  unfold World.generateSboms
  rw [hr]
  cases hc : W.resolveConfig a with
  | error e => rfl
  | ok c =>
    show (W.locateManifest a >>= fun m => W.getMetadata a m c >>= fun md =>
      createSboms W.env md (c.licensed _)).map _ = (W.locateManifest a >>= fun m => W.getMetadata a m c >>= fun md =>
      createSboms W.env md c).map _
    cases W.locateManifest a with
    | error e => rfl
    | ok m =>
      show (W.getMetadata a m c >>= _).map _ = (W.getMetadata a m c >>= _).map _
      cases W.getMetadata a m c with
      | error e => rfl
      | ok md =>
        refine createSboms_named ?_ _ _
        have hl : c.licenseParser = some ⟨if a.licenseStrict then .strict else .lax, a.licenseAcceptNamed⟩ := by
          unfold World.resolveConfig Args.asConfig at hc
          cases hn : a.filenamePattern with
          | error e => rw [hn] at hc; exact nomatch hc
          | ok f =>
            rw [hn] at hc
            simp only [Except.map] at hc
            split at hc
            · simp only [Res.bind_ok] at hc
              obtain ⟨host, -, hc⟩ := hc
              cases hc
              rfl
            · cases hc
              rfl
        rw [hl]
        rfl

/-- C101: how much is logged has no influence on what a run does, if what cargo answers does not depend on
it. -/
theorem C101_verbosity [F32Format] (hc : ∀ m c b, W.cargo m { c with verbose := b } = W.cargo m c) (v q : Nat) :
    mainProgram W { a with verbose := v, quiet := q } = mainProgram W a := by
  have hg : W.generateSboms { a with verbose := v, quiet := q } = W.generateSboms a := by
    unfold World.generateSboms
    show (W.resolveConfig a >>= fun c => W.locateManifest a >>= fun m =>
      W.getMetadata { a with verbose := v, quiet := q } m c >>= _) = _
    have hm : ∀ m c, W.getMetadata { a with verbose := v, quiet := q } m c = W.getMetadata a m c := by
      intro m c
      unfold World.getMetadata
      rw [show metadataCommand { a with verbose := v, quiet := q } c =
        { metadataCommand a c with verbose := q == 0 } from rfl, hc]
    simp only [hm]
  unfold mainProgram
  rw [hg]
  rfl

/-! ### Non-vacuity -/

attribute [local instance] Example.f32 Example.limit

/-- The names of the components of the SBOMs of a run. -/
def listedNames : Res (List GeneratedSbom) → List (List String)
  | .ok l => l.map fun s => (components s.bom).map (·.name)
  | .error _ => []

/-- The license expressions of the components that the SBOMs of a run are about. -/
def topExpressions : Res (List GeneratedSbom) → List (List String)
  | .ok l => l.map fun s => ((topComponent s.bom).bind (·.licenses)).getD [] |>.filterMap fun
    | .expression e => some e.expression
    | .license _ => none
  | .error _ => []

/-- The example meets the hypotheses: whatever cargo answers in it is consistent and does not depend on
verbosity, and by default all dependencies are listed. -/
example : (∀ config md, Asked exampleWorld exampleArgs config md → ∃ nodes, MetadataOk md nodes) ∧
    exampleArgs.accepted = true ∧ exampleArgs.topLevel = false ∧ exampleArgs.noBuildDeps = false ∧
    (∃ l, exampleWorld.generateSboms exampleArgs = .ok l ∧ l.length = 2) ∧
    (∃ l, exampleWorld.generateSboms { exampleArgs with all := false, topLevel := true, noBuildDeps := true } = .ok l ∧
      l.length = 2) ∧
    ∀ m c b, exampleWorld.cargo m { c with verbose := b } = exampleWorld.cargo m c := by
  refine ⟨?_, rfl, rfl, rfl, ⟨_, rfl, rfl⟩, ⟨_, rfl, rfl⟩, fun _ _ _ => rfl⟩
  rintro config md ⟨-, -, m, -, h⟩
  change (if _ then Except.ok twoMembers else _) = _ at h
  split at h
  · cases h
    exact ⟨_, example_metadataOk⟩
  · exact nomatch h

/-- In the example, options for dependencies leave out components, and strict parsing of licenses gives
another license. -/
example : listedNames (exampleWorld.generateSboms exampleArgs) = [["a", "b", "c"], []] ∧
    listedNames (exampleWorld.generateSboms { exampleArgs with topLevel := true }) = [["a", "b"], []] ∧
    listedNames (exampleWorld.generateSboms { exampleArgs with noBuildDeps := true }) = [["a"], []] ∧
    topExpressions (exampleWorld.generateSboms exampleArgs) = [["MIT OR Apache-2.0"], []] ∧
    topExpressions (exampleWorld.generateSboms { exampleArgs with licenseStrict := true }) = [[], []] := by
  decide +kernel

end Cdx.Props
