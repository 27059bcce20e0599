import Verif.Props.Run

/-!
# C108: an SBOM names the tool and the platform it was made for
-/

namespace Cdx.Props

open Spec OMap

/-- What an SBOM says about its platform: a target triple, or all of them. -/
def platformNote : Option String → Properties
  | some t => [{ name := "cdx:rustc:sbom:target:triple", value := normalizedString t }]
  | none => [{ name := "cdx:rustc:sbom:target:all_targets", value := "true" }]

/-- How cargo is asked to resolve for a platform, or for all of them. -/
def platformOption : Option String → List String
  | some t => ["--filter-platform", t]
  | none => []

/-- What an SBOM says about the tool of the given version. -/
def toolNote (version : String) : Tool :=
  { vendor := some "CycloneDX", name := some "cargo-cyclonedx", version := some (normalizedString version) }

/-- The platform of a configuration. -/
private def ofTarget : TargetPlatform → Option String
  | .singleTarget t => some t
  | .allTargets => none

private theorem bom_metadata {env : Env} {md : CargoMetadata} {config : SbomConfig} {l : List GeneratedSbom}
    (h : createSboms env md config = .ok l) {s : GeneratedSbom} (hs : s ∈ l) :
    ∃ m props, s.bom.metadata = some m ∧ targetProperties config = .ok props ∧ m.properties = some props ∧
      m.tools = some (.list [Tool.new "CycloneDX" "cargo-cyclonedx" env.toolVersion]) := by
  unfold createSboms at h
  simp only at h
  split at h
  · exact nomatch h
  · obtain ⟨hlen, hl⟩ := createSbomsLoop_ok h
    obtain ⟨j, hj⟩ := List.mem_iff_getElem?.1 hs
    have hlt := (List.getElem?_eq_some_iff.1 hj).1
    obtain ⟨m, hm⟩ : ∃ m, md.workspaceMembers[j]? = some m := ⟨_, List.getElem?_eq_getElem (by omega)⟩
    have hc := hl j m s hm hj
    unfold createSbom at hc
    simp only [Res.bind_ok] at hc
    obtain ⟨_, -, _, -, pkg, -, r, hr, hc⟩ := hc
    cases hc
    unfold createBom at hr
    simp only [Res.bind_ok] at hr
    obtain ⟨_, -, _, -, mt, hmt, hr⟩ := hr
    cases hr
    obtain ⟨ts, top, props, -, -, hp, e⟩ := createMetadata_ok hmt
    exact ⟨mt.1, props, rfl, hp, by rw [e], by rw [e]⟩

/-- C108: all SBOMs of a run name the tool with its version, and as their platform the one that cargo was
asked to resolve the dependencies for. -/
theorem C108_platform (W : World) (a : Args) {l : List GeneratedSbom} (h : W.generateSboms a = .ok l) :
    ∃ manifest command md platform, W.cargo manifest command = .ok md ∧
      command.otherOptions = platformOption platform ∧
      l.length = md.workspaceMembers.length ∧
      (∀ s ∈ l, ∃ m, s.bom.metadata = some m ∧ m.properties = some (platformNote platform) ∧
        m.tools = some (.list [toolNote W.env.toolVersion])) ∧
      (∀ t, W.buildTarget = some t → platform = some t) ∧
      (W.buildTarget = none → a.target = some "all" → platform = none) ∧
      (∀ t, W.buildTarget = none → a.target = some t → t ≠ "all" → platform = some t) ∧
      (W.buildTarget = none → a.target = none → ∃ t, W.hostPlatform = .ok t ∧ platform = some t) := by
  unfold World.generateSboms at h
  simp only [Res.bind_ok] at h
  obtain ⟨config, hc, manifest, -, md, hm, h⟩ := h
  have hcargo : W.cargo manifest (metadataCommand a config) = .ok md := by
    unfold World.getMetadata at hm
    split at hm
    · next e => cases hm; exact e
    · exact nomatch hm
  have hlen : l.length = md.workspaceMembers.length := by
    have h := h
    unfold createSboms at h
    simp only at h
    split at h
    · exact nomatch h
    · exact (createSbomsLoop_ok h).1
  have ht : ∃ x, config.target = some x ∧ (∀ t, W.buildTarget = some t → x = .singleTarget t) ∧
      (W.buildTarget = none → a.target = some "all" → x = .allTargets) ∧
      (∀ t, W.buildTarget = none → a.target = some t → t ≠ "all" → x = .singleTarget t) ∧
      (W.buildTarget = none → a.target = none → ∃ t, W.hostPlatform = .ok t ∧ x = .singleTarget t) := by
    unfold World.resolveConfig at hc
    split at hc
    · exact nomatch hc
    · next cli hcli =>
      have htc : cli.target = a.target.map fun t => if t = "all" then .allTargets else .singleTarget t := by
        unfold Args.asConfig at hcli
        cases hf : a.filenamePattern with
        | error e => rw [hf] at hcli; exact nomatch hcli
        | ok f => rw [hf] at hcli; cases hcli; rfl
      have hmt : (cli.merge (SbomConfig.fromEnv W.buildTarget)).target =
          (W.buildTarget.map TargetPlatform.singleTarget).or cli.target := rfl
      simp only [hmt, htc] at hc
      cases hb : W.buildTarget with
      | some t =>
        simp only [hb, Option.map_some, Option.some_or, Option.isNone_some, Bool.false_eq_true, if_false] at hc
        cases hc
        refine ⟨.singleTarget t, rfl, ?_, ?_, ?_, ?_⟩ <;> simp
      | none =>
        cases ha : a.target with
        | some t =>
          simp only [hb, ha, Option.map_none, Option.none_or, Option.map_some, Option.isNone_some, Bool.false_eq_true,
            if_false] at hc
          cases hc
          refine ⟨if t = "all" then .allTargets else .singleTarget t, ?_, ?_, ?_, ?_, ?_⟩
          · change (none : Option TargetPlatform).or cli.target = _
            rw [htc, ha]
            rfl
          · simp
          · intro _ e; cases e; rfl
          · intro t' _ e hne; cases e; exact if_neg hne
          · intro _ e; exact nomatch e
        | none =>
          simp only [hb, ha, Option.map_none, Option.none_or, Option.isNone_none, if_true, Res.bind_ok] at hc
          obtain ⟨host, hh, hc⟩ := hc
          cases hc
          refine ⟨.singleTarget host, rfl, ?_, ?_, ?_, ?_⟩
          · simp
          · intro _ e; exact nomatch e
          · intro _ _ e; exact nomatch e
          · exact fun _ _ => ⟨host, hh, rfl⟩
  obtain ⟨x, hx, t1, t2, t3, t4⟩ := ht
  refine ⟨manifest, metadataCommand a config, md, ofTarget x, hcargo, ?_, hlen, ?_, ?_, ?_, ?_, ?_⟩
  · unfold metadataCommand
    rw [hx]
    cases x <;> rfl
  · intro s hs
    obtain ⟨m, props, hmd, hp, hpr, htl⟩ := bom_metadata h hs
    refine ⟨m, hmd, ?_, ?_⟩
    · rw [hpr]
      unfold targetProperties at hp
      rw [hx] at hp
      cases x with
      | singleTarget t => cases hp; rfl
      | allTargets => cases hp; decide
    · rw [htl]
      have e : Tool.new "CycloneDX" "cargo-cyclonedx" W.env.toolVersion = toolNote W.env.toolVersion := by
        have e1 : normalizedString "CycloneDX" = "CycloneDX" := by decide
        have e2 : normalizedString "cargo-cyclonedx" = "cargo-cyclonedx" := by decide
        unfold Tool.new toolNote
        rw [e1, e2]
      rw [e]
  · intro t hb; rw [t1 t hb]; rfl
  · intro hb ha; rw [t2 hb ha]; rfl
  · intro t hb ha hne; rw [t3 t hb ha hne]; rfl
  · intro hb ha
    obtain ⟨t, hh, e⟩ := t4 hb ha
    exact ⟨t, hh, by rw [e]; rfl⟩

/-! ### Non-vacuity -/

/-- The metadata properties of the SBOMs of a run. -/
def platformsOf : Res (List GeneratedSbom) → List (Option Properties)
  | .ok l => l.map fun s => s.bom.metadata.bind (·.properties)
  | .error _ => []

/-- The example where cargo answers for all platforms. -/
def openWorld : World := { exampleWorld with cargo := fun _ _ => .ok twoMembers }

/-- Runs of the example for the host, for one platform and for all of them. -/
example : platformsOf (openWorld.generateSboms exampleArgs) =
      List.replicate 2 (some (platformNote (some "x86_64-unknown-linux-gnu"))) ∧
    platformsOf (openWorld.generateSboms { exampleArgs with target := some "wasm32-wasi" }) =
      List.replicate 2 (some (platformNote (some "wasm32-wasi"))) ∧
    platformsOf (openWorld.generateSboms { exampleArgs with target := some "all" }) =
      List.replicate 2 (some (platformNote none)) := by
  decide +kernel

end Cdx.Props
