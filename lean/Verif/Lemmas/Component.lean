import Verif.Lemmas.Total

/-!
# The components of a generated SBOM
-/

set_option linter.unusedSectionVars false
set_option linter.unusedSimpArgs false

namespace Cdx
open OMap

/-- All fields of a component made by `create_component` for package `p`, except type, scope
and subcomponents. -/
structure ComponentOf (env : Env) (config : SbomConfig) (ws : FPath) (rootPkg p : Package)
    (c : Component) : Prop where
  ref : c.bomRef = some p.id
  name : c.name = normalizedString (trim p.name)
  version : c.version = some (normalizedString p.version)
  purl : getPurl env p rootPkg ws none = .ok c.purl
  refs : c.externalReferences = getExternalReferences env p
  licenses : c.licenses = getLicenses env config p
  hashes : c.hashes = getHashes (memberHashes env rootPkg.manifestPath) p
  description : c.description = p.description.map normalizedString
  author : c.author = if p.authors.isEmpty then none
    else some (normalizedString (joinStr ", " p.authors))

theorem createComponent_of {env : Env} {config : SbomConfig} {ws : FPath} {root p : Package}
    {kinds : DependencyKindMap} {c : Component}
    (h : createComponent env ⟨config, ws, memberHashes env root.manifestPath⟩ p root kinds = .ok c) :
    ComponentOf env config ws root p c := by
  unfold createComponent at h
  simp only [Res.bind_ok] at h
  obtain ⟨purl, h1, h2⟩ := h
  cases h2
  exact ⟨rfl, rfl, rfl, h1, rfl, rfl, rfl, rfl, rfl⟩

/-- The top-level component and every listed component describe packages of the metadata. -/
theorem described {env : Env} {md : CargoMetadata} {nodes : List Node}
    (hmd : Spec.MetadataOk md nodes) {config : SbomConfig} {sboms : List GeneratedSbom}
    (h : createSboms env md config = .ok sboms) {s : GeneratedSbom} {root : PackageId}
    (hs : Spec.At sboms s md.workspaceMembers root) :
    ∃ rp ∈ md.packages, rp.id = root ∧
      (∃ top, Spec.topComponent s.bom = some top ∧
        ComponentOf env config md.workspaceRoot rp rp top) ∧
      ∀ c ∈ Spec.components s.bom, ∃ p ∈ md.packages,
        ComponentOf env config md.workspaceRoot rp p c := by
  obtain ⟨i, kinds, pr, pkg, comps, m, h1, h2, sh, sel⟩ := sbom_shape hmd h hs
  obtain ⟨a, b⟩ := (lookup_indexPackages hmd.packagesNodup).1 sh.pkgOk
  refine ⟨pkg, a, b, ?_, ?_⟩
  · obtain ⟨ts, top, props, _, m2, _, m4⟩ := createMetadata_ok sh.mdOk
    obtain ⟨top', subs, t1, t2, t3⟩ := createToplevel_ok m2
    simp only at m4 t3
    refine ⟨top, by simp [Spec.topComponent, sh.bom, m4], ?_⟩
    obtain ⟨e1, e2, e3, e4, e5, e6, e7, e8, e9⟩ := createComponent_of t1
    rw [t3]
    exact ⟨e1, e2, e3, e4, e5, e6, e7, e8, e9⟩
  · intro c hc
    have hc' : c ∈ comps := by simpa [Spec.components, sh.bom] using hc
    obtain ⟨p, hp, hpc⟩ := Rel₂.mem_right sh.compsOk hc'
    obtain ⟨kv, hkv, rfl⟩ := List.mem_map.1 (List.mem_filter.1 hp).1
    have hl := (lookup_iff_mem sel.sorted₁).2 (show (kv.1, kv.2) ∈ pr.1 from hkv)
    obtain ⟨hl1, _⟩ := (sel.pkgs _ _).1 hl
    obtain ⟨hmem, _⟩ := (lookup_indexPackages hmd.packagesNodup).1 hl1
    exact ⟨_, hmem, createComponent_of hpc⟩

end Cdx
