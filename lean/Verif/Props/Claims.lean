import Verif.Props.Graph

/-!
# C109: an SBOM says nothing beyond what the tool finds out
-/

namespace Cdx.Props

open Spec OMap

/-- A component of a package: only these fields may be set. -/
def PackageFields (c : Component) : Prop :=
  c = { componentType := c.componentType, bomRef := c.bomRef, name := c.name, version := c.version,
        author := c.author, description := c.description, scope := c.scope, hashes := c.hashes,
        licenses := c.licenses, purl := c.purl, externalReferences := c.externalReferences,
        components := c.components }

/-- A component of a target: only these fields may be set. -/
def TargetFields (c : Component) : Prop :=
  c = { componentType := c.componentType, bomRef := c.bomRef, name := c.name, version := c.version, purl := c.purl }

variable {env : Env} {md : CargoMetadata} {config : SbomConfig} {l : List GeneratedSbom}

private theorem component_fields {g : SbomGenerator} {p r : Package} {k : DependencyKindMap} {c : Component}
    (h : createComponent env g p r k = .ok c) : PackageFields c ∧ c.components = none ∧ c.componentType = .library := by
  obtain ⟨purl, -, e⟩ := createComponent_ok h
  subst e
  exact ⟨rfl, rfl, rfl⟩

private theorem target_fields {g : SbomGenerator} {p : Package} {t : Target} {k : Classification} {ref : String}
    {c : Component} (h : createSubcomponent env g p t k ref = .ok c) : TargetFields c := by
  unfold createSubcomponent at h
  simp only at h
  split at h
  · exact nomatch h
  · split at h
    · simp only [Res.bind_ok] at h
      obtain ⟨_, -, h⟩ := h
      cases h
      rfl
    · cases h
      rfl

private theorem targets_fields {g : SbomGenerator} {p : Package} {ref : String} : ∀ {ts : List Target}
    {subs : List Component} {kinds : TargetKinds} {r : List Component × TargetKinds},
    targetLoop env g p ref ts subs kinds = .ok r → (∀ c ∈ subs, TargetFields c) → ∀ c ∈ r.1, TargetFields c
  | [], _, _, _, h, hs => by cases h; exact hs
  | t :: ts, subs, kinds, r, h, hs => by
    unfold targetLoop at h
    split at h
    · exact targets_fields h hs
    · simp only [Res.bind_ok] at h
      obtain ⟨sub, hsub, h⟩ := h
      refine targets_fields h ?_
      intro c hc
      rcases List.mem_append.1 hc with hc | hc
      · exact hs c hc
      · cases List.mem_singleton.1 hc
        exact target_fields hsub

/-- C109: a generated SBOM is the first version of a document with metadata, components and dependencies, and
nothing else. Its metadata has a time, the tool, authors, the component it is about, and the platform, and
nothing else; its components have only what the tool finds out about packages; the targets of the component
it is about have no more than a name, version, type, reference and package URL. -/
theorem C109_nothing_else (h : createSboms env md config = .ok l) : ∀ s ∈ l, ∃ m top subs comps,
    s.bom = { version := 1, specVersion := .v1_3, serialNumber := s.bom.serialNumber, metadata := some m,
              components := some comps, dependencies := s.bom.dependencies } ∧
    m = { timestamp := m.timestamp, tools := m.tools, authors := m.authors, component := some top,
          properties := m.properties } ∧
    PackageFields top ∧ top.components = some subs ∧ (∀ c ∈ subs, TargetFields c) ∧
    ∀ c ∈ comps, PackageFields c ∧ c.components = none ∧ c.componentType = .library := by
  intro s hs
  unfold createSboms at h
  simp only at h
  split at h
  · exact nomatch h
  · obtain ⟨hlen, hl⟩ := createSbomsLoop_ok h
    obtain ⟨j, hj⟩ := List.mem_iff_getElem?.1 hs
    have hlt := (List.getElem?_eq_some_iff.1 hj).1
    obtain ⟨mem, hm⟩ : ∃ m, md.workspaceMembers[j]? = some m := ⟨_, List.getElem?_eq_getElem (by omega)⟩
    have hc := hl j mem s hm hj
    unfold createSbom at hc
    simp only [Res.bind_ok] at hc
    obtain ⟨_, -, _, -, pkg, -, r, hr, hc⟩ := hc
    cases hc
    unfold createBom at hr
    simp only [Res.bind_ok] at hr
    obtain ⟨root, -, comps, hcomps, mt, hmt, hr⟩ := hr
    cases hr
    obtain ⟨ts, top, props, -, htop, -, e⟩ := createMetadata_ok hmt
    obtain ⟨t0, subs, ht0, hsubs, etop⟩ := createToplevel_ok htop
    obtain ⟨f1, f2, -⟩ := component_fields ht0
    refine ⟨mt.1, top, subs, comps, ?_, by rw [e], ?_, by simp only at etop; rw [etop], ?_, ?_⟩
    · simp only [Bom.default]
      split <;> rfl
    · simp only at etop
      unfold PackageFields at f1 ⊢
      rw [etop]
      rw [f1]
    · exact targets_fields hsubs (by simp)
    · intro c hc
      obtain ⟨p, -, hp⟩ := Rel₂.mem_right (mapM_ok hcomps) hc
      exact component_fields hp

/-! ### Non-vacuity -/

/-- The example has an SBOM with targets and components, whose optional fields are set in part. -/
example : ∃ s, createSboms Example.env Example.md Example.config = .ok [s] ∧
    (components s.bom).map (fun c => (c.name, c.purl.isSome, c.scope.isSome, c.group.isSome)) =
      [("a", true, true, false), ("b", true, true, false), ("c", true, true, false)] ∧
    ((topComponent s.bom).bind (·.components)).map List.length = some 2 :=
  ⟨_, rfl, by decide +kernel, by decide +kernel⟩

end Cdx.Props
