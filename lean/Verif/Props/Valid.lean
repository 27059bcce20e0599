import Verif.Lemmas.Valid
import Verif.Props.Files
import Verif.Props.Example

/-!
# C57: generated SBOMs pass validation
-/

namespace Cdx.Props

open Cdx.Spec

variable {env : Env} {E : VEnv} {md : CargoMetadata} {config : SbomConfig}
  {sboms : List GeneratedSbom} {nodes : List Node} {s : GeneratedSbom} {root : PackageId}

/-- Everything about the shape of a generated SBOM that validity needs. -/
theorem generated_parts (hmd : MetadataOk md nodes) (ag : Agree env E) (rv : RendersValid env)
    {v : SpecVersion} (hl : ∀ p, Describes md s.bom p → LinksOk env v p)
    (h : createSboms env md config = .ok sboms) (hs : At sboms s md.workspaceMembers root) :
    ∃ m top subs comps, s.bom.metadata = some m ∧ PlainMetadata E v m ∧ m.component = some top ∧
      PlainComponent env E v top ∧ top.components = some subs ∧
      (∀ c ∈ subs, PlainComponent env E v c ∧ c.components = none) ∧
      s.bom.components = some comps ∧
      (∀ c ∈ comps, PlainComponent env E v c ∧ c.components = none) ∧
      (s.bom.services = none ∧ s.bom.externalReferences = none ∧ s.bom.compositions = none ∧
        s.bom.properties = none ∧ s.bom.vulnerabilities = none) ∧
      (∀ u, s.bom.serialNumber = some u → validateUrnUuid u = .ok ()) := by
  obtain ⟨i, kinds, pr, pkg, comps, m, h1, h2, sh, sel⟩ := sbom_shape hmd h hs
  have hin : ∀ id p, (indexPackages md.packages).lookup id = some p → p ∈ md.packages := by
    intro id p hp
    have := mem_ofList (OMap.lookup_mem hp)
    simp only [List.mem_map, Prod.mk.injEq] at this
    obtain ⟨a, ha, _, rfl⟩ := this
    exact ha
  have htop : topRef s.bom = some pkg.id := by
    obtain ⟨ts, top, props, _, m2, _, m4⟩ := createMetadata_ok sh.mdOk
    obtain ⟨top', subs, t1, _, t3⟩ := createToplevel_ok m2
    obtain ⟨_, _, e⟩ := createComponent_ok t1
    simp only at m4 t3
    simp [topRef, topComponent, sh.bom, m4, t3, e, Component.new]
  obtain ⟨hpm, top, subs, t1, t2, t3, _, t5⟩ :=
    createMetadata_plain ag v rv.purl rv.now (hl _ ⟨hin _ _ sh.pkgOk, .inl htop⟩) sh.mdOk
  refine ⟨m, top, subs, comps, by rw [sh.bom], hpm, t1, t2, t3, t5, by rw [sh.bom], ?_, ?_, ?_⟩
  · intro c hc
    obtain ⟨p, hp, hpc⟩ := sh.compsOk.mem_right hc
    have hpm : p ∈ md.packages := by
      obtain ⟨hp, _⟩ := List.mem_filter.mp hp
      simp only [OMap.values, List.mem_map] at hp
      obtain ⟨kv, hkv, rfl⟩ := hp
      have := (OMap.lookup_iff_mem sel.sorted₁).2 (show (kv.1, kv.2) ∈ pr.1 from hkv)
      exact hin _ _ ((sel.pkgs _ _).1 this).1
    have href : c.bomRef = some p.id := by
      obtain ⟨_, _, e⟩ := createComponent_ok hpc
      rw [e]; rfl
    have := createComponent_plain ag v rv.purl (hl p ⟨hpm, .inr (by
      simp only [componentRefs, components, sh.bom, Option.getD_some]
      exact List.mem_map.mpr ⟨c, hc, href⟩)⟩) hpc
    exact ⟨this.1, this.2.1⟩
  · rw [sh.bom]; exact ⟨rfl, rfl, rfl, rfl, rfl⟩
  · intro u hu
    exact (C56_serial_valid hmd h i h1 u hu).2

/-- If a component of the SBOM passes, the URLs of its package are as they should be. -/
theorem links_of_component {g : SbomGenerator} {p r : Package} {kinds : DependencyKindMap}
    {c c' : Component} {v : SpecVersion} (h : createComponent env g p r kinds = .ok c)
    (hr : c'.externalReferences = c.externalReferences) (hp : (Elem.component c').Passes E v) :
    LinksOk env v p := by
  obtain ⟨_, _, e⟩ := createComponent_ok h
  refine links_of_passes v fun refs hrefs x hx => ((Elem.passes_iff E v _).mp hp).2 _ ?_
  rw [checked_component, hr, e]
  simp only [hrefs, List.mem_append, many, List.mem_map]
  exact .inl (.inl (.inl (.inr ⟨x, hx, rfl⟩)))

/-- The same for the whole SBOM, and for the SBOMs of its artifacts. -/
theorem links_of_valid (hmd : MetadataOk md nodes) (h : createSboms env md config = .ok sboms)
    (hs : At sboms s md.workspaceMembers root) {v : SpecVersion} {b : Bom} {top top' : Component}
    (htop : topComponent s.bom = some top) (htop' : topComponent b = some top')
    (hr : top'.externalReferences = top.externalReferences) (hc : b.components = s.bom.components)
    (hv : Bom.validateVersion E v b = .ok []) : ∀ p, Describes md s.bom p → LinksOk env v p := by
  obtain ⟨i, kinds, pr, pkg, comps, m, h1, h2, sh, sel⟩ := sbom_shape hmd h hs
  have hp := ((Elem.passes_iff E v _).mp ((passes_bom E v b).mpr hv)).2
  rw [checked_bom] at hp
  have huniq : ∀ p q, p ∈ md.packages → q ∈ md.packages → p.id = q.id → p = q := by
    intro p q hp hq e
    have a := (lookup_indexPackages hmd.packagesNodup).2 ⟨hp, rfl⟩
    have b := (lookup_indexPackages hmd.packagesNodup).2 ⟨hq, rfl⟩
    rw [e, b] at a
    exact (Option.some.inj a).symm
  rintro p ⟨hpm, hp1 | hp1⟩
  · obtain ⟨ts, top₀, props, _, m2, _, m4⟩ := createMetadata_ok sh.mdOk
    obtain ⟨top₁, subs, t1, _, t3⟩ := createToplevel_ok m2
    simp only at m4 t3
    have e0 : topComponent s.bom = some top₀ := by simp [topComponent, sh.bom, m4]
    rw [e0] at htop
    cases htop
    have hid : pkg.id = p.id := by
      obtain ⟨_, _, e⟩ := createComponent_ok t1
      simpa [topRef, e0, t3, e, Component.new] using hp1
    have hpk := ((lookup_indexPackages hmd.packagesNodup).1 sh.pkgOk).1
    cases huniq _ _ hpk hpm hid
    obtain ⟨m', hm', hm''⟩ : ∃ m', b.metadata = some m' ∧ m'.component = some top' := by
      unfold topComponent at htop'
      cases hb : b.metadata with
      | none => rw [hb] at htop'; cases htop'
      | some m' => rw [hb] at htop'; exact ⟨m', rfl, htop'⟩
    have hpm' := hp (.metadata m') (by simp [hm', opt])
    have := ((Elem.passes_iff E v _).mp hpm').2 (.component top') (by
      rw [checked_metadata]; simp [hm'', opt])
    exact links_of_component t1 (by rw [hr, t3]) this
  · have hcs : s.bom.components = some comps := by rw [sh.bom]
    simp only [componentRefs, components, hcs, Option.getD_some, List.mem_map] at hp1
    obtain ⟨c, hc', hid⟩ := hp1
    obtain ⟨q, hq, hqc⟩ := sh.compsOk.mem_right hc'
    have hqm : q ∈ md.packages := by
      obtain ⟨hq, _⟩ := List.mem_filter.mp hq
      simp only [OMap.values, List.mem_map] at hq
      obtain ⟨kv, hkv, rfl⟩ := hq
      have := (OMap.lookup_iff_mem sel.sorted₁).2 (show (kv.1, kv.2) ∈ pr.1 from hkv)
      exact ((lookup_indexPackages hmd.packagesNodup).1 ((sel.pkgs _ _).1 this).1).1
    have hqid : q.id = p.id := by
      obtain ⟨_, _, e⟩ := createComponent_ok hqc
      rw [e] at hid
      exact Option.some.inj hid
    cases huniq _ _ hqm hpm hqid
    exact links_of_component hqc rfl (hp (.component c) (by
      rw [hc, hcs]
      simp only [List.mem_append, many, List.mem_map]
      simp [hc']))

/-- C57: a generated SBOM passes validation, in a version of the specification, exactly if every
well-formed URL of the packages that it describes that starts with `urn:cdx` is a BOM-Link, and the
version has BOM-Links. -/
theorem C57_exact (hmd : MetadataOk md nodes) (ag : Agree env E)
    (rv : RendersValid env) (h : createSboms env md config = .ok sboms)
    (hs : At sboms s md.workspaceMembers root)
    (hform : ∀ n ∈ nodes, ∀ j : Nat, n.id ≠ root ++ " bin-target-" ++ toString j)
    (v : SpecVersion) : Bom.validateVersion E v s.bom = .ok [] ↔
      ∀ p, Describes md s.bom p → LinksOk env v p := by
  obtain ⟨top', subs', b1, b2, b3, b4⟩ := C09_refs_unique hmd h hs hform
  refine ⟨links_of_valid hmd h hs b1 b1 rfl rfl, fun hl => ?_⟩
  obtain ⟨m, top, subs, comps, a1, a2, a3, a4, a5, a6, a7, a8, a9, a10⟩ :=
    generated_parts hmd ag rv hl h hs
  have htop : topComponent s.bom = some top := by simp [topComponent, a1, a3]
  rw [htop] at b1; cases b1
  rw [a5] at b2; cases b2
  have hcr : componentRefs s.bom = comps.map (·.bomRef) := by
    simp [componentRefs, components, a7]
  rw [hcr] at b3 b4
  have h3 := (C03_dependencies_closed hmd h hs).1
  refine generated_passes a10 a1 a2 a3 a4 (by rw [a5]; exact a6) a7 a8 a9
    (by rw [a5]; exact b3) (by rw [a5]; exact b4) ?_
  intro d hd r hr
  have := h3 d hd r hr
  rw [hcr] at this
  simpa [topRef, htop] using this

/-- Without such URLs everything is as it should be. -/
theorem linksOk_of_none {p : Package} (h : NoBomLinks p) (v : SpecVersion) : LinksOk env v p := by
  rintro u hu - ⟨r, hr⟩
  exact absurd (by rw [hr, String.toList_append]) (h u hu r.toList)

/-- C57 (partial): every generated SBOM passes validation, for each version of the
specification, if no URL of a package starts with `urn:cdx`. Missing: packages with such a URL
(`C57_bom_link_refuted`). -/
theorem C57_generated_valid_partial (hmd : MetadataOk md nodes) (ag : Agree env E)
    (rv : RendersValid env) (hl : ∀ p ∈ md.packages, NoBomLinks p)
    (h : createSboms env md config = .ok sboms) (hs : At sboms s md.workspaceMembers root)
    (hform : ∀ n ∈ nodes, ∀ j : Nat, n.id ≠ root ++ " bin-target-" ++ toString j)
    (v : SpecVersion) : Bom.validateVersion E v s.bom = .ok [] :=
  (C57_exact hmd ag rv h hs hform v).mpr fun p hp => linksOk_of_none (hl p hp.1) v

/-- C57: the same for everything written to a file, whatever the SBOM describes (the package, its
binaries or all its targets). -/
theorem C57_written_exact (hmd : MetadataOk md nodes) (ag : Agree env E)
    (rv : RendersValid env) (h : createSboms env md config = .ok sboms)
    (hs : At sboms s md.workspaceMembers root)
    (hform : ∀ n ∈ nodes, ∀ j : Nat, n.id ≠ root ++ " bin-target-" ++ toString j)
    (debug : Bool) (ws : List FileWrite) (hw : writeToFiles debug s = .ok ws) :
    ∀ w ∈ ws, ∀ v : SpecVersion, Bom.validateVersion E v w.bom = .ok [] ↔
      ∀ p, Describes md s.bom p → LinksOk env v p := by
  intro w hwm v
  have hgen := C57_exact hmd ag rv h hs hform v
  obtain ⟨top', subs', b1, b2, b3, b4⟩ := C09_refs_unique hmd h hs hform
  have hart : ∀ d arts, perArtifactSboms s.bom s.targetKinds d = .ok arts →
      artifactWrites debug s arts = .ok ws → (Bom.validateVersion E v w.bom = .ok [] ↔
        ∀ p, Describes md s.bom p → LinksOk env v p) := by
    intro d arts h1 h2
    obtain ⟨x, hx, e⟩ := artifactWrites_mem h2 w hwm
    obtain ⟨m₀, hm₀, hm₁⟩ : ∃ m, s.bom.metadata = some m ∧ m.component = some top' := by
      unfold topComponent at b1
      cases hb : s.bom.metadata with
      | none => rw [hb] at b1; cases b1
      | some m' => rw [hb] at b1; exact ⟨m', rfl, b1⟩
    unfold perArtifactSboms at h1
    simp only [hm₀, hm₁, b2] at h1
    obtain ⟨c, hc, e'⟩ := artifactLoop_mem h1 x hx
    rw [e, e']
    refine ⟨links_of_valid hmd h hs b1 rfl rfl rfl, fun hl => ?_⟩
    obtain ⟨m, top, subs, comps, a1, a2, a3, a4, a5, a6, a7, a8, a9, a10⟩ :=
      generated_parts hmd ag rv hl h hs
    have htop : topComponent s.bom = some top := by simp [topComponent, a1, a3]
    obtain rfl := Option.some.inj (a1.symm.trans hm₀)
    obtain rfl := Option.some.inj (a3.symm.trans hm₁)
    obtain rfl := Option.some.inj (a5.symm.trans b2)
    have hcr : componentRefs s.bom = comps.map (·.bomRef) := by
      simp [componentRefs, components, a7]
    rw [hcr] at b3 b4
    have h3 := (C03_dependencies_closed hmd h hs).1
    have hsub : (top.bomRef :: comps.map (·.bomRef)).Sublist
        (top.bomRef :: subs.map (·.bomRef) ++ comps.map (·.bomRef)) :=
      List.Sublist.cons_cons _ (List.sublist_append_right _ _)
    refine generated_passes (b := artifactBom s.bom m top c) a10 rfl
      (hpm := ⟨a2.timestamp, a2.tools, a2.authors, a2.manufacture, a2.supplier, a2.licenses,
        a2.properties⟩) rfl (a4.artifact v (a6 c hc).1) ?_ a7 a8 a9 ?_ ?_ ?_
    · intro y hy; cases hy
    · exact b3.sublist hsub
    · exact fun hn => b4 (hsub.subset hn)
    · intro d hd r hr
      have := h3 d hd r hr
      rw [hcr] at this
      simpa [topRef, htop] using this
  unfold writeToFiles at hw
  split at hw
  · simp only [Res.bind_ok] at hw
    obtain ⟨n, _, hw⟩ := hw
    simp only [Except.ok.injEq] at hw
    subst hw
    simp only [List.mem_singleton] at hwm
    subst hwm
    exact hgen
  · simp only [Res.bind_ok] at hw
    obtain ⟨arts, h1, h2⟩ := hw
    exact hart _ arts h1 h2

/-- C57 (partial, as above): everything written to a file passes validation, whatever the SBOM describes (the
package, its binaries or all its targets), for each version of the specification, in particular
the one the file is written in. -/
theorem C57_written_valid_partial (hmd : MetadataOk md nodes) (ag : Agree env E)
    (rv : RendersValid env) (hl : ∀ p ∈ md.packages, NoBomLinks p)
    (h : createSboms env md config = .ok sboms) (hs : At sboms s md.workspaceMembers root)
    (hform : ∀ n ∈ nodes, ∀ j : Nat, n.id ≠ root ++ " bin-target-" ++ toString j)
    (debug : Bool) (ws : List FileWrite) (hw : writeToFiles debug s = .ok ws) :
    ∀ w ∈ ws, ∀ v : SpecVersion, Bom.validateVersion E v w.bom = .ok [] := fun w hwm v =>
  (C57_written_exact hmd ag rv h hs hform debug ws hw w hwm v).mpr fun p hp => linksOk_of_none (hl p hp.1) v

/-- The parsers of the example, as seen by the validation. -/
def exampleEnv : VEnv where
  uriOk := Example.env.uriValid
  dateTimeOk := Example.env.dateTimeValid
  purlErr := fun _ => none
  spdxIdOk := fun s => s == "MIT"
  spdxExprOk := Example.env.spdxStrict

/-- Non-vacuity: the hypotheses hold for the example workspace. -/
example : Agree Example.env exampleEnv ∧ RendersValid Example.env ∧
    (∀ p ∈ Example.md.packages, NoBomLinks p) ∧ MetadataOk Example.md Example.nodes ∧
    (∃ s, createSboms Example.env Example.md Example.config = .ok [s]) ∧
    ∀ n ∈ Example.nodes, ∀ j : Nat, n.id ≠ "root" ++ " bin-target-" ++ toString j := by
  refine ⟨⟨fun _ => rfl, fun _ => rfl, fun _ => rfl, fun _ => by simp [exampleEnv, Example.env]⟩,
    ⟨fun _ _ _ _ _ _ => rfl, fun d h => by cases h; decide⟩, ?_, Example.md_ok, ?_, ?_⟩
  · intro p hp u hu
    refine startsWith_false_iff.mp ?_
    have hd : ∀ p ∈ Example.md.packages, ∀ o ∈ urlFields p, ∀ u ∈ o.toList,
        startsWith u "urn:cdx" = false := by decide
    exact hd p hp _ hu u (by simp)
  · exact ⟨_, rfl⟩
  · have h : ∀ n ∈ Example.nodes, n.id.toList.length < 5 := by decide
    intro n hn j e
    have h1 := h n hn
    have h2 := congrArg (fun x => x.toList.length) e
    simp only [String.toList_append, List.length_append] at h2
    have h3 : "root".toList.length = 4 ∧ " bin-target-".toList.length = 12 := by decide
    omega

/-- A workspace with one package, whose home page looks like a BOM-Link. -/
def linkMd : CargoMetadata where
  packages := [{ id := "p", name := "p", version := "1.0.0", homepage := some "urn:cdx:x",
                 manifestPath := ["w", "Cargo.toml"] }]
  workspaceMembers := ["p"]
  resolve := some [{ id := "p", deps := [], dependencies := [] }]
  workspaceRoot := ["w"]

/-- Its environment: every URI of the package is well-formed. -/
def linkEnv : Env := { Example.env with uriValid := fun _ => true }

/-- Is the result of validation free of errors? -/
def noErrors : Res VResult → Bool
  | .ok [] => true
  | _ => false

/-- C57 refuted: the SBOM of a package whose home page starts with `urn:cdx` fails validation in
every version, although the home page is a valid URI: it is taken for a BOM-Link. -/
theorem C57_bom_link_refuted :
    ∃ s, createSboms linkEnv linkMd Example.config = .ok [s] ∧
      ∀ v, Bom.validateVersion { exampleEnv with uriOk := linkEnv.uriValid } v s.bom ≠ .ok [] := by
  refine ⟨_, rfl, ?_⟩
  intro v h
  have h' := congrArg noErrors h
  revert h'
  cases v <;> decide +kernel

/-- A workspace with one package, whose home page is a BOM-Link. -/
def realLinkMd : CargoMetadata where
  packages := [{ id := "p", name := "p", version := "1.0.0",
                 homepage := some "urn:cdx:f08a6ccd-4dce-4759-bd84-c626675d60a7/1",
                 manifestPath := ["w", "Cargo.toml"] }]
  workspaceMembers := ["p"]
  resolve := some [{ id := "p", deps := [], dependencies := [] }]
  workspaceRoot := ["w"]

/-- Both sides of `C57_exact` occur: its SBOM passes validation in version 1.5, and not in 1.4. -/
example : ∃ s, createSboms linkEnv realLinkMd Example.config = .ok [s] ∧
    noErrors (Bom.validateVersion { exampleEnv with uriOk := linkEnv.uriValid } .v1_5 s.bom) = true ∧
    noErrors (Bom.validateVersion { exampleEnv with uriOk := linkEnv.uriValid } .v1_4 s.bom) = false :=
  ⟨_, rfl, by decide +kernel, by decide +kernel⟩

end Cdx.Props
