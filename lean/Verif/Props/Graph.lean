import Verif.Lemmas.Total
import Verif.Props.Example

/-!
# Properties C01-C09, C22: what a generated SBOM lists

Every theorem quantifies over all `cargo metadata` outputs `md` with a consistent resolve
graph `nodes` (`Spec.MetadataOk`), all environments, all configurations, and every SBOM `s`
generated for a workspace member `root`.
-/

namespace Cdx.Example

/-- Generation succeeds, with the expected component references and scopes. -/
theorem gen_ok : ∃ s, createSboms env md config = .ok [s] ∧
    (Spec.components s.bom).map (fun c => (c.bomRef, c.scope)) =
      [(some "a", some .required), (some "b", some .excluded), (some "c", some .excluded)] := by
  refine ⟨_, rfl, ?_⟩
  decide +kernel

theorem gen_top_ok : ∃ s, createSboms env md topConfig = .ok [s] ∧
    Spec.componentRefs s.bom = [some "a", some "b"] := by
  refine ⟨_, rfl, ?_⟩
  decide +kernel

theorem gen_normal_ok : ∃ s, createSboms env md normalConfig = .ok [s] ∧
    Spec.componentRefs s.bom = [some "a"] := by
  refine ⟨_, rfl, ?_⟩
  decide +kernel

end Cdx.Example

namespace Cdx.Props
open Cdx OMap

variable {env : Env} {md : CargoMetadata} {nodes : List Node} {config : SbomConfig}
  {sboms : List GeneratedSbom} {s : GeneratedSbom} {root : PackageId}

/-- C01 (kinds): the kind recorded for a package is the strongest, over all dependency paths
from the root, of the weakest edge kind on the path; packages without a path get no kind; the
traversal ends with a result on every consistent graph, cyclic or not. -/
theorem C01_kinds (hc : Spec.Consistent nodes) (hr : root ∈ nodes.map (·.id)) :
    ∃ kinds, indexDepKinds root (indexResolve nodes) = .ok kinds ∧
      ∀ p k, kinds.lookup p = some k ↔ Spec.StrongestKind nodes root p k := by
  obtain ⟨m, hm⟩ := indexDepKinds_total hc hr
  exact ⟨m, hm, indexDepKinds_spec hc hm⟩

/-- Non-vacuity: the example graph has a diamond and a cycle; `c` gets kind `build`. -/
example : ∃ kinds, indexDepKinds "root" (indexResolve Example.nodes) = .ok kinds ∧
    kinds.lookup "c" = some .build ∧ kinds.lookup "a" = some .normal ∧ kinds.lookup "z" = none :=
  ⟨_, rfl, by decide +kernel⟩
example : Spec.StrongestKind Example.nodes "root" "c" .build := by
  obtain ⟨kinds, h, hs⟩ := C01_kinds (root := "root") Example.md_ok.graph (by decide)
  exact (hs _ _).1 (by
    have e : indexDepKinds "root" (indexResolve Example.nodes) = .ok kinds := h
    have e2 : ∃ kinds, indexDepKinds "root" (indexResolve Example.nodes) = .ok kinds ∧
      kinds.lookup "c" = some .build := ⟨_, rfl, by decide +kernel⟩
    obtain ⟨k2, h2, h3⟩ := e2
    rw [e] at h2; cases h2; exact h3)

/-- C01: a listed component is `required` iff some path of only normal edges leads to it from
the root, and otherwise `excluded`. -/
theorem C01_scope (hmd : Spec.MetadataOk md nodes) (h : createSboms env md config = .ok sboms)
    (hs : Spec.At sboms s md.workspaceMembers root) :
    ∀ c ∈ Spec.components s.bom, ∃ id, c.bomRef = some id ∧
      (Spec.ReachVia nodes (· = .normal) root id → c.scope = some .required) ∧
      (¬ Spec.ReachVia nodes (· = .normal) root id → c.scope = some .excluded) := by
  obtain ⟨i, kinds, pr, pkg, comps, m, h1, h2, sh, sel⟩ := sbom_shape hmd h hs
  intro c hc
  have hc' : c ∈ comps := by simpa [Spec.components, sh.bom] using hc
  obtain ⟨p, hp, hpc⟩ := Rel₂.mem_right sh.compsOk hc'
  have hp' := (List.mem_filter.1 hp).1
  obtain ⟨kv, hkv, rfl⟩ := List.mem_map.1 hp'
  have hl := (lookup_iff_mem sel.sorted₁).2 (show (kv.1, kv.2) ∈ pr.1 from hkv)
  obtain ⟨hl1, hl2⟩ := (sel.pkgs _ _).1 hl
  have hid := keyed_indexPackages _ hl1
  obtain ⟨purl, _, e⟩ := createComponent_ok hpc
  refine ⟨kv.2.id, by rw [e]; rfl, ?_⟩
  rw [hid]
  have hscope : c.scope = some (componentScope kinds kv.1) := by rw [e, hid]
  rw [hscope]
  have hspec := indexDepKinds_spec hmd.graph sh.kindsOk kv.1
  unfold componentScope
  constructor
  · intro hreach
    have : kinds.lookup kv.1 = some .normal := (hspec _).2
      ⟨normalPath_iff.2 hreach, fun k' _ => by cases k' <;> decide⟩
    rw [this]; rfl
  · intro hreach
    have hne : kinds.lookup kv.1 ≠ some .normal := fun e =>
      hreach (normalPath_iff.1 ((hspec _).1 e).1)
    have hsome : kinds.lookup kv.1 ≠ none := by
      intro e
      obtain ⟨k, hk⟩ := reachVia_pathKind (listed_reach hl2)
      -- a strongest kind exists among finitely many
      have : ∃ k, Spec.StrongestKind nodes root kv.1 k := by
        by_cases a3 : Spec.PathKind nodes root kv.1 .normal
        · exact ⟨_, a3, fun k' _ => by cases k' <;> decide⟩
        by_cases a2 : Spec.PathKind nodes root kv.1 .build
        · exact ⟨_, a2, fun k' h' => by cases k' <;> first | decide | exact absurd h' a3⟩
        by_cases a1 : Spec.PathKind nodes root kv.1 .development
        · exact ⟨_, a1, fun k' h' => by
            cases k' <;> first | decide | exact absurd h' a3 | exact absurd h' a2⟩
        refine ⟨k, hk, fun k' h' => ?_⟩
        cases k'
        · exact absurd h' a3
        · exact absurd h' a1
        · exact absurd h' a2
        · exact Nat.zero_le _
      obtain ⟨k, hk⟩ := this
      rw [(hspec k).2 hk] at e; cases e
    cases hk : kinds.lookup kv.1 with
    | none => exact absurd hk hsome
    | some k => cases k <;> first | exact absurd hk hne | rfl

/-- Non-vacuity: both scopes occur in the example. -/
example : ∃ s, createSboms Example.env Example.md Example.config = .ok [s] ∧
    Spec.At [s] s Example.md.workspaceMembers "root" ∧
    ∃ c ∈ Spec.components s.bom, c.scope = some .excluded := by
  obtain ⟨s, h, hc⟩ := Example.gen_ok
  refine ⟨s, h, ⟨0, rfl, rfl⟩, ?_⟩
  have : (some "b", some Scope.excluded) ∈
      (Spec.components s.bom).map (fun c => (c.bomRef, c.scope)) := by rw [hc]; decide
  obtain ⟨c, h1, h2⟩ := List.mem_map.1 this
  exact ⟨c, h1, (Prod.mk.inj h2).2⟩

/-- Common part of C02 and C07: the listed components are exactly the packages to be listed. -/
private theorem listed_iff (hmd : Spec.MetadataOk md nodes)
    (h : createSboms env md config = .ok sboms)
    (hs : Spec.At sboms s md.workspaceMembers root) :
    Spec.topRef s.bom = some root ∧ (Spec.componentRefs s.bom).Nodup ∧
    ∀ r, r ∈ Spec.componentRefs s.bom ↔ ∃ id, r = some id ∧ id ≠ root ∧ Listed nodes config root id := by
  obtain ⟨i, kinds, pr, pkg, comps, m, h1, h2, sh, sel⟩ := sbom_shape hmd h hs
  have e : Spec.componentRefs s.bom = comps.map (·.bomRef) := by
    simp [Spec.componentRefs, Spec.components, sh.bom]
  refine ⟨shape_top sh, ?_, ?_⟩
  · rw [e, shape_refs sh sel]
    have := keys_nodup sel.sorted₁
    exact (this.filter _).map _ (fun a b hab => fun e => hab (Option.some.inj e))
  · rw [e]; exact shape_mem hmd.packages hmd.packagesNodup sh sel

/-- C02: with all dependencies included, the packages in the SBOM are exactly the root (as
top-level component) plus the packages reachable from it through followed edges; each is
listed once. -/
theorem C02_all_dependencies (hmd : Spec.MetadataOk md nodes)
    (h : createSboms env md config = .ok sboms)
    (hs : Spec.At sboms s md.workspaceMembers root) (hm : Spec.AllMode config) :
    Spec.topRef s.bom = some root ∧ (Spec.componentRefs s.bom).Nodup ∧
    ∀ r, r ∈ Spec.componentRefs s.bom ↔ ∃ id, r = some id ∧ id ≠ root ∧
      Spec.ReachVia nodes (Spec.Followed (Spec.noBuildDeps config)) root id := by
  have := listed_iff hmd h hs
  unfold Listed at this
  simpa only [if_pos hm] using this

/-- Non-vacuity: hence in the example `c` is reachable and `z` is not. -/
example : Spec.ReachVia Example.nodes (Spec.Followed false) "root" "c" ∧
    ¬ Spec.ReachVia Example.nodes (Spec.Followed false) "root" "z" := by
  obtain ⟨s, h, hc⟩ := Example.gen_ok
  obtain ⟨_, _, h3⟩ := C02_all_dependencies Example.md_ok h ⟨0, rfl, rfl⟩ (by decide)
  have hr : Spec.componentRefs s.bom = [some "a", some "b", some "c"] := by
    have := congrArg (List.map Prod.fst) hc
    simpa [Spec.componentRefs, List.map_map, Function.comp_def] using this
  rw [hr] at h3
  constructor
  · obtain ⟨id, e, _, h⟩ := (h3 (some "c")).1 (by decide)
    cases e; exact h
  · intro h
    have := (h3 (some "z")).2 ⟨"z", rfl, by decide, h⟩
    simp at this

/-- C03: each reference of the dependency section and each of its `dependsOn` entries is the
bom-ref of the top-level component or of a listed component; the top-level component and every
listed component have exactly one entry. -/
theorem C03_dependencies_closed (hmd : Spec.MetadataOk md nodes)
    (h : createSboms env md config = .ok sboms)
    (hs : Spec.At sboms s md.workspaceMembers root) :
    (∀ d ∈ Spec.dependencyEntries s.bom, ∀ r ∈ d.dependencyRef :: d.dependencies,
      Spec.topRef s.bom = some r ∨ some r ∈ Spec.componentRefs s.bom) ∧
    ((Spec.dependencyEntries s.bom).map (·.dependencyRef)).Nodup ∧
    (∀ r, Spec.topRef s.bom = some r ∨ some r ∈ Spec.componentRefs s.bom →
      r ∈ (Spec.dependencyEntries s.bom).map (·.dependencyRef)) := by
  obtain ⟨i, kinds, pr, pkg, comps, m, h1, h2, sh, sel⟩ := sbom_shape hmd h hs
  obtain ⟨htop, _, hmem⟩ := listed_iff hmd h hs
  have hok : ∀ r, (Spec.topRef s.bom = some r ∨ some r ∈ Spec.componentRefs s.bom) ↔
      Listed nodes config root r := by
    intro r
    rw [htop, hmem]
    constructor
    · rintro (e | ⟨id, e, _, hl⟩)
      · cases e; exact listed_root
      · cases e; exact hl
    · intro hl
      by_cases e : r = root
      · subst e; exact .inl rfl
      · exact .inr ⟨r, rfl, e, hl⟩
  refine ⟨?_, ?_, ?_⟩
  · intro d hd r hr
    rw [hok]
    obtain ⟨hl, n, hn, hid, hdeps⟩ := shape_deps_mem sh sel hd
    rcases List.mem_cons.1 hr with rfl | hr
    · exact hl
    · rw [hdeps] at hr
      split at hr
      · next hcase =>
        rw [mem_keptDeps_edge hmd.graph.nodup hn, hid] at hr
        obtain ⟨k, he, hf⟩ := hr
        unfold Listed at hl ⊢
        rcases hcase with hall | hroot
        · rw [if_pos hall] at hl ⊢
          exact .step hl he hf
        · rw [hroot] at he
          split
          · exact .step .root he hf
          · exact .inr ⟨k, he, hf⟩
      · simp at hr
  · rw [shape_deps_refs sh sel]
    exact keys_nodup sel.sorted₂
  · intro r hr
    rw [shape_deps_refs sh sel, mem_keys_iff sel.sorted₂]
    exact sel.nodes_all r ((hok r).1 hr)

/-- Non-vacuity: the example has four entries, some with several dependencies. -/
example : ∃ s, createSboms Example.env Example.md Example.config = .ok [s] ∧
    (Spec.dependencyEntries s.bom).map (fun d => (d.dependencyRef, d.dependencies)) =
      [("a", ["c"]), ("b", ["c"]), ("c", []), ("root", ["a", "b"])] :=
  ⟨_, rfl, by decide +kernel⟩

/-- C04: with all dependencies included the `dependsOn` list of an entry is exactly the list of
followed dependencies of the package's resolve node, in resolve order. -/
theorem C04_edges_exact (hmd : Spec.MetadataOk md nodes)
    (h : createSboms env md config = .ok sboms)
    (hs : Spec.At sboms s md.workspaceMembers root) (hm : Spec.AllMode config) :
    ∀ d ∈ Spec.dependencyEntries s.bom, ∃ n ∈ nodes, n.id = d.dependencyRef ∧
      d.dependencies = Spec.keptDeps (Spec.noBuildDeps config) n := by
  obtain ⟨i, kinds, pr, pkg, comps, m, h1, h2, sh, sel⟩ := sbom_shape hmd h hs
  intro d hd
  obtain ⟨_, n, hn, hid, hdeps⟩ := shape_deps_mem sh sel hd
  exact ⟨n, hn, hid, by rw [hdeps, if_pos (.inl hm)]⟩

/-- Non-vacuity: the root of the example keeps two of its three dependencies. -/
example : Spec.AllMode Example.config ∧ ∃ n ∈ Example.nodes, n.id = "root" ∧ n.deps.length = 3 ∧
    Spec.keptDeps (Spec.noBuildDeps Example.config) n = ["a", "b"] := by decide

/-- C05: with `--no-build-deps` every listed component is `required`, in both dependency modes;
and with all dependencies included every package reachable via normal edges only is listed. -/
theorem C05_no_build_deps (hmd : Spec.MetadataOk md nodes)
    (h : createSboms env md config = .ok sboms)
    (hs : Spec.At sboms s md.workspaceMembers root) (hnb : config.onlyNormalDeps = some true) :
    (∀ c ∈ Spec.components s.bom, c.scope = some .required) ∧
    (Spec.AllMode config → ∀ id, id ≠ root → Spec.ReachVia nodes (· = .normal) root id →
      some id ∈ Spec.componentRefs s.bom) := by
  have hb : Spec.noBuildDeps config = true := by simp [Spec.noBuildDeps, hnb]
  have hF : ∀ k, Spec.Followed (Spec.noBuildDeps config) k ↔ k = .normal := by
    intro k; rw [hb]; simp [Spec.Followed]
  obtain ⟨_, _, hmem⟩ := listed_iff hmd h hs
  constructor
  · intro c hc
    obtain ⟨id, e, h1, _⟩ := C01_scope hmd h hs c hc
    apply h1
    have : c.bomRef ∈ Spec.componentRefs s.bom := List.mem_map.2 ⟨c, hc, rfl⟩
    rw [hmem, e] at this
    obtain ⟨id', e', _, hl⟩ := this
    cases e'
    exact reachVia_mono (fun k hk => (hF k).1 hk) (listed_reach hl)
  · intro hm id hne hreach
    rw [hmem]
    refine ⟨id, rfl, hne, ?_⟩
    unfold Listed
    rw [if_pos hm]
    exact reachVia_mono (fun k hk => (hF k).2 hk) hreach

/-- Non-vacuity: the example with `--no-build-deps` lists `a` only. -/
example : Example.normalConfig.onlyNormalDeps = some true ∧ Spec.AllMode Example.normalConfig ∧
    ∃ s, createSboms Example.env Example.md Example.normalConfig = .ok [s] ∧
      Spec.componentRefs s.bom = [some "a"] := ⟨rfl, by decide, Example.gen_normal_ok⟩

/-- C06: a package to which every path from the root uses an edge of kind dev never appears in
the SBOM, neither as a component nor in the dependency section. -/
theorem C06_no_dev_leak (hmd : Spec.MetadataOk md nodes)
    (h : createSboms env md config = .ok sboms)
    (hs : Spec.At sboms s md.workspaceMembers root) (id : PackageId)
    (hdev : ¬ Spec.ReachVia nodes (· ≠ .development) root id) :
    some id ∉ Spec.componentRefs s.bom ∧ Spec.topRef s.bom ≠ some id ∧
    ∀ d ∈ Spec.dependencyEntries s.bom, id ∉ d.dependencyRef :: d.dependencies := by
  obtain ⟨htop, _, hmem⟩ := listed_iff hmd h hs
  obtain ⟨hcl, _, _⟩ := C03_dependencies_closed hmd h hs
  have hF : ∀ k, Spec.Followed (Spec.noBuildDeps config) k → k ≠ .development := by
    intro k hk; unfold Spec.Followed at hk
    split at hk
    · subst hk; simp
    · exact hk
  have h1 : some id ∉ Spec.componentRefs s.bom := by
    rw [hmem]; rintro ⟨id', e, _, hl⟩
    cases e
    exact hdev (reachVia_mono hF (listed_reach hl))
  have h2 : Spec.topRef s.bom ≠ some id := by
    rw [htop]; intro e; cases e; exact hdev .root
  refine ⟨h1, h2, ?_⟩
  intro d hd hid
  rcases hcl d hd id hid with e | e
  · exact h2 e
  · exact h1 e

/-- Non-vacuity: `t` is a dev dependency of the example root. -/
example : ¬ Spec.ReachVia Example.nodes (· ≠ .development) "root" "t" := by
  have : ∀ id, Spec.ReachVia Example.nodes (· ≠ .development) "root" id →
      id ∈ ["root", "a", "b", "c"] := by
    intro id h
    induction h with
    | root => decide
    | step hprev he hk ih =>
      clear hprev
      obtain ⟨n, hn, rfl, d, hd, rfl, i, hi, rfl⟩ := he
      revert ih hk
      revert i
      revert d
      revert n
      decide
  intro h
  have := this _ h
  simp at this

/-- C07: in top-level mode the SBOM holds exactly the root and its followed direct
dependencies; the root entry lists them, every other entry is empty. -/
theorem C07_top_level (hmd : Spec.MetadataOk md nodes)
    (h : createSboms env md config = .ok sboms)
    (hs : Spec.At sboms s md.workspaceMembers root)
    (hm : config.includedDependencies = some .topLevelDependencies) :
    Spec.topRef s.bom = some root ∧ (Spec.componentRefs s.bom).Nodup ∧
    (∀ r, r ∈ Spec.componentRefs s.bom ↔ ∃ id, r = some id ∧ id ≠ root ∧
      ∃ k, Spec.Edge nodes root id k ∧ Spec.Followed (Spec.noBuildDeps config) k) ∧
    (∀ d ∈ Spec.dependencyEntries s.bom,
      (d.dependencyRef = root → ∃ n ∈ nodes, n.id = root ∧
        d.dependencies = Spec.keptDeps (Spec.noBuildDeps config) n) ∧
      (d.dependencyRef ≠ root → d.dependencies = [])) := by
  have hall : ¬ Spec.AllMode config := by simp [Spec.AllMode, hm]
  obtain ⟨h1, h2, h3⟩ := listed_iff hmd h hs
  refine ⟨h1, h2, ?_, ?_⟩
  · intro r
    rw [h3]
    unfold Listed
    simp only [if_neg hall]
    constructor
    · rintro ⟨id, e, hne, rfl | hk⟩
      · exact absurd rfl hne
      · exact ⟨id, e, hne, hk⟩
    · rintro ⟨id, e, hne, hk⟩; exact ⟨id, e, hne, .inr hk⟩
  · obtain ⟨i, kinds, pr, pkg, comps, m, _, _, sh, sel⟩ := sbom_shape hmd h hs
    intro d hd
    obtain ⟨_, n, hn, hid, hdeps⟩ := shape_deps_mem sh sel hd
    constructor
    · intro e; exact ⟨n, hn, hid.trans e, by rw [hdeps, if_pos (.inr e)]⟩
    · intro e; rw [hdeps, if_neg (by rintro (a | a); exact hall a; exact e a)]

/-- Non-vacuity: the example in top-level mode. -/
example : Example.topConfig.includedDependencies = some .topLevelDependencies ∧
    ∃ s, createSboms Example.env Example.md Example.topConfig = .ok [s] ∧
      Spec.componentRefs s.bom = [some "a", some "b"] := ⟨rfl, Example.gen_top_ok⟩

/-- C08: the whole result is unchanged when the package list and the resolve node list are
permuted. -/
theorem C08_order_independent (hmd : Spec.MetadataOk md nodes) {md' : CargoMetadata}
    {nodes' : List Node} (hp : md.packages.Perm md'.packages) (hn : nodes.Perm nodes')
    (hr : md'.resolve = some nodes') (hw : md'.workspaceMembers = md.workspaceMembers)
    (hroot : md'.workspaceRoot = md.workspaceRoot) :
    createSboms env md' config = createSboms env md config := by
  unfold createSboms
  rw [hr, hmd.resolve, hw, hroot]
  have e1 : indexPackages md'.packages = indexPackages md.packages := by
    unfold indexPackages
    symm
    refine ofList_perm ?_ (hp.map _)
    simpa [List.map_map, Function.comp_def] using hmd.packagesNodup
  have e2 : indexResolve nodes' = indexResolve nodes := by
    unfold indexResolve
    symm
    refine ofList_perm ?_ (hn.map _)
    simpa [List.map_map, Function.comp_def] using hmd.graph.nodup
  simp only [e1, e2]

/-- Non-vacuity: the example with packages and nodes reversed. -/
example : createSboms Example.env { Example.md with
      packages := Example.md.packages.reverse, resolve := some Example.nodes.reverse }
      Example.config = createSboms Example.env Example.md Example.config :=
  C08_order_independent Example.md_ok (List.reverse_perm _).symm (List.reverse_perm _).symm
    rfl rfl rfl

/-- C08: components and dependency entries are listed in strictly increasing package-id order. -/
theorem C08_sorted (hmd : Spec.MetadataOk md nodes)
    (h : createSboms env md config = .ok sboms)
    (hs : Spec.At sboms s md.workspaceMembers root) :
    (Spec.componentRefs s.bom).Pairwise
      (fun a b => ∃ x y, a = some x ∧ b = some y ∧ compare x y = .lt) ∧
    ((Spec.dependencyEntries s.bom).map (·.dependencyRef)).Pairwise
      (fun x y => compare x y = .lt) := by
  obtain ⟨i, kinds, pr, pkg, comps, m, h1, h2, sh, sel⟩ := sbom_shape hmd h hs
  constructor
  · have e : Spec.componentRefs s.bom = comps.map (·.bomRef) := by
      simp [Spec.componentRefs, Spec.components, sh.bom]
    rw [e, shape_refs sh sel, List.pairwise_map]
    refine List.Pairwise.imp ?_ (List.Pairwise.filter _
      (show (keys pr.1).Pairwise (fun x y => compare x y = .lt) from List.pairwise_map.2 sel.sorted₁))
    intro a b hab; exact ⟨a, b, rfl, rfl, hab⟩
  · rw [shape_deps_refs sh sel]
    exact List.pairwise_map.2 sel.sorted₂

/-- Non-vacuity: three components in order, although the metadata lists them otherwise. -/
example : ∃ s, createSboms Example.env Example.md Example.config = .ok [s] ∧
    Spec.componentRefs s.bom = [some "a", some "b", some "c"] ∧
    Example.md.packages.map (·.id) = ["root", "z", "t", "c", "b", "a"] :=
  ⟨_, rfl, by decide +kernel, rfl⟩

/-- C09: the bom-refs of the top-level component, its target subcomponents and all components
are pairwise distinct, provided no package id has the form of a synthesized target reference of
the root. -/
theorem C09_refs_unique (hmd : Spec.MetadataOk md nodes)
    (h : createSboms env md config = .ok sboms)
    (hs : Spec.At sboms s md.workspaceMembers root)
    (hform : ∀ n ∈ nodes, ∀ j : Nat, n.id ≠ root ++ " bin-target-" ++ toString j) :
    ∃ top subs, Spec.topComponent s.bom = some top ∧ top.components = some subs ∧
      (top.bomRef :: subs.map (·.bomRef) ++ Spec.componentRefs s.bom).Nodup ∧
      none ∉ (top.bomRef :: subs.map (·.bomRef) ++ Spec.componentRefs s.bom) := by
  obtain ⟨i, kinds, pr, pkg, comps, m, h1, h2, sh, sel⟩ := sbom_shape hmd h hs
  obtain ⟨htop, hnd, hmem⟩ := listed_iff hmd h hs
  obtain ⟨ts, top, props, _, m2, _, m4⟩ := createMetadata_ok sh.mdOk
  obtain ⟨top', subs, t1, t2, t3⟩ := createToplevel_ok m2
  have hpkg := keyed_indexPackages _ sh.pkgOk
  simp only at m4 t3
  have htc : Spec.topComponent s.bom = some top := by
    simp [Spec.topComponent, sh.bom, m4]
  have htr : top.bomRef = some root := by
    simpa [Spec.topRef, htc] using htop
  have hsub := targetLoop_refs t2
  rw [hpkg] at hsub
  refine ⟨top, subs, htc, by rw [t3], ?_, ?_⟩
  · rw [htr, hsub, List.cons_append, List.nodup_cons, List.nodup_append]
    refine ⟨?_, ?_, hnd, ?_⟩
    · rw [List.mem_append]
      rintro (hx | hx)
      · obtain ⟨j, _, e⟩ := List.mem_map.1 hx
        obtain ⟨n, hn, hid⟩ := List.mem_map.1 (hmd.members root (List.mem_of_getElem? h2))
        exact hform n hn j (hid.trans (Option.some.inj e).symm)
      · rw [hmem] at hx
        obtain ⟨id, e, hne, _⟩ := hx
        exact hne (Option.some.inj e).symm
    · refine List.nodup_range.map _ ?_
      intro a b hab e
      exact hab (targetRef_inj (Option.some.inj e))
    · intro a ha b hb e
      subst e
      obtain ⟨j, _, rfl⟩ := List.mem_map.1 ha
      rw [hmem] at hb
      obtain ⟨id, e, _, hl⟩ := hb
      obtain ⟨n', hn'⟩ := sel.nodes_all id hl
      obtain ⟨_, _, n, hn, hid, _⟩ := sel.nodes_iff id n' hn'
      exact hform n hn j (hid.trans (Option.some.inj e).symm)
  · rw [htr, hsub]
    simp only [List.cons_append, List.mem_cons, List.mem_append, List.mem_map, reduceCtorEq,
      and_false, exists_false, false_or]
    rw [hmem]
    rintro ⟨id, e, _⟩; cases e

/-- Non-vacuity: the example has two subcomponents and no package id of the forbidden form. -/
example : ∀ n ∈ Example.nodes, ∀ j : Nat, n.id ≠ "root" ++ " bin-target-" ++ toString j := by
  have h : ∀ n ∈ Example.nodes, n.id.toList.length < 5 := by decide
  intro n hn j e
  have h1 := h n hn
  have h2 := congrArg (fun x => x.toList.length) e
  simp only [String.toList_append, List.length_append] at h2
  have h3 : "root".toList.length = 4 ∧ " bin-target-".toList.length = 12 := by decide
  omega
example : ∃ s, createSboms Example.env Example.md Example.config = .ok [s] ∧
    ((Spec.topComponent s.bom).bind (·.components)).map (List.map (·.bomRef)) =
      some [some "root bin-target-0", some "root bin-target-1"] :=
  ⟨_, rfl, by decide +kernel⟩

/-- C22: exactly one SBOM per workspace member, in workspace order, each with that member as
top-level component and with the member's name and manifest. -/
theorem C22_one_per_member (hmd : Spec.MetadataOk md nodes)
    (h : createSboms env md config = .ok sboms) :
    sboms.length = md.workspaceMembers.length ∧
    ∀ s root, Spec.At sboms s md.workspaceMembers root →
      Spec.topRef s.bom = some root ∧ s.sbomConfig = config ∧
      ∃ p ∈ md.packages, p.id = root ∧ s.packageName = p.name ∧ s.manifestPath = p.manifestPath := by
  constructor
  · unfold createSboms at h
    rw [hmd.resolve] at h
    exact (createSbomsLoop_ok h).1
  · intro s root hs
    obtain ⟨i, kinds, pr, pkg, comps, m, h1, h2, sh, sel⟩ := sbom_shape hmd h hs
    obtain ⟨a, b⟩ := (lookup_indexPackages hmd.packagesNodup).1 sh.pkgOk
    exact ⟨shape_top sh, sh.cfg, pkg, a, b, sh.name, sh.manifest⟩

/-- C22 (no panic): with consistent metadata, a working clock, a valid `SOURCE_DATE_EPOCH` if
one is set, and a resolved target, generation yields a result: no lookup or unwrap panics. In
debug builds the rendered package URLs must also pass the validator and the members must lie
below the workspace root, which the code asserts. -/
theorem C22_no_panic (hmd : Spec.MetadataOk md nodes)
    (hman : ∀ p ∈ md.packages, p.manifestPath ≠ [])
    (hdebug : env.debug = true →
      (∀ p ∈ md.packages, p.id ∈ md.workspaceMembers →
        md.workspaceRoot <+: p.manifestPath.dropLast) ∧
      (∀ n v q sp u, env.purlRender n v q sp = some u → env.purlValid u = true))
    (hnow : env.now ≠ none)
    (hepoch : ∀ e, env.sourceDateEpoch = some e →
      ∃ t d, parseI64 e = some t ∧ env.formatUnix t = some d ∧ env.dateTimeValid d = true)
    (htarget : config.target ≠ none) :
    ∃ sboms, createSboms env md config = .ok sboms := by
  refine createSboms_total hmd hman ?_ (fun hd => (hdebug hd).2) ?_ htarget
  · intro hd p hp hm
    simpa [FPath.startsWith] using (hdebug hd).1 p hp hm
  · unfold metadataTimestamp
    cases hn : env.now with
    | none => exact absurd hn hnow
    | some now =>
      simp only
      cases he : env.sourceDateEpoch with
      | none => exact ⟨_, rfl⟩
      | some e =>
        obtain ⟨t, d, h1, h2, h3⟩ := hepoch e he
        simp [h1, h2, h3]

/-- Non-vacuity: the example meets the hypotheses, in a debug build. -/
example : ∃ sboms, createSboms Example.env Example.md Example.config = .ok sboms :=
  C22_no_panic Example.md_ok (by decide) (fun _ => ⟨by decide, fun _ _ _ _ _ _ => rfl⟩)
    (by decide) (by intro e h; cases h) (by decide)

end Cdx.Props
