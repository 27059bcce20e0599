import Verif.Model.Generator
import Verif.Lemmas.Graph
import Verif.Spec.Bom

set_option linter.unusedSectionVars false
set_option linter.unusedSimpArgs false

namespace Cdx
open OMap

/-- Two lists related element by element. -/
inductive Rel₂ {α β : Type} (R : α → β → Prop) : List α → List β → Prop
  | nil : Rel₂ R [] []
  | cons {a b as bs} : R a b → Rel₂ R as bs → Rel₂ R (a :: as) (b :: bs)

namespace Rel₂
variable {α β γ : Type} {R : α → β → Prop}

theorem length {as : List α} {bs : List β} (h : Rel₂ R as bs) : as.length = bs.length := by
  induction h <;> simp_all

theorem map_eq {f : α → γ} {g : β → γ} (hf : ∀ a b, R a b → f a = g b) {as : List α} {bs : List β}
    (h : Rel₂ R as bs) : as.map f = bs.map g := by
  induction h with
  | nil => rfl
  | cons h _ ih => simp [hf _ _ h, ih]

theorem mem_right {as : List α} {bs : List β} (h : Rel₂ R as bs) {b : β} (hb : b ∈ bs) :
    ∃ a ∈ as, R a b := by
  induction h with
  | nil => simp at hb
  | cons h _ ih =>
    rcases List.mem_cons.1 hb with rfl | hb
    · exact ⟨_, List.mem_cons_self, h⟩
    · obtain ⟨a, h1, h2⟩ := ih hb; exact ⟨a, List.mem_cons_of_mem _ h1, h2⟩

theorem mem_left {as : List α} {bs : List β} (h : Rel₂ R as bs) {a : α} (ha : a ∈ as) :
    ∃ b ∈ bs, R a b := by
  induction h with
  | nil => simp at ha
  | cons h _ ih =>
    rcases List.mem_cons.1 ha with rfl | ha
    · exact ⟨_, List.mem_cons_self, h⟩
    · obtain ⟨a, h1, h2⟩ := ih ha; exact ⟨a, List.mem_cons_of_mem _ h1, h2⟩

theorem getElem? {as : List α} {bs : List β} (h : Rel₂ R as bs) {i : Nat} {a : α}
    (ha : as[i]? = some a) : ∃ b, bs[i]? = some b ∧ R a b := by
  induction h generalizing i with
  | nil => simp at ha
  | cons h _ ih =>
    cases i with
    | zero => simp at ha; subst ha; exact ⟨_, rfl, h⟩
    | succ i => simp at ha; simpa using ih ha

theorem getElem?' {as : List α} {bs : List β} (h : Rel₂ R as bs) {i : Nat} {b : β}
    (hb : bs[i]? = some b) : ∃ a, as[i]? = some a ∧ R a b := by
  induction h generalizing i with
  | nil => simp at hb
  | cons h _ ih =>
    cases i with
    | zero => simp at hb; subst hb; exact ⟨_, rfl, h⟩
    | succ i => simp at hb; simpa using ih hb

end Rel₂

theorem mapM_ok {α β : Type} {f : α → Res β} {as : List α} {bs : List β}
    (h : as.mapM f = .ok bs) : Rel₂ (fun a b => f a = .ok b) as bs := by
  induction as generalizing bs with
  | nil => simp [List.mapM_nil, pure, Except.pure] at h; subst h; exact .nil
  | cons a as ih =>
    rw [List.mapM_cons] at h
    simp only [Res.bind_ok] at h
    obtain ⟨b, hb, bs', hbs, h⟩ := h
    cases h
    exact .cons hb (ih hbs)

theorem mapM_total {α β : Type} {f : α → Res β} {as : List α}
    (h : ∀ a ∈ as, ∃ b, f a = .ok b) : ∃ bs, as.mapM f = .ok bs := by
  induction as with
  | nil => exact ⟨[], rfl⟩
  | cons a as ih =>
    obtain ⟨b, hb⟩ := h a List.mem_cons_self
    obtain ⟨bs, hbs⟩ := ih (fun a' h' => h a' (List.mem_cons_of_mem _ h'))
    exact ⟨b :: bs, by rw [List.mapM_cons, hb]; simp [hbs, bind, Except.bind, pure, Except.pure]⟩

/-! ## Selection of packages -/

/-- The packages that are to be listed, root included. -/
def Listed (nodes : List Node) (config : SbomConfig) (root id : PackageId) : Prop :=
  if Spec.AllMode config then Spec.ReachVia nodes (Spec.Followed (Spec.noBuildDeps config)) root id
  else id = root ∨ ∃ k, Spec.Edge nodes root id k ∧ Spec.Followed (Spec.noBuildDeps config) k

theorem noBuild_eq (config : SbomConfig) : noBuild config = Spec.noBuildDeps config := by
  unfold noBuild Spec.noBuildDeps
  rcases config.onlyNormalDeps with _ | (_ | _) <;> rfl

theorem getIncluded_iff (config : SbomConfig) :
    config.getIncludedDependencies = .allDependencies ↔ Spec.AllMode config := by
  unfold SbomConfig.getIncludedDependencies Spec.AllMode
  rcases config.includedDependencies with _ | (_ | _) <;> simp

theorem addFiltered_deps (n : Node) (config : SbomConfig) :
    (addFilteredDependencies n config).dependencies = Spec.keptDeps (Spec.noBuildDeps config) n := by
  unfold addFilteredDependencies Spec.keptDeps filteredDependencies
  simp only
  congr 1
  apply List.filter_congr
  intro d _
  rw [Bool.eq_iff_iff, retained_iff, decide_eq_true_iff, noBuild_eq]

theorem addFiltered_id (n : Node) (config : SbomConfig) :
    (addFilteredDependencies n config).id = n.id := rfl

theorem mem_keptDeps {n : Node} {nb : Bool} {q : PackageId} :
    q ∈ Spec.keptDeps nb n ↔ ∃ d ∈ n.deps, d.pkg = q ∧ ∃ i ∈ d.depKinds, Spec.Followed nb i.kind := by
  unfold Spec.keptDeps
  simp only [List.mem_map, List.mem_filter, decide_eq_true_eq]
  constructor
  · rintro ⟨d, ⟨h1, h2⟩, h3⟩; exact ⟨d, h1, h3, h2⟩
  · rintro ⟨d, h1, h3, h2⟩; exact ⟨d, ⟨h1, h2⟩, h3⟩

theorem mem_keptDeps_edge {nodes : List Node} (hn : (nodes.map (·.id)).Nodup) {n : Node}
    (hmem : n ∈ nodes) {nb : Bool} {q : PackageId} :
    q ∈ Spec.keptDeps nb n ↔ ∃ k, Spec.Edge nodes n.id q k ∧ Spec.Followed nb k := by
  rw [mem_keptDeps]
  constructor
  · rintro ⟨d, h1, h2, i, h3, h4⟩
    exact ⟨i.kind, ⟨n, hmem, rfl, d, h1, h2, i, h3, rfl⟩, h4⟩
  · rintro ⟨k, ⟨m, hm, e, d, h1, h2, i, h3, rfl⟩, h4⟩
    have : m = n := by
      have a := (lookup_indexResolve hn).2 ⟨hm, e⟩
      have b := (lookup_indexResolve hn).2 ⟨hmem, rfl⟩
      rw [a] at b; exact Option.some.inj b
    subst this
    exact ⟨d, h1, h2, i, h3, h4⟩

/-- The two result maps of the selected traversal. -/
structure Selected (nodes : List Node) (packages : PackageMap) (config : SbomConfig)
    (root : PackageId) (pr : PackageMap × ResolveMap) : Prop where
  sorted₁ : Sorted pr.1
  sorted₂ : Sorted pr.2
  pkgs : ∀ id p, pr.1.lookup id = some p ↔
    packages.lookup id = some p ∧ Listed nodes config root id
  nodes_iff : ∀ id n', pr.2.lookup id = some n' → n'.id = id ∧ Listed nodes config root id ∧
    ∃ n ∈ nodes, n.id = id ∧ n'.dependencies =
      if Spec.AllMode config ∨ id = root then Spec.keptDeps (Spec.noBuildDeps config) n else []
  nodes_all : ∀ id, Listed nodes config root id → ∃ n', pr.2.lookup id = some n'

/-- The traversal chosen by `create_sboms` (`generator.rs` 135-140). -/
def selectPackages (config : SbomConfig) (member : PackageId) (packages : PackageMap)
    (resolve : ResolveMap) : Res (PackageMap × ResolveMap) :=
  if config.getIncludedDependencies = .allDependencies
    then allDependencies member packages resolve config
    else topLevelDependencies member packages resolve config

theorem selected_ok {nodes : List Node} (hc : Spec.Consistent nodes) {pkgs : List Package}
    {config : SbomConfig} {root : PackageId} (hr : root ∈ nodes.map (·.id))
    {pr : PackageMap × ResolveMap}
    (h : selectPackages config root (indexPackages pkgs) (indexResolve nodes) = .ok pr) :
    Selected nodes (indexPackages pkgs) config root pr := by
  unfold selectPackages at h
  have hn := hc.nodup
  split at h
  · next hm =>
    have hall := (getIncluded_iff config).1 hm
    obtain ⟨h1, h2, h3, h4⟩ := allDependencies_ok (keyed_indexResolve nodes) h
    have hl : ∀ id, Listed nodes config root id ↔ ReachI (indexResolve nodes) config root id := by
      intro id
      unfold Listed
      rw [if_pos hall, reachI_iff hn, noBuild_eq]
    refine ⟨?_, h1, ?_, ?_, ?_⟩
    · rw [h4]; exact filter_sorted (sorted_indexPackages pkgs) _
    · intro id p
      have hs1 : Sorted pr.1 := by rw [h4]; exact filter_sorted (sorted_indexPackages pkgs) _
      rw [lookup_iff_mem hs1, h4, List.mem_filter, lookup_iff_mem (sorted_indexPackages pkgs)]
      simp only [contains_iff]
      rw [hl]
      constructor
      · rintro ⟨a, n', hn'⟩
        obtain ⟨n, _, _, hr⟩ := (h2 id n').1 hn'
        exact ⟨a, hr⟩
      · rintro ⟨a, b⟩; exact ⟨a, h3 _ b⟩
    · intro id n' hl'
      obtain ⟨n, a, rfl, c⟩ := (h2 id n').1 hl'
      obtain ⟨hm', e⟩ := (lookup_indexResolve hn).1 a
      refine ⟨e, (hl id).2 c, n, hm', e, ?_⟩
      rw [if_pos (.inl hall), addFiltered_deps]
    · intro id hid; exact h3 id ((hl id).1 hid)
  · next hm =>
    have hall : ¬ Spec.AllMode config := fun h => hm ((getIncluded_iff config).2 h)
    obtain ⟨n, rp, hn0, hrp, h1, h2, h3, h4⟩ := topLevelDependencies_ok h
    obtain ⟨hmem, hid⟩ := (lookup_indexResolve hn).1 hn0
    have hl : ∀ id, Listed nodes config root id ↔
        (id = root ∨ id ∈ (addFilteredDependencies n config).dependencies) := by
      intro id
      unfold Listed
      rw [if_neg hall, addFiltered_deps, mem_keptDeps_edge hn hmem, hid]
    refine ⟨h1, h2, ?_, ?_, ?_⟩
    · intro id p; rw [h3, hl]
    · intro id n' hl'
      have := (h4 id n').1 hl'
      split at this
      · next e =>
        subst this e
        refine ⟨hid, (hl _).2 (.inl rfl), n, hmem, hid, ?_⟩
        rw [if_pos (.inr rfl), addFiltered_deps]
      · next e =>
        obtain ⟨a, m, b, rfl⟩ := this
        obtain ⟨c, d⟩ := (lookup_indexResolve hn).1 b
        refine ⟨d, (hl _).2 (.inr a), m, c, d, ?_⟩
        rw [if_neg (by rintro (x | x); exact hall x; exact e x)]
    · intro id hid
      rcases (hl id).1 hid with rfl | hid
      · exact ⟨_, (h4 _ _).2 (by simp; rfl)⟩
      · by_cases e : id = root
        · subst e; exact ⟨_, (h4 _ _).2 (by simp; rfl)⟩
        · obtain ⟨d, hd, _, rfl⟩ := mem_addFiltered.1 hid
          obtain ⟨m, hm, e'⟩ := hc.closed n hmem d hd
          have := (lookup_indexResolve hn).2 ⟨hm, e'⟩
          exact ⟨_, (h4 _ _).2 (by rw [if_neg e]; exact ⟨hid, m, this, rfl⟩)⟩

theorem selected_total {nodes : List Node} (hc : Spec.Consistent nodes) {pkgs : List Package}
    (hp : (pkgs.map (·.id)).Nodup) (hpk : ∀ n ∈ nodes, ∃ p ∈ pkgs, p.id = n.id)
    {config : SbomConfig} {root : PackageId} (hr : root ∈ nodes.map (·.id)) :
    ∃ pr, selectPackages config root (indexPackages pkgs) (indexResolve nodes) = .ok pr := by
  unfold selectPackages
  split
  · exact allDependencies_total hc hr _ _
  · refine topLevelDependencies_total hc hr ?_ _
    intro n hn
    obtain ⟨p, h1, h2⟩ := hpk n hn
    exact ⟨p, (lookup_indexPackages hp).2 ⟨h1, h2⟩⟩

/-! ## Shape of a generated SBOM -/

theorem createComponent_ok {env : Env} {g : SbomGenerator} {p r : Package}
    {kinds : DependencyKindMap} {c : Component} (h : createComponent env g p r kinds = .ok c) :
    ∃ purl, getPurl env p r g.workspaceRoot none = .ok purl ∧
    c = { Component.new .library (trim p.name) p.version (some p.id) with
      purl := purl
      scope := some (componentScope kinds p.id)
      externalReferences := getExternalReferences env p
      licenses := getLicenses env g.config p
      hashes := getHashes g.crateHashes p
      description := p.description.map normalizedString
      author := if p.authors.isEmpty then none
        else some (normalizedString (joinStr ", " p.authors)) } := by
  unfold createComponent at h
  simp only [Res.bind_ok] at h
  obtain ⟨purl, h1, h2⟩ := h
  exact ⟨purl, h1, (Except.ok.inj h2).symm⟩

/-- Everything `create_sboms` does for one member. -/
structure SbomShape (env : Env) (config : SbomConfig) (workspaceRoot : FPath)
    (packages : PackageMap) (resolve : ResolveMap) (i : Nat) (member : PackageId)
    (s : GeneratedSbom) (kinds : DependencyKindMap) (pr : PackageMap × ResolveMap)
    (pkg : Package) (comps : List Component) (md : Metadata) : Prop where
  kindsOk : indexDepKinds member resolve = .ok kinds
  sel : selectPackages config member packages resolve = .ok pr
  pkgOk : packages.lookup member = some pkg
  rootOk : pr.1.lookup member = some pkg
  compsOk : Rel₂ (fun p c => createComponent env ⟨config, workspaceRoot, memberHashes env pkg.manifestPath⟩
      p pkg kinds = .ok c) (pr.1.values.filter (fun p => p.id != member)) comps
  mdOk : createMetadata env ⟨config, workspaceRoot, memberHashes env pkg.manifestPath⟩ pkg =
    .ok (md, s.targetKinds)
  bom : s.bom = { version := 1, specVersion := .v1_3
                  serialNumber := if env.sourceDateEpoch.isSome then none
                    else some (urnUuidGenerate (env.uuid i))
                  components := some comps
                  metadata := some md
                  dependencies := some (pr.2.values.map fun n =>
                    { dependencyRef := n.id, dependencies := n.dependencies }) }
  manifest : s.manifestPath = pkg.manifestPath
  name : s.packageName = pkg.name
  cfg : s.sbomConfig = config

theorem createSbom_ok {env : Env} {config : SbomConfig} {workspaceRoot : FPath}
    {packages : PackageMap} {resolve : ResolveMap} {i : Nat} {member : PackageId}
    {s : GeneratedSbom}
    (hsub : ∀ pr, selectPackages config member packages resolve = .ok pr →
      ∀ p, pr.1.lookup member = some p → packages.lookup member = some p)
    (h : createSbom env config workspaceRoot packages resolve i member = .ok s) :
    ∃ kinds pr pkg comps md,
      SbomShape env config workspaceRoot packages resolve i member s kinds pr pkg comps md := by
  unfold createSbom at h
  simp only [Res.bind_ok] at h
  obtain ⟨kinds, hk, pr, hpr, pkg, hpkg, r, hr, h⟩ := h
  have hpr' : selectPackages config member packages resolve = .ok pr := hpr
  cases h
  unfold createBom at hr
  simp only [Res.bind_ok] at hr
  obtain ⟨rp, hrp, comps, hcomps, m, hm, hr⟩ := hr
  cases hr
  rw [index_ok] at hpkg hrp
  have := hsub pr hpr' rp hrp
  rw [hpkg] at this; cases this
  refine ⟨kinds, pr, pkg, comps, m.1, hk, hpr', hpkg, hrp, mapM_ok hcomps, hm, ?_, rfl, rfl, rfl⟩
  simp only [createDependencies, List.map_map]
  unfold Bom.default
  split <;> rfl

theorem createSbomsLoop_ok {env : Env} {config : SbomConfig} {ws : FPath} {packages : PackageMap}
    {resolve : ResolveMap} {i : Nat} {members : List PackageId} {sboms : List GeneratedSbom}
    (h : createSbomsLoop env config ws packages resolve i members = .ok sboms) :
    sboms.length = members.length ∧ ∀ (j : Nat) m s, members[j]? = some m → sboms[j]? = some s →
      createSbom env config ws packages resolve (i + j) m = .ok s := by
  induction members generalizing i sboms with
  | nil => simp [createSbomsLoop] at h; subst h; simp
  | cons m ms ih =>
    unfold createSbomsLoop at h
    simp only [Res.bind_ok] at h
    obtain ⟨s, hs, rest, hrest, h⟩ := h
    cases h
    obtain ⟨h1, h2⟩ := ih hrest
    refine ⟨by simp [h1], ?_⟩
    intro j m' s' hm hs'
    cases j with
    | zero => simp at hm hs'; subst hm hs'; exact hs
    | succ j =>
      simp at hm hs'
      have := h2 j m' s' hm hs'
      rwa [show i + (j + 1) = i + 1 + j from by omega]

theorem createSbomsLoop_total {env : Env} {config : SbomConfig} {ws : FPath} {packages : PackageMap}
    {resolve : ResolveMap} {members : List PackageId}
    (h : ∀ i, ∀ m ∈ members, ∃ s, createSbom env config ws packages resolve i m = .ok s) (i : Nat) :
    ∃ sboms, createSbomsLoop env config ws packages resolve i members = .ok sboms := by
  induction members generalizing i with
  | nil => exact ⟨[], rfl⟩
  | cons m ms ih =>
    obtain ⟨s, hs⟩ := h i m List.mem_cons_self
    obtain ⟨r, hr⟩ := ih (fun i m' h' => h i m' (List.mem_cons_of_mem _ h')) (i + 1)
    exact ⟨s :: r, by unfold createSbomsLoop; simp [hs, hr, bind, Except.bind]⟩

/-- The facts about one generated SBOM used by the property theorems. -/
theorem sbom_shape' {env : Env} {md : CargoMetadata} {nodes : List Node}
    (hmd : Spec.MetadataOk md nodes) {config : SbomConfig} {sboms : List GeneratedSbom}
    (h : createSboms env md config = .ok sboms) {s : GeneratedSbom} {root : PackageId} {i : Nat}
    (h1 : sboms[i]? = some s) (h2 : md.workspaceMembers[i]? = some root) :
    ∃ kinds pr pkg comps m,
      SbomShape env config md.workspaceRoot (indexPackages md.packages) (indexResolve nodes)
        i root s kinds pr pkg comps m ∧
      Selected nodes (indexPackages md.packages) config root pr := by
  unfold createSboms at h
  rw [hmd.resolve] at h
  obtain ⟨_, hl⟩ := createSbomsLoop_ok h
  have hc := hl i root s h2 h1
  simp only [Nat.zero_add] at hc
  have hr : root ∈ nodes.map (·.id) := hmd.members _ (List.mem_of_getElem? h2)
  obtain ⟨kinds, pr, pkg, comps, m, sh⟩ := createSbom_ok (by
    intro pr hpr p hp
    exact ((selected_ok hmd.graph hr hpr).pkgs root p).1 hp |>.1) hc
  exact ⟨kinds, pr, pkg, comps, m, sh, selected_ok hmd.graph hr sh.sel⟩

/-- The facts about one generated SBOM used by the property theorems. -/
theorem sbom_shape {env : Env} {md : CargoMetadata} {nodes : List Node}
    (hmd : Spec.MetadataOk md nodes) {config : SbomConfig} {sboms : List GeneratedSbom}
    (h : createSboms env md config = .ok sboms) {s : GeneratedSbom} {root : PackageId}
    (hs : Spec.At sboms s md.workspaceMembers root) :
    ∃ i kinds pr pkg comps m, sboms[i]? = some s ∧ md.workspaceMembers[i]? = some root ∧
      SbomShape env config md.workspaceRoot (indexPackages md.packages) (indexResolve nodes)
        i root s kinds pr pkg comps m ∧
      Selected nodes (indexPackages md.packages) config root pr := by
  obtain ⟨i, h1, h2⟩ := hs
  obtain ⟨kinds, pr, pkg, comps, m, a, b⟩ := sbom_shape' hmd h h1 h2
  exact ⟨i, kinds, pr, pkg, comps, m, h1, h2, a, b⟩

theorem createToplevel_ok {env : Env} {g : SbomGenerator} {p : Package} {r : Component × TargetKinds}
    (h : createToplevelComponent env g p = .ok r) :
    ∃ top subs, createComponent env g p p [] = .ok top ∧
      targetLoop env g p p.id (filterTargets p.targets) [] [] = .ok (subs, r.2) ∧
      r.1 = { top with componentType := getClassification p, components := some subs } := by
  unfold createToplevelComponent at h
  simp only [Res.bind_ok] at h
  obtain ⟨top, h1, ⟨subs, tk⟩, h2, h3⟩ := h
  cases h3
  exact ⟨top, subs, h1, h2, rfl⟩

theorem createMetadata_ok {env : Env} {g : SbomGenerator} {p : Package} {r : Metadata × TargetKinds}
    (h : createMetadata env g p = .ok r) :
    ∃ ts top props, metadataTimestamp env = .ok ts ∧ createToplevelComponent env g p = .ok (top, r.2) ∧
      targetProperties g.config = .ok props ∧
      r.1 = { timestamp := some ts
              authors := if (createAuthors env p).isEmpty then none else some (createAuthors env p)
              component := some top
              tools := some (.list [Tool.new "CycloneDX" "cargo-cyclonedx" env.toolVersion])
              properties := some props } := by
  unfold createMetadata at h
  simp only [Res.bind_ok] at h
  obtain ⟨ts, h1, ⟨top, tk⟩, h2, props, h3, h4⟩ := h
  cases h4
  exact ⟨ts, top, props, h1, h2, h3, rfl⟩

/-! ## Components of a shape -/

section
variable {env : Env} {config : SbomConfig} {ws : FPath} {pkgs : List Package} {nodes : List Node}
  {i : Nat} {root : PackageId} {s : GeneratedSbom} {kinds : DependencyKindMap}
  {pr : PackageMap × ResolveMap} {pkg : Package} {comps : List Component} {m : Metadata}

theorem keyed_indexPackages (pkgs : List Package) {id : PackageId} {p : Package}
    (h : (indexPackages pkgs).lookup id = some p) : p.id = id := by
  have := mem_ofList (lookup_mem h)
  simp only [List.mem_map, Prod.mk.injEq] at this
  obtain ⟨a, _, h1, rfl⟩ := this
  exact h1

theorem shape_refs
    (sh : SbomShape env config ws (indexPackages pkgs) (indexResolve nodes) i root s kinds pr pkg comps m)
    (sel : Selected nodes (indexPackages pkgs) config root pr) :
    comps.map (·.bomRef) = ((keys pr.1).filter (fun k => k != root)).map some := by
  have hid : ∀ kv ∈ pr.1, kv.2.id = kv.1 := by
    intro kv hkv
    have := (lookup_iff_mem sel.sorted₁).2 (show (kv.1, kv.2) ∈ pr.1 from hkv)
    exact keyed_indexPackages pkgs ((sel.pkgs _ _).1 this).1
  have h1 : comps.map (·.bomRef) =
      (pr.1.values.filter (fun p => p.id != root)).map (fun p => some p.id) := by
    symm
    refine Rel₂.map_eq ?_ sh.compsOk
    intro p c hc
    obtain ⟨purl, _, rfl⟩ := createComponent_ok hc
    rfl
  rw [h1]
  unfold values keys
  generalize hl : pr.1 = l at hid
  clear h1 hl
  induction l with
  | nil => rfl
  | cons kv l ih =>
    have h0 := hid kv List.mem_cons_self
    have ih' := ih (fun kv' h' => hid kv' (List.mem_cons_of_mem _ h'))
    simp only [List.map_cons, List.filter_cons]
    rw [h0]
    split
    · simp only [List.map_cons, h0, ih']
    · exact ih'

theorem shape_mem
    (hp : ∀ n ∈ nodes, ∃ p ∈ pkgs, p.id = n.id) (hn : (pkgs.map (·.id)).Nodup)
    (sh : SbomShape env config ws (indexPackages pkgs) (indexResolve nodes) i root s kinds pr pkg comps m)
    (sel : Selected nodes (indexPackages pkgs) config root pr) (r : Option String) :
    r ∈ comps.map (·.bomRef) ↔ ∃ id, r = some id ∧ id ≠ root ∧ Listed nodes config root id := by
  rw [shape_refs sh sel]
  simp only [List.mem_map, List.mem_filter, bne_iff_ne, ne_eq]
  constructor
  · rintro ⟨id, ⟨h1, h2⟩, rfl⟩
    obtain ⟨p, hp⟩ := (mem_keys_iff sel.sorted₁).1 h1
    exact ⟨id, rfl, h2, ((sel.pkgs _ _).1 hp).2⟩
  · rintro ⟨id, rfl, h1, h2⟩
    refine ⟨id, ⟨(mem_keys_iff sel.sorted₁).2 ?_, h1⟩, rfl⟩
    obtain ⟨n', hn'⟩ := sel.nodes_all id h2
    obtain ⟨_, _, n, hn1, hn2, _⟩ := sel.nodes_iff id n' hn'
    obtain ⟨p, hp1, hp2⟩ := hp n hn1
    exact ⟨p, (sel.pkgs _ _).2 ⟨(lookup_indexPackages hn).2 ⟨hp1, hp2.trans hn2⟩, h2⟩⟩

theorem shape_top
    (sh : SbomShape env config ws (indexPackages pkgs) (indexResolve nodes) i root s kinds pr pkg comps m) :
    Spec.topRef s.bom = some root := by
  obtain ⟨ts, top, props, _, h2, _, h4⟩ := createMetadata_ok sh.mdOk
  obtain ⟨top', subs, h5, _, h6⟩ := createToplevel_ok h2
  obtain ⟨purl, _, rfl⟩ := createComponent_ok h5
  unfold Spec.topRef Spec.topComponent
  simp only at h4 h6
  rw [sh.bom, h4, h6]
  simp only [Option.bind_some, Component.new, Option.some.injEq]
  exact keyed_indexPackages pkgs sh.pkgOk

theorem shape_deps_refs
    (sh : SbomShape env config ws (indexPackages pkgs) (indexResolve nodes) i root s kinds pr pkg comps m)
    (sel : Selected nodes (indexPackages pkgs) config root pr) :
    (Spec.dependencyEntries s.bom).map (·.dependencyRef) = keys pr.2 := by
  unfold Spec.dependencyEntries
  rw [sh.bom]
  simp only [Option.getD_some, List.map_map]
  unfold values keys
  rw [List.map_map]
  apply List.map_congr_left
  intro kv hkv
  have := (lookup_iff_mem sel.sorted₂).2 (show (kv.1, kv.2) ∈ pr.2 from hkv)
  exact (sel.nodes_iff _ _ this).1

theorem shape_deps_mem
    (sh : SbomShape env config ws (indexPackages pkgs) (indexResolve nodes) i root s kinds pr pkg comps m)
    (sel : Selected nodes (indexPackages pkgs) config root pr) {d : Dependency}
    (hd : d ∈ Spec.dependencyEntries s.bom) :
    Listed nodes config root d.dependencyRef ∧
    ∃ n ∈ nodes, n.id = d.dependencyRef ∧ d.dependencies =
      if Spec.AllMode config ∨ d.dependencyRef = root then Spec.keptDeps (Spec.noBuildDeps config) n
      else [] := by
  unfold Spec.dependencyEntries at hd
  rw [sh.bom] at hd
  simp only [Option.getD_some] at hd
  unfold values at hd
  rw [List.map_map] at hd
  obtain ⟨kv, hkv, rfl⟩ := List.mem_map.1 hd
  have := (lookup_iff_mem sel.sorted₂).2 (show (kv.1, kv.2) ∈ pr.2 from hkv)
  obtain ⟨h1, h2, n, h3, h4, h5⟩ := sel.nodes_iff _ _ this
  obtain ⟨k, v⟩ := kv
  simp only at h1 h2 h4 h5
  subst h1
  exact ⟨h2, n, h3, h4, h5⟩

end

theorem listed_root {nodes : List Node} {config : SbomConfig} {root : PackageId} :
    Listed nodes config root root := by
  unfold Listed
  split
  · exact .root
  · exact .inl rfl

theorem listed_reach {nodes : List Node} {config : SbomConfig} {root id : PackageId}
    (h : Listed nodes config root id) :
    Spec.ReachVia nodes (Spec.Followed (Spec.noBuildDeps config)) root id := by
  unfold Listed at h
  split at h
  · exact h
  · rcases h with rfl | ⟨k, h1, h2⟩
    · exact .root
    · exact .step .root h1 h2

theorem reachVia_mono {nodes : List Node} {P Q : DependencyKind → Prop} (hpq : ∀ k, P k → Q k)
    {root id : PackageId} (h : Spec.ReachVia nodes P root id) : Spec.ReachVia nodes Q root id := by
  induction h with
  | root => exact .root
  | step _ h2 h3 ih => exact .step ih h2 (hpq _ h3)

theorem reachVia_pathKind {nodes : List Node} {P : DependencyKind → Prop} {root id : PackageId}
    (h : Spec.ReachVia nodes P root id) : ∃ k, Spec.PathKind nodes root id k := by
  induction h with
  | root => exact ⟨_, .root⟩
  | step _ h2 _ ih => obtain ⟨k, hk⟩ := ih; exact ⟨_, .step hk h2⟩

theorem normalPath_iff {nodes : List Node} {root id : PackageId} :
    Spec.PathKind nodes root id .normal ↔ Spec.ReachVia nodes (· = .normal) root id := by
  constructor
  · intro h
    generalize hk : DependencyKind.normal = k at h
    induction h with
    | root => exact .root
    | step h1 h2 ih =>
      next k1 k2 =>
      have : k1 = .normal ∧ k2 = .normal := by
        cases k1 <;> cases k2 <;> simp [Spec.weaker, Spec.strength] at hk ⊢
      obtain ⟨rfl, rfl⟩ := this
      exact .step (ih rfl) h2 rfl
  · intro h
    induction h with
    | root => exact .root
    | step _ h2 h3 ih =>
      subst h3
      exact .step ih h2

end Cdx
