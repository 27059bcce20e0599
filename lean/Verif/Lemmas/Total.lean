import Verif.Lemmas.Targets
import Verif.Lemmas.Strings

/-!
# No panic: totality of the generator
-/

set_option linter.unusedSectionVars false
set_option linter.unusedSimpArgs false

namespace Cdx
open OMap

/-- The conditions under which nothing in `get_purl` can panic for package `p` below `root`. -/
theorem getPurl_total {env : Env} {p root : Package} {ws : FPath} {sub : Option (List String)}
    (hp : p.manifestPath ≠ []) (hr : root.manifestPath ≠ [])
    (hroot : env.debug = true → FPath.startsWith root.manifestPath.dropLast ws = true)
    (hpurl : env.debug = true → ∀ n v q s u, env.purlRender n v q s = some u → env.purlValid u = true) :
    ∃ r, getPurl env p root ws sub = .ok r := by
  have hq : ∃ qs, purlQualifiers env p root ws = .ok qs := by
    unfold purlQualifiers
    split
    · next src _ =>
      split
      · exact ⟨_, rfl⟩
      · split
        · next k rest hk =>
          split
          · next e =>
            obtain ⟨e1, _⟩ := splitOnceChars_eq hk
            have : startsWith src "git+" = true := by
              unfold startsWith
              rw [e1, e, Option.isSome_iff_exists]
              exact ⟨rest, stripPrefixChars_iff.2 (by simp)⟩
            simp [sourceToVcsUrl, this, bind, Except.bind]
          · split <;> exact ⟨_, rfl⟩
        · exact ⟨_, rfl⟩
    · have : ∃ d, localPackageDir env p root ws = .ok d := by
        unfold localPackageDir FPath.parent
        rw [if_neg (by simpa using hp)]
        simp only
        split
        · rw [if_neg (by simpa using hr)]
          simp only
          split
          · next hc =>
            simp only [Bool.and_eq_true, Bool.not_eq_true'] at hc
            rw [hroot hc.1] at hc; simp at hc
          · exact ⟨_, rfl⟩
        · exact ⟨_, rfl⟩
      obtain ⟨d, hd⟩ := this
      simp [hd, bind, Except.bind]
  obtain ⟨qs, hq⟩ := hq
  unfold getPurl
  simp only [hq, bind, Except.bind]
  split
  · exact ⟨_, rfl⟩
  · next u hu =>
    split
    · next hc =>
      simp only [Bool.and_eq_true, Bool.not_eq_true'] at hc
      rw [hpurl hc.1 _ _ _ _ _ hu] at hc; simp at hc
    · exact ⟨_, rfl⟩

theorem createComponent_total {env : Env} {g : SbomGenerator} {p root : Package}
    {k : DependencyKindMap} {ws : FPath} (hws : g.workspaceRoot = ws)
    (hp : p.manifestPath ≠ []) (hr : root.manifestPath ≠ [])
    (hroot : env.debug = true → FPath.startsWith root.manifestPath.dropLast ws = true)
    (hpurl : env.debug = true → ∀ n v q s u, env.purlRender n v q s = some u → env.purlValid u = true) :
    ∃ c, createComponent env g p root k = .ok c := by
  obtain ⟨r, h⟩ := getPurl_total (sub := none) hp hr hroot hpurl
  unfold createComponent
  simp [hws, h, bind, Except.bind]

theorem createMetadata_total {env : Env} {g : SbomGenerator} {p : Package} {ws : FPath}
    (hws : g.workspaceRoot = ws) (hp : p.manifestPath ≠ [])
    (hroot : env.debug = true → FPath.startsWith p.manifestPath.dropLast ws = true)
    (hpurl : env.debug = true → ∀ n v q s u, env.purlRender n v q s = some u → env.purlValid u = true)
    (htime : ∃ t, metadataTimestamp env = .ok t) (ht : g.config.target ≠ none) :
    ∃ m, createMetadata env g p = .ok m := by
  obtain ⟨t, ht'⟩ := htime
  obtain ⟨c, hc⟩ := createComponent_total (g := g) (k := []) hws hp hp hroot hpurl
  obtain ⟨r, hr⟩ := targetLoop_total (env := env) (g := g) (p := p) (ref := p.id)
    (ts := filterTargets p.targets) (by
      intro t _ ty ref
      unfold createSubcomponent FPath.parent
      simp only [if_neg (show ¬ p.manifestPath.isEmpty = true by simpa using hp)]
      split
      · next rel _ =>
        obtain ⟨u, hu⟩ := getPurl_total (env := env) (ws := ws) (sub := some rel) hp hp hroot hpurl
        simp [hws, hu, bind, Except.bind]
      · exact ⟨_, rfl⟩) [] []
  have hprop : ∃ ps, targetProperties g.config = .ok ps := by
    unfold targetProperties
    split
    · next e => exact absurd e ht
    · exact ⟨_, rfl⟩
    · exact ⟨_, rfl⟩
  obtain ⟨ps, hps⟩ := hprop
  unfold createMetadata createToplevelComponent
  simp [ht', hc, hr, hps, bind, Except.bind]

/-- No panic and no error in `create_sboms`, given consistent metadata. -/
theorem createSboms_total {env : Env} {md : CargoMetadata} {nodes : List Node}
    {config : SbomConfig} (hmd : Spec.MetadataOk md nodes)
    (hman : ∀ p ∈ md.packages, p.manifestPath ≠ [])
    (hin : env.debug = true → ∀ p ∈ md.packages, p.id ∈ md.workspaceMembers →
      FPath.startsWith p.manifestPath.dropLast md.workspaceRoot = true)
    (hpurl : env.debug = true → ∀ n v q s u, env.purlRender n v q s = some u → env.purlValid u = true)
    (htime : ∃ t, metadataTimestamp env = .ok t) (ht : config.target ≠ none) :
    ∃ sboms, createSboms env md config = .ok sboms := by
  unfold createSboms
  rw [hmd.resolve]
  refine createSbomsLoop_total ?_ 0
  intro i m hm
  have hnode := hmd.members m hm
  obtain ⟨kinds, hk⟩ := indexDepKinds_total hmd.graph hnode
  obtain ⟨pr, hpr⟩ := selected_total (config := config) hmd.graph hmd.packagesNodup hmd.packages hnode
  have sel := selected_ok hmd.graph hnode hpr
  obtain ⟨n, hn, hid⟩ := List.mem_map.1 hnode
  obtain ⟨pkg, hpkg, hpid⟩ := hmd.packages n hn
  have hl := (lookup_indexPackages hmd.packagesNodup (id := m) (p := pkg)).2 ⟨hpkg, hpid.trans hid⟩
  have hl' : pr.1.lookup m = some pkg := (sel.pkgs _ _).2 ⟨hl, listed_root⟩
  have hmanp := hman _ hpkg
  have hinp : env.debug = true → FPath.startsWith pkg.manifestPath.dropLast md.workspaceRoot = true :=
    fun hd => hin hd _ hpkg (by rw [hpid, hid]; exact hm)
  have hidx : ∀ {mm : PackageMap}, mm.lookup m = some pkg → mm.index m = .ok pkg := by
    intro mm h; simp [OMap.index, h]
  unfold createSbom
  unfold selectPackages at hpr
  simp only [hk, hpr, hidx hl, bind, Except.bind]
  obtain ⟨cs, hcs⟩ := mapM_total (f := fun c => createComponent env
      ⟨config, md.workspaceRoot, memberHashes env pkg.manifestPath⟩ c pkg kinds)
    (as := pr.1.values.filter (fun p => p.id != m)) (by
      intro c hc
      obtain ⟨kv, hkv, rfl⟩ := List.mem_map.1 (List.mem_filter.1 hc).1
      have hl := (lookup_iff_mem sel.sorted₁).2 (show (kv.1, kv.2) ∈ pr.1 from hkv)
      obtain ⟨hl1, _⟩ := (sel.pkgs _ _).1 hl
      obtain ⟨hmem, _⟩ := (lookup_indexPackages hmd.packagesNodup).1 hl1
      exact createComponent_total rfl (hman _ hmem) hmanp hinp hpurl)
  obtain ⟨mm, hmm⟩ := createMetadata_total (env := env)
    (g := ⟨config, md.workspaceRoot, memberHashes env pkg.manifestPath⟩) rfl hmanp hinp hpurl htime ht
  unfold createBom
  simp only [hidx hl', hcs, hmm, bind, Except.bind]
  exact ⟨_, rfl⟩

end Cdx
