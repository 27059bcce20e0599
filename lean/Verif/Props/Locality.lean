import Verif.Lemmas.Locality
import Verif.Props.Graph

/-!
# C102: an SBOM depends only on what the package uses
-/

namespace Cdx.Props

open Spec OMap

variable {env : Env} {md md' : CargoMetadata} {nodes nodes' : List Node} {config : SbomConfig}
  {sboms sboms' : List GeneratedSbom} {s s' : GeneratedSbom} {root : PackageId} {i : Nat}

private theorem scope_eq (hmd : MetadataOk md nodes) (h : createSboms env md config = .ok sboms)
    (hs : At sboms s md.workspaceMembers root) {kinds : DependencyKindMap} {g : SbomGenerator} {p pkg : Package}
    {c : Component} (hc : c ∈ components s.bom) (hp : createComponent env g p pkg kinds = .ok c) :
    (ReachVia nodes (· = .normal) root p.id → componentScope kinds p.id = .required) ∧
      (¬ ReachVia nodes (· = .normal) root p.id → componentScope kinds p.id = .excluded) := by
  obtain ⟨purl, -, e⟩ := createComponent_ok hp
  obtain ⟨id, hid, h1, h2⟩ := C01_scope hmd h hs c hc
  have e1 : c.bomRef = some p.id := by rw [e]; rfl
  have e2 : c.scope = some (componentScope kinds p.id) := by rw [e]
  rw [e1] at hid
  cases hid
  rw [e2] at h1 h2
  exact ⟨fun h => Option.some.inj (h1 h), fun h => Option.some.inj (h2 h)⟩

/-- C102: the SBOM of a package depends only on the packages that it uses, directly or not, and on their
dependencies other than development dependencies. If two answers of cargo agree on these, the SBOMs are
equal, whatever other packages and members there are, and whatever the development dependencies are.
(The position among the members is the same, since it decides which UUID is drawn.) -/
theorem C102_local (hmd : MetadataOk md nodes) (hmd' : MetadataOk md' nodes')
    (h : createSboms env md config = .ok sboms) (h' : createSboms env md' config = .ok sboms')
    (hr : md.workspaceMembers[i]? = some root) (hr' : md'.workspaceMembers[i]? = some root)
    (hs : sboms[i]? = some s) (hs' : sboms'[i]? = some s') (ha : AgreeOn md nodes md' nodes' root) : s' = s := by
  obtain ⟨kinds, pr, pkg, comps, m, sh, sel⟩ := sbom_shape' hmd h hs hr
  obtain ⟨kinds', pr', pkg', comps', m', sh', sel'⟩ := sbom_shape' hmd' h' hs' hr'
  have hroot : root ∈ nodes.map (·.id) := hmd.members _ (List.mem_of_getElem? hr)
  have hpr := agree_selected hmd hmd' ha hroot sel sel'
  have hres := agree_resolve hmd hmd' ha hroot sel sel'
  have hpkg : pkg' = pkg := by
    have h1 := sh'.rootOk
    rw [hpr, sh.rootOk] at h1
    exact (Option.some.inj h1).symm
  subst hpkg
  have hm : (m', s'.targetKinds) = (m, s.targetKinds) := by
    have h1 := sh'.mdOk
    rw [ha.workspace, sh.mdOk] at h1
    exact (Except.ok.inj h1).symm
  have hcomps : comps' = comps := by
    have hc' := sh'.compsOk
    rw [hpr, ha.workspace] at hc'
    refine Rel₂.unique hc' sh.compsOk fun p hp c' c h1' h1 => ?_
    obtain ⟨x, hx, hxp⟩ := Rel₂.mem_left sh.compsOk hp
    obtain ⟨y, hy, hyp⟩ := Rel₂.mem_left hc' hp
    have hx' : x ∈ components s.bom := by simpa [components, sh.bom] using hx
    have hy' : y ∈ components s'.bom := by simpa [components, sh'.bom] using hy
    have a := scope_eq hmd h ⟨i, hs, hr⟩ hx' hxp
    have b := scope_eq hmd' h' ⟨i, hs', hr'⟩ hy' hyp
    rw [agree_reach hmd hmd' ha hroot (ok := (· = .normal)) (by rintro k rfl; decide)] at b
    have hsc : componentScope kinds' p.id = componentScope kinds p.id := by
      by_cases hn : ReachVia nodes (· = .normal) root p.id
      · rw [a.1 hn, b.1 hn]
      · rw [a.2 hn, b.2 hn]
    obtain ⟨u, hu, e⟩ := createComponent_ok h1
    obtain ⟨u', hu', e'⟩ := createComponent_ok h1'
    have : u' = u := Except.ok.inj (hu'.symm.trans hu)
    rw [e, e', hsc, this]
  have hdeps : (pr'.2.values.map fun n => ({ dependencyRef := n.id, dependencies := n.dependencies } : Dependency)) =
      pr.2.values.map fun n => { dependencyRef := n.id, dependencies := n.dependencies } := by
    have := congrArg (List.map fun x : PackageId × (PackageId × List PackageId) =>
      ({ dependencyRef := x.2.1, dependencies := x.2.2 } : Dependency)) hres
    simpa [OMap.mapValues, OMap.values, List.map_map, Function.comp_def] using this
  have hb : s'.bom = s.bom := by
    rw [sh.bom, sh'.bom, hcomps, hdeps, (Prod.mk.inj hm).1]
  have h1 := sh'.manifest.trans sh.manifest.symm
  have h2 := sh'.name.trans sh.name.symm
  have h3 := sh'.cfg.trans sh.cfg.symm
  have h4 := (Prod.mk.inj hm).2
  cases s
  cases s'
  simp only at hb h1 h2 h3 h4
  rw [hb, h1, h2, h3, h4]

/-! ### Non-vacuity -/

/-- The resolve graph of the example without the package `z` and without development dependencies, where `t`
depends on another package. -/
def otherNodes : List Node :=
  [{ id := "root", deps := [Example.dep "a" [.normal], Example.dep "b" [.build]], dependencies := ["a", "b"] },
   { id := "b", deps := [Example.dep "c" [.normal]], dependencies := ["c"] },
   { id := "a", deps := [Example.dep "c" [.build]], dependencies := ["c"] },
   { id := "c", deps := [], dependencies := [] },
   { id := "t", deps := [Example.dep "b" [.normal]], dependencies := ["b"] }]

/-- The metadata for that, with another member. -/
def otherMd : CargoMetadata where
  packages := [Example.rootPkg, Example.pkg "t", Example.pkg "c", Example.pkg "b", Example.pkg "a"]
  workspaceMembers := ["root", "t"]
  resolve := some otherNodes
  workspaceRoot := ["w"]

/-- Both are consistent and agree on what `root` uses, although they are different. -/
example : MetadataOk Example.md Example.nodes ∧ MetadataOk otherMd otherNodes ∧
    AgreeOn Example.md Example.nodes otherMd otherNodes "root" ∧
    Example.md.workspaceMembers[0]? = some "root" ∧ otherMd.workspaceMembers[0]? = some "root" ∧
    (∃ l, createSboms Example.env Example.md Example.config = .ok l ∧ l.length = 1) ∧
    ∃ l, createSboms Example.env otherMd Example.config = .ok l ∧ l.length = 2 := by
  have hz : ¬ ReachVia Example.nodes (· ≠ .development) "root" "z" := by
    intro h
    generalize hq : "z" = q at h
    cases h with
    | root => exact absurd hq (by decide)
    | step _ he _ =>
      subst hq
      obtain ⟨n, hn, -, d, hd, e, -⟩ := he
      exact absurd e (by revert n d; decide)
  have ht : ¬ ReachVia Example.nodes (· ≠ .development) "root" "t" := by
    intro h
    generalize hq : "t" = q at h
    cases h with
    | root => exact absurd hq (by decide)
    | step _ he hk =>
      subst hq
      obtain ⟨n, hn, -, d, hd, e, i, hi, rfl⟩ := he
      revert n d i
      decide
  refine ⟨Example.md_ok, ?_, ?_, rfl, rfl, ⟨_, rfl, rfl⟩, ⟨_, rfl, rfl⟩⟩
  · exact { resolve := rfl, graph := { nodup := by decide, closed := by decide, known := by decide },
            packagesNodup := by decide, packages := by decide, members := by decide }
  · refine ⟨rfl, ?_, ?_⟩
    · intro p hp hr
      by_cases e : p.id = "z"
      · rw [e] at hr; exact absurd hr hz
      · clear hr
        revert p
        decide
    · intro n hn hr
      by_cases e : n.id = "z" ∨ n.id = "t"
      · rcases e with e | e <;> rw [e] at hr
        · exact absurd hr hz
        · exact absurd hr ht
      · clear hr
        revert n
        decide

end Cdx.Props
