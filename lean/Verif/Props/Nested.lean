import Verif.Props.Paths

/-!
# C107: the SBOM of a member is a part of the SBOM of a member that depends on it
-/

namespace Cdx.Props

open Spec

variable {env : Env} {md : CargoMetadata} {nodes : List Node} {config : SbomConfig} {sboms : List GeneratedSbom}
  {s s' : GeneratedSbom} {p q : PackageId}

private theorem reach_trans {ok : DependencyKind → Prop} {a b c : PackageId} (h : ReachVia nodes ok a b)
    (h' : ReachVia nodes ok b c) : ReachVia nodes ok a c := by
  induction h' with
  | root => exact h
  | step _ he hk ih => exact .step ih he hk

private theorem described_iff (hmd : MetadataOk md nodes) (h : createSboms env md config = .ok sboms)
    (hs : At sboms s md.workspaceMembers p) (hm : AllMode config) (r : String) :
    Described s.bom r ↔ ReachVia nodes (Followed (noBuildDeps config)) p r := by
  have h1 := (C02_all_dependencies hmd h hs hm).1
  obtain ⟨t, ht, hl⟩ := C106_no_orphans hmd h hs
  cases h1.symm.trans ht
  rw [hl, C106_paths hmd h hs hm (.inl h1)]

private theorem required_reach (hmd : MetadataOk md nodes) (h : createSboms env md config = .ok sboms)
    (hs : At sboms s md.workspaceMembers p) {c : Component} (hc : c ∈ components s.bom) {r : String}
    (hr : c.bomRef = some r) : c.scope = some .required ↔ ReachVia nodes (· = .normal) p r := by
  obtain ⟨id, e, h1, h2⟩ := C01_scope hmd h hs c hc
  cases hr.symm.trans e
  refine ⟨fun hreq => Classical.byContradiction fun hn => ?_, h1⟩
  rw [h2 hn] at hreq
  exact nomatch hreq

/-- C107: when all dependencies are listed and the SBOM of a member of the workspace describes another
member, then all that the SBOM of the other member describes is described in the first as well, with the same
entries in the dependency section; and what is required by a member that is itself required, is required. -/
theorem C107_nested (hmd : MetadataOk md nodes) (h : createSboms env md config = .ok sboms)
    (hs : At sboms s md.workspaceMembers p) (hs' : At sboms s' md.workspaceMembers q) (hm : AllMode config)
    (hq : Described s.bom q) :
    (∀ r, Described s'.bom r → Described s.bom r) ∧
    (∀ d ∈ dependencyEntries s'.bom, d ∈ dependencyEntries s.bom) ∧
    (∀ c ∈ components s.bom, c.bomRef = some q → c.scope = some .required →
      ∀ x' ∈ components s'.bom, x'.scope = some .required →
        ∀ x ∈ components s.bom, x.bomRef = x'.bomRef → x.scope = some .required) := by
  have sub : ∀ r, Described s'.bom r → Described s.bom r := by
    intro r hr
    rw [described_iff hmd h hs' hm] at hr
    rw [described_iff hmd h hs hm] at hq ⊢
    exact reach_trans hq hr
  refine ⟨sub, ?_, ?_⟩
  · intro d' hd'
    have hr := (C03_dependencies_closed hmd h hs').1 d' hd' _ (List.mem_cons_self ..)
    obtain ⟨d, hd, e⟩ := List.mem_map.1 ((C03_dependencies_closed hmd h hs).2.2 _ (sub _ hr))
    obtain ⟨n, hn, hid, hdeps⟩ := C04_edges_exact hmd h hs hm d hd
    obtain ⟨n', hn', hid', hdeps'⟩ := C04_edges_exact hmd h hs' hm d' hd'
    have : n = n' := Option.some.inj
      (((lookup_indexResolve hmd.graph.nodup).2 ⟨hn, hid⟩).symm.trans
        ((lookup_indexResolve hmd.graph.nodup).2 ⟨hn', hid'.trans e.symm⟩))
    subst this
    have : d = d' := by
      cases d
      cases d'
      simp only at e hdeps hdeps'
      rw [e, hdeps, hdeps']
    exact this ▸ hd
  · intro c hc hcq hreq x' hx' hreq' x hx e
    obtain ⟨r, hr, -⟩ := C01_scope hmd h hs x hx
    have hr' : x'.bomRef = some r := e ▸ hr
    rw [required_reach hmd h hs hx hr]
    exact reach_trans ((required_reach hmd h hs hc hcq).1 hreq) ((required_reach hmd h hs' hx' hr').1 hreq')

/-! ### Non-vacuity -/

/-- The references and scopes of the components of the SBOMs. -/
def refScopes : Res (List GeneratedSbom) → List (List (Option String × Option Scope))
  | .ok l => l.map fun s => (components s.bom).map fun c => (c.bomRef, c.scope)
  | .error _ => []

/-- The dependency sections of the SBOMs. -/
def sectionsOf : Res (List GeneratedSbom) → List (List (String × List String))
  | .ok l => l.map fun s => (dependencyEntries s.bom).map fun d => (d.dependencyRef, d.dependencies)
  | .error _ => []

/-- The example where `a` needs `c` when it runs. -/
def nestedNodes : List Node :=
  { id := "a", deps := [Example.dep "c" [.normal]], dependencies := ["c"] } :: Example.nodes.filter (·.id ≠ "a")

/-- The members are `root` and `a`, and `root` depends on `a`. -/
def nestedMembers : CargoMetadata := { Example.md with workspaceMembers := ["root", "a"], resolve := some nestedNodes }

/-- It meets the hypotheses. -/
example : MetadataOk nestedMembers nestedNodes ∧ AllMode Example.config ∧
    refScopes (createSboms { Example.env with debug := false } nestedMembers Example.config) =
      [[(some "a", some .required), (some "b", some .excluded), (some "c", some .required)],
        [(some "c", some .required)]] ∧
    sectionsOf (createSboms { Example.env with debug := false } nestedMembers Example.config) =
      [[("a", ["c"]), ("b", ["c"]), ("c", []), ("root", ["a", "b"])], [("a", ["c"]), ("c", [])]] :=
  ⟨{ resolve := rfl, graph := { nodup := by decide, closed := by decide, known := by decide },
     packagesNodup := by decide, packages := by decide, members := by decide },
    by decide, by decide +kernel, by decide +kernel⟩

end Cdx.Props
