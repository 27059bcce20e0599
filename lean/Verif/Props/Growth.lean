import Verif.Props.Graph

/-!
# C103: more dependencies never remove a component
-/

namespace Cdx.Props

open Spec

variable {env env' : Env} {md md' : CargoMetadata} {nodes nodes' : List Node} {config : SbomConfig}
  {sboms sboms' : List GeneratedSbom} {s s' : GeneratedSbom} {root : PackageId}

private theorem reach_more (hmore : ∀ p q k, Edge nodes p q k → Edge nodes' p q k) {ok : DependencyKind → Prop}
    {id : PackageId} (h : ReachVia nodes ok root id) : ReachVia nodes' ok root id := by
  induction h with
  | root => exact .root
  | step _ he hk ih => exact .step ih (hmore _ _ _ he) hk

/-- C103: if the dependencies of a workspace are only added to, a component that was listed stays listed, in
both dependency modes, and one that was required stays required. -/
theorem C103_growth (hmd : MetadataOk md nodes) (hmd' : MetadataOk md' nodes')
    (h : createSboms env md config = .ok sboms) (h' : createSboms env' md' config = .ok sboms')
    (hs : At sboms s md.workspaceMembers root) (hs' : At sboms' s' md'.workspaceMembers root)
    (hmore : ∀ p q k, Edge nodes p q k → Edge nodes' p q k) :
    ∀ c ∈ components s.bom, ∃ c' ∈ components s'.bom, c'.bomRef = c.bomRef ∧
      (c.scope = some .required → c'.scope = some .required) := by
  intro c hc
  have hmem : c.bomRef ∈ componentRefs s.bom := List.mem_map.2 ⟨c, hc, rfl⟩
  have hmem' : c.bomRef ∈ componentRefs s'.bom := by
    by_cases hm : AllMode config
    · obtain ⟨id, e, hne, hreach⟩ := ((C02_all_dependencies hmd h hs hm).2.2 _).1 hmem
      exact ((C02_all_dependencies hmd' h' hs' hm).2.2 _).2 ⟨id, e, hne, reach_more hmore hreach⟩
    · have hm' : config.includedDependencies = some .topLevelDependencies := by
        unfold AllMode at hm
        exact Classical.not_not.1 hm
      obtain ⟨id, e, hne, k, he, hk⟩ := ((C07_top_level hmd h hs hm').2.2.1 _).1 hmem
      exact ((C07_top_level hmd' h' hs' hm').2.2.1 _).2 ⟨id, e, hne, k, hmore _ _ _ he, hk⟩
  obtain ⟨c', hc', e⟩ := List.mem_map.1 hmem'
  refine ⟨c', hc', e, fun hreq => ?_⟩
  obtain ⟨id, hid, -, h2⟩ := C01_scope hmd h hs c hc
  obtain ⟨id', hid', h1', -⟩ := C01_scope hmd' h' hs' c' hc'
  have : id' = id := by
    have := hid'.symm.trans (e.trans hid)
    exact Option.some.inj this
  subst this
  refine h1' (reach_more hmore ?_)
  refine Classical.byContradiction fun hn => ?_
  have := h2 hn
  rw [hreq] at this
  exact nomatch this

/-! ### Non-vacuity -/

/-- The example where `root` also depends on `z` and `c`. -/
def grownNodes : List Node :=
  { id := "root", deps := [Example.dep "a" [.normal], Example.dep "b" [.build], Example.dep "t" [.development],
      Example.dep "c" [.normal], Example.dep "z" [.build]],
    dependencies := ["a", "b", "t", "c", "z"] } :: Example.nodes.filter (·.id ≠ "root")

/-- The names and scopes of the components of the SBOMs. -/
def scopesOf : Res (List GeneratedSbom) → List (List (String × Option Scope))
  | .ok l => l.map fun s => (components s.bom).map fun c => (c.name, c.scope)
  | .error _ => []

/-- The example meets the hypotheses; `z` is added, and `c` becomes required. -/
example : MetadataOk Example.md Example.nodes ∧
    MetadataOk { Example.md with resolve := some grownNodes } grownNodes ∧
    (∀ p q k, Edge Example.nodes p q k → Edge grownNodes p q k) ∧
    scopesOf (createSboms Example.env Example.md Example.config) =
      [[("a", some .required), ("b", some .excluded), ("c", some .excluded)]] ∧
    scopesOf (createSboms Example.env { Example.md with resolve := some grownNodes } Example.config) =
      [[("a", some .required), ("b", some .excluded), ("c", some .required), ("z", some .excluded)]] := by
  refine ⟨Example.md_ok, ?_, ?_, by decide +kernel, by decide +kernel⟩
  · exact { resolve := rfl, graph := { nodup := by decide, closed := by decide, known := by decide },
            packagesNodup := by decide, packages := by decide, members := by decide }
  · rintro p q k ⟨n, hn, rfl, d, hd, rfl, i, hi, rfl⟩
    revert n d i
    unfold Edge
    decide

end Cdx.Props
