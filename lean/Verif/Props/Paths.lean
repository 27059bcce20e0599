import Verif.Spec.Paths
import Verif.Props.Graph

/-!
# C106: the dependency section connects what the SBOM lists
-/

namespace Cdx.Props

open Spec

variable {env : Env} {md : CargoMetadata} {nodes : List Node} {config : SbomConfig} {sboms : List GeneratedSbom}
  {s : GeneratedSbom} {root : PackageId}

private theorem leads_described (hmd : MetadataOk md nodes) (h : createSboms env md config = .ok sboms)
    (hs : At sboms s md.workspaceMembers root) {p q : String} (hp : Described s.bom p) (hl : LeadsTo s.bom p q) :
    Described s.bom q := by
  induction hl with
  | here => exact hp
  | step _ hd _ hr _ => exact (C03_dependencies_closed hmd h hs).1 _ hd _ (List.mem_cons_of_mem _ hr)

private theorem entry_of (hmd : MetadataOk md nodes) (h : createSboms env md config = .ok sboms)
    (hs : At sboms s md.workspaceMembers root) {p : String} (hp : Described s.bom p) :
    ∃ d ∈ dependencyEntries s.bom, d.dependencyRef = p :=
  List.mem_map.1 ((C03_dependencies_closed hmd h hs).2.2 p hp)

/-- C106: when all dependencies are listed, the dependency section leads from one package to another exactly
if the first depends on the second, directly or not, through dependencies that the SBOM takes up. -/
theorem C106_paths (hmd : MetadataOk md nodes) (h : createSboms env md config = .ok sboms)
    (hs : At sboms s md.workspaceMembers root) (hm : AllMode config) {p : String} (hp : Described s.bom p)
    (q : String) : LeadsTo s.bom p q ↔ ReachVia nodes (Followed (noBuildDeps config)) p q := by
  constructor
  · intro hl
    induction hl with
    | here => exact .root
    | step _ hd e hr ih =>
      obtain ⟨n, hn, hid, hdeps⟩ := C04_edges_exact hmd h hs hm _ hd
      rw [hdeps, mem_keptDeps_edge hmd.graph.nodup hn, hid, e] at hr
      obtain ⟨k, he, hf⟩ := hr
      exact .step ih he hf
  · intro hr
    induction hr with
    | root => exact .here
    | step _ he hf ih =>
      obtain ⟨d, hd, e⟩ := entry_of hmd h hs (leads_described hmd h hs hp ih)
      obtain ⟨n, hn, hid, hdeps⟩ := C04_edges_exact hmd h hs hm _ hd
      refine .step ih hd e ?_
      rw [hdeps, mem_keptDeps_edge hmd.graph.nodup hn, hid, e]
      exact ⟨_, he, hf⟩

/-- C106: in both dependency modes the dependency section leads from the component that the SBOM is about to
every component in its list, and to nothing else. -/
theorem C106_no_orphans (hmd : MetadataOk md nodes) (h : createSboms env md config = .ok sboms)
    (hs : At sboms s md.workspaceMembers root) :
    ∃ t, topRef s.bom = some t ∧ ∀ r, Described s.bom r ↔ LeadsTo s.bom t r := by
  by_cases hm : AllMode config
  · obtain ⟨h1, -, h3⟩ := C02_all_dependencies hmd h hs hm
    refine ⟨root, h1, fun r => ⟨?_, leads_described hmd h hs (.inl h1)⟩⟩
    rintro (e | e)
    · cases h1.symm.trans e
      exact .here
    · obtain ⟨id, e, -, hr⟩ := (h3 _).1 e
      cases e
      exact (C106_paths hmd h hs hm (.inl h1) _).2 hr
  · have ht : config.includedDependencies = some .topLevelDependencies := Classical.not_not.1 hm
    obtain ⟨h1, -, h3, h4⟩ := C07_top_level hmd h hs ht
    refine ⟨root, h1, fun r => ⟨?_, leads_described hmd h hs (.inl h1)⟩⟩
    rintro (e | e)
    · cases h1.symm.trans e
      exact .here
    · obtain ⟨id, e, -, k, he, hf⟩ := (h3 _).1 e
      cases e
      obtain ⟨d, hd, e⟩ := entry_of hmd h hs (.inl h1)
      obtain ⟨n, hn, hid, hdeps⟩ := (h4 d hd).1 e
      refine .step .here hd e ?_
      rw [hdeps, mem_keptDeps_edge hmd.graph.nodup hn, hid]
      exact ⟨k, he, hf⟩

/-! ### Non-vacuity -/

/-- In the example `c` is listed, and the section leads to it from the root; it does not lead from `c` to `a`. -/
example : ∃ s, createSboms Example.env Example.md Example.config = .ok [s] ∧ LeadsTo s.bom "root" "c" ∧
    ¬ LeadsTo s.bom "c" "a" := by
  have hd : ∃ s, createSboms Example.env Example.md Example.config = .ok [s] ∧
      (dependencyEntries s.bom).map (fun d => (d.dependencyRef, d.dependencies)) =
        [("a", ["c"]), ("b", ["c"]), ("c", []), ("root", ["a", "b"])] ∧
      componentRefs s.bom = [some "a", some "b", some "c"] := ⟨_, rfl, by decide +kernel, by decide +kernel⟩
  obtain ⟨s, h, hd, hc⟩ := hd
  have hroot := (C02_all_dependencies Example.md_ok h ⟨0, rfl, rfl⟩ (by decide)).1
  obtain ⟨t, ht, hl⟩ := C106_no_orphans Example.md_ok h ⟨0, rfl, rfl⟩
  cases hroot.symm.trans ht
  refine ⟨s, h, (hl "c").1 (.inr (by rw [hc]; decide)), ?_⟩
  have only : ∀ q, LeadsTo s.bom "c" q → q = "c" := by
    intro q hq
    induction hq with
    | here => rfl
    | step _ hmem e hr ih =>
      subst ih
      have := List.mem_map_of_mem (f := fun d : Dependency => (d.dependencyRef, d.dependencies)) hmem
      rw [hd, e] at this
      simp only [List.mem_cons, Prod.mk.injEq, List.not_mem_nil, or_false] at this
      rcases this with ⟨x, -⟩ | ⟨x, -⟩ | ⟨-, x⟩ | ⟨x, -⟩
      · exact absurd x (by decide)
      · exact absurd x (by decide)
      · rw [x] at hr; exact nomatch hr
      · exact absurd x (by decide)
  exact fun ha => absurd (only _ ha) (by decide)

end Cdx.Props
