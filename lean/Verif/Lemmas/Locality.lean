import Verif.Lemmas.Generator
import Verif.Spec.Locality

/-!
# What an SBOM does not depend on
-/

namespace Cdx

open Spec OMap

theorem Rel₂.unique {α β : Type} {R S : α → β → Prop} {as : List α} {bs cs : List β} (h : Rel₂ R as bs)
    (h' : Rel₂ S as cs) (hu : ∀ a ∈ as, ∀ b c, R a b → S a c → b = c) : bs = cs := by
  induction h generalizing cs with
  | nil => cases h'; rfl
  | cons h1 _ ih =>
    cases h' with
    | cons h2 h3 =>
      rw [hu _ List.mem_cons_self _ _ h1 h2, ih h3 fun a ha => hu a (List.mem_cons_of_mem _ ha)]

/-- A map with other values. -/
def OMap.mapValues {κ α β : Type} (f : α → β) (m : OMap κ α) : OMap κ β := m.map fun kv => (kv.1, f kv.2)

theorem lookup_mapValues {α β : Type} (f : α → β) (k : String) (m : OMap String α) :
    (m.mapValues f).lookup k = (m.lookup k).map f := by
  induction m with
  | nil => rfl
  | cons kv m ih =>
    obtain ⟨k', v⟩ := kv
    show OMap.lookup k ((k', f v) :: OMap.mapValues f m) = _
    by_cases e : k = k'
    · subst e; rw [lookup_cons_self, lookup_cons_self]; rfl
    · rw [lookup_cons_ne e, lookup_cons_ne e]; exact ih

theorem sorted_mapValues {α β : Type} (f : α → β) {m : OMap String α} (h : Sorted m) : Sorted (m.mapValues f) :=
  List.pairwise_map.2 h

section
variable {nodes : List Node} {n n' : Node} {nb : Bool}

theorem keptDeps_used (nb : Bool) (n : Node) : keptDeps nb n =
    ((usedDeps n).filter fun x => decide (∃ k ∈ x.2, Followed nb k)).map Prod.fst := by
  unfold keptDeps usedDeps
  have hF : ∀ k, Followed nb k → k ≠ .development := by
    intro k hk
    cases nb <;> revert hk <;> cases k <;> decide
  induction n.deps with
  | nil => rfl
  | cons d ds ih =>
    have he : (∃ i ∈ d.depKinds, Followed nb i.kind) ↔
        ∃ k ∈ (d.depKinds.map (·.kind)).filter (· ≠ .development), Followed nb k := by
      constructor
      · rintro ⟨i, hi, hk⟩
        exact ⟨i.kind, List.mem_filter.2 ⟨List.mem_map.2 ⟨i, hi, rfl⟩, by simpa using hF _ hk⟩, hk⟩
      · rintro ⟨k, hk, hf⟩
        obtain ⟨i, hi, rfl⟩ := List.mem_map.1 (List.mem_filter.1 hk).1
        exact ⟨i, hi, hf⟩
    by_cases h : ∃ i ∈ d.depKinds, Followed nb i.kind
    · have h2 := he.1 h
      have hne : (d.depKinds.map (·.kind)).filter (· ≠ .development) ≠ [] := by
        obtain ⟨k, hk, -⟩ := h2
        exact List.ne_nil_of_mem hk
      rw [List.filter_cons_of_pos (by simpa using h), List.map_cons, List.map_cons,
        List.filter_cons_of_pos (by simpa using hne), List.filter_cons_of_pos (by simpa using h2), List.map_cons, ih]
    · have h2 := fun h' => h (he.2 h')
      rw [List.filter_cons_of_neg (by simpa using h), List.map_cons, ih]
      by_cases hne : (d.depKinds.map (·.kind)).filter (· ≠ .development) = []
      · rw [List.filter_cons_of_neg (by simpa using hne)]
      · rw [List.filter_cons_of_pos (by simpa using hne), List.filter_cons_of_neg (by simpa using h2)]

theorem edge_used (hn : (nodes.map (·.id)).Nodup) (hmem : n ∈ nodes) {q : PackageId} {k : DependencyKind}
    (hk : k ≠ .development) : Edge nodes n.id q k ↔ ∃ ks, (q, ks) ∈ usedDeps n ∧ k ∈ ks := by
  unfold usedDeps
  constructor
  · rintro ⟨m, hm, e, d, h1, rfl, i, h3, rfl⟩
    have : m = n := by
      have a := (lookup_indexResolve hn).2 ⟨hm, e⟩
      have b := (lookup_indexResolve hn).2 ⟨hmem, rfl⟩
      rw [a] at b; exact Option.some.inj b
    subst this
    have hin : i.kind ∈ (d.depKinds.map (·.kind)).filter (· ≠ .development) :=
      List.mem_filter.2 ⟨List.mem_map.2 ⟨i, h3, rfl⟩, by simpa using hk⟩
    exact ⟨_, List.mem_filter.2 ⟨List.mem_map.2 ⟨d, h1, rfl⟩, by simpa using List.ne_nil_of_mem hin⟩, hin⟩
  · rintro ⟨ks, h1, h2⟩
    obtain ⟨d, hd, e⟩ := List.mem_map.1 (List.mem_filter.1 h1).1
    cases e
    obtain ⟨i, hi, rfl⟩ := List.mem_map.1 (List.mem_filter.1 h2).1
    exact ⟨n, hmem, rfl, d, hd, rfl, i, hi, rfl⟩

end

section
variable {md md' : CargoMetadata} {nodes nodes' : List Node} {root : PackageId}

theorem reach_mem (hc : Consistent nodes) (hr : root ∈ nodes.map (·.id)) {ok : DependencyKind → Prop}
    {id : PackageId} (h : ReachVia nodes ok root id) : ∃ n ∈ nodes, n.id = id := by
  cases h with
  | root =>
    obtain ⟨n, hn, e⟩ := List.mem_map.1 hr
    exact ⟨n, hn, e⟩
  | step _ he _ =>
    obtain ⟨m, hm, -, d, hd, rfl, -⟩ := he
    exact hc.closed m hm d hd

variable (hmd : MetadataOk md nodes) (hmd' : MetadataOk md' nodes') (ha : AgreeOn md nodes md' nodes' root)
  (hr : root ∈ nodes.map (·.id))
include hmd hmd' ha hr

theorem agree_edge {p q : PackageId} {k : DependencyKind} (hp : ReachVia nodes (· ≠ .development) root p)
    (hk : k ≠ .development) : Edge nodes' p q k ↔ Edge nodes p q k := by
  obtain ⟨n, hn, rfl⟩ := reach_mem hmd.graph hr hp
  obtain ⟨n', hn', e, hu⟩ := ha.nodes n hn hp
  rw [edge_used hmd.graph.nodup hn hk, ← hu, ← e, edge_used hmd'.graph.nodup hn' hk]

theorem agree_reach {ok : DependencyKind → Prop} (hok : ∀ k, ok k → k ≠ .development) {id : PackageId} :
    ReachVia nodes' ok root id ↔ ReachVia nodes ok root id := by
  constructor
  · intro h
    induction h with
    | root => exact .root
    | step _ he hk ih =>
      exact .step ih ((agree_edge hmd hmd' ha hr (reachVia_mono hok ih) (hok _ hk)).1 he) hk
  · intro h
    induction h with
    | root => exact .root
    | step h he hk ih =>
      exact .step ih ((agree_edge hmd hmd' ha hr (reachVia_mono hok h) (hok _ hk)).2 he) hk

theorem agree_listed {config : SbomConfig} {id : PackageId} :
    Listed nodes' config root id ↔ Listed nodes config root id := by
  have hF : ∀ k, Followed (noBuildDeps config) k → k ≠ .development := by
    intro k hk
    cases h : noBuildDeps config <;> rw [h] at hk <;> revert hk <;> cases k <;> decide
  unfold Listed
  split
  · exact agree_reach hmd hmd' ha hr hF
  · refine or_congr Iff.rfl (exists_congr fun k => and_congr_left fun hk => ?_)
    exact agree_edge hmd hmd' ha hr .root (hF k hk)

theorem listed_used {config : SbomConfig} {id : PackageId} (h : Listed nodes config root id) :
    ReachVia nodes (· ≠ .development) root id := by
  refine reachVia_mono (fun k hk => ?_) (listed_reach h)
  cases hb : noBuildDeps config <;> rw [hb] at hk <;> revert hk <;> cases k <;> decide

theorem agree_package {id : PackageId} (h : ReachVia nodes (· ≠ .development) root id) :
    (indexPackages md'.packages).lookup id = (indexPackages md.packages).lookup id := by
  obtain ⟨n, hn, rfl⟩ := reach_mem hmd.graph hr h
  obtain ⟨p, hp, e⟩ := hmd.packages n hn
  have h1 := (lookup_indexPackages hmd.packagesNodup).2 ⟨hp, e⟩
  have h2 := (lookup_indexPackages hmd'.packagesNodup).2 ⟨ha.packages p hp (by rw [e]; exact h), e⟩
  rw [h1, h2]

theorem agree_selected {config : SbomConfig} {pr pr' : PackageMap × ResolveMap}
    (sel : Selected nodes (indexPackages md.packages) config root pr)
    (sel' : Selected nodes' (indexPackages md'.packages) config root pr') : pr'.1 = pr.1 := by
  refine OMap.ext sel'.sorted₁ sel.sorted₁ fun id => Option.ext fun p => ?_
  show OMap.lookup id pr'.1 = some p ↔ OMap.lookup id pr.1 = some p
  rw [sel.pkgs, sel'.pkgs, agree_listed hmd hmd' ha hr]
  refine and_congr_left fun hl => ?_
  rw [agree_package hmd hmd' ha hr (listed_used hmd hmd' ha hr hl)]

theorem agree_resolve {config : SbomConfig} {pr pr' : PackageMap × ResolveMap}
    (sel : Selected nodes (indexPackages md.packages) config root pr)
    (sel' : Selected nodes' (indexPackages md'.packages) config root pr') :
    pr'.2.mapValues (fun n => (n.id, n.dependencies)) = pr.2.mapValues (fun n => (n.id, n.dependencies)) := by
  refine OMap.ext (sorted_mapValues _ sel'.sorted₂) (sorted_mapValues _ sel.sorted₂) fun id => ?_
  rw [lookup_mapValues, lookup_mapValues]
  have key : ∀ x y, pr.2.lookup id = some x → pr'.2.lookup id = some y →
      (y.id, y.dependencies) = (x.id, x.dependencies) := by
    intro x y hx hy
    obtain ⟨e1, hl, n, hn, en, ed⟩ := sel.nodes_iff id x hx
    obtain ⟨e1', -, n', hn', en', ed'⟩ := sel'.nodes_iff id y hy
    have hreach := listed_used hmd hmd' ha hr hl
    obtain ⟨n'', hn'', en'', hu⟩ := ha.nodes n hn (by rw [en]; exact hreach)
    have : n'' = n' := by
      have a := (lookup_indexResolve hmd'.graph.nodup).2 ⟨hn'', en''.trans en⟩
      have b := (lookup_indexResolve hmd'.graph.nodup).2 ⟨hn', en'⟩
      rw [a] at b; exact Option.some.inj b
    subst this
    have hk : keptDeps (noBuildDeps config) n'' = keptDeps (noBuildDeps config) n := by
      rw [keptDeps_used, keptDeps_used, hu]
    rw [e1, e1', ed, ed', hk]
  cases hx : pr.2.lookup id with
  | some x =>
    obtain ⟨y, hy⟩ := sel'.nodes_all id ((agree_listed hmd hmd' ha hr).2 (sel.nodes_iff id x hx).2.1)
    rw [hy]
    exact congrArg some (key x y hx hy)
  | none =>
    cases hy : pr'.2.lookup id with
    | none => rfl
    | some y =>
      obtain ⟨x, hx'⟩ := sel.nodes_all id ((agree_listed hmd hmd' ha hr).1 (sel'.nodes_iff id y hy).2.1)
      rw [hx] at hx'
      exact nomatch hx'

end

end Cdx
