import Verif.Lemmas.DepKinds

set_option linter.unusedSimpArgs false

namespace Cdx
open OMap

/-! ## Indexing -/

theorem lookup_indexResolve {nodes : List Node} (hn : (nodes.map (·.id)).Nodup) {p : PackageId}
    {n : Node} : (indexResolve nodes).lookup p = some n ↔ n ∈ nodes ∧ n.id = p := by
  unfold indexResolve
  rw [lookup_ofList_some]
  · simp only [List.mem_map, Prod.mk.injEq]
    constructor
    · rintro ⟨a, h1, h2, rfl⟩; exact ⟨h1, h2⟩
    · rintro ⟨h1, h2⟩; exact ⟨n, h1, h2, rfl⟩
  · rw [List.map_map]; exact hn

theorem lookup_indexPackages {pkgs : List Package} (hn : (pkgs.map (·.id)).Nodup) {id : PackageId}
    {p : Package} : (indexPackages pkgs).lookup id = some p ↔ p ∈ pkgs ∧ p.id = id := by
  unfold indexPackages
  rw [lookup_ofList_some]
  · simp only [List.mem_map, Prod.mk.injEq]
    constructor
    · rintro ⟨a, h1, h2, rfl⟩; exact ⟨h1, h2⟩
    · rintro ⟨h1, h2⟩; exact ⟨p, h1, h2, rfl⟩
  · rw [List.map_map]; exact hn

theorem sorted_indexResolve (nodes : List Node) : Sorted (indexResolve nodes) := sorted_ofList _
theorem sorted_indexPackages (pkgs : List Package) : Sorted (indexPackages pkgs) := sorted_ofList _

theorem mem_ofList {α : Type} {l : List (PackageId × α)} {x : PackageId × α} (h : x ∈ ofList l) :
    x ∈ l := by
  unfold ofList at h
  suffices ∀ m : OMap PackageId α, x ∈ l.foldl (fun m kv => m.insert kv.1 kv.2) m → x ∈ l ∨ x ∈ m by
    rcases this [] h with h | h
    · exact h
    · simp at h
  intro m
  clear h
  induction l generalizing m with
  | nil => intro h; exact .inr h
  | cons y l ih =>
    intro h
    rw [List.foldl_cons] at h
    rcases ih _ h with h | h
    · exact .inl (List.mem_cons_of_mem _ h)
    · rcases mem_insert_key h with h | h
      · left; rw [h]; exact List.mem_cons_self
      · exact .inr h

/-- Every node is stored under its own id. -/
def KeyedById (resolve : ResolveMap) : Prop := ∀ p n, resolve.lookup p = some n → n.id = p

theorem keyed_indexResolve (nodes : List Node) : KeyedById (indexResolve nodes) := by
  intro p n h
  have := mem_ofList (lookup_mem h)
  simp only [List.mem_map, Prod.mk.injEq] at this
  obtain ⟨a, _, h1, rfl⟩ := this
  exact h1

/-! ## Paths -/

theorem mem_kindedDeps {n : Node} {q : PackageId} {k : DependencyKind} :
    (q, k) ∈ n.kindedDeps ↔ ∃ d ∈ n.deps, d.pkg = q ∧ ∃ i ∈ d.depKinds, i.kind = k := by
  unfold Node.kindedDeps
  simp only [List.mem_flatMap, List.mem_map, Prod.mk.injEq]
  constructor
  · rintro ⟨d, hd, i, hi, rfl, rfl⟩; exact ⟨d, hd, rfl, i, hi, rfl⟩
  · rintro ⟨d, hd, rfl, i, hi, rfl⟩; exact ⟨d, hd, i, hi, rfl, rfl⟩

theorem edge_iff {nodes : List Node} (hn : (nodes.map (·.id)).Nodup) {p q : PackageId}
    {k : DependencyKind} : Spec.Edge nodes p q k ↔
      ∃ n, (indexResolve nodes).lookup p = some n ∧ (q, k) ∈ n.kindedDeps := by
  unfold Spec.Edge
  simp only [lookup_indexResolve hn, mem_kindedDeps]
  constructor
  · rintro ⟨n, h1, h2, h3⟩; exact ⟨n, ⟨h1, h2⟩, h3⟩
  · rintro ⟨n, ⟨h1, h2⟩, h3⟩; exact ⟨n, h1, h2, h3⟩

theorem pathK_sound {nodes : List Node} (hn : (nodes.map (·.id)).Nodup) {root p : PackageId}
    {k : PrivateDepKind} (h : PathK (indexResolve nodes) root p k) :
    Spec.PathKind nodes root p k.toDependencyKind := by
  induction h with
  | root => exact .root
  | step hp hl hc ih =>
    next p k node t =>
    obtain ⟨⟨q, k'⟩, hq, k2, hk2, rfl⟩ := hc
    simp only at hk2
    subst hk2
    have := Spec.PathKind.step ih ((edge_iff hn).2 ⟨node, hl, hq⟩)
    rwa [PrivateDepKind.weaker_toDependencyKind] at this

theorem pathK_complete {nodes : List Node} (hc : Spec.Consistent nodes) {root p : PackageId}
    {d : DependencyKind} (h : Spec.PathKind nodes root p d) :
    ∃ k : PrivateDepKind, d = k.toDependencyKind ∧ PathK (indexResolve nodes) root p k := by
  induction h with
  | root => exact ⟨.runtime, rfl, .root⟩
  | step hp he ih =>
    next p q k k' =>
    obtain ⟨k, rfl, ih⟩ := ih
    have hk' : ∃ k2 : PrivateDepKind, k' = k2.toDependencyKind := by
      obtain ⟨n, hn, _, d, hd, _, i, hi, rfl⟩ := he
      have := hc.known n hn d hd i hi
      cases hk : i.kind
      · exact ⟨.runtime, rfl⟩
      · exact ⟨.development, rfl⟩
      · exact ⟨.build, rfl⟩
      · exact absurd hk this
    obtain ⟨k2, rfl⟩ := hk'
    obtain ⟨node, hl, hq⟩ := (edge_iff hc.nodup).1 he
    refine ⟨k2.min k, PrivateDepKind.weaker_toDependencyKind _ _, ?_⟩
    exact PathK.step (t := ⟨q, k2, k2.min k⟩) ih hl ⟨(q, k2.toDependencyKind), hq, k2, rfl, rfl⟩

/-! ## `index_dep_kinds` does not panic -/

theorem loop_total {resolve : ResolveMap}
    (hknown : ∀ p n, resolve.lookup p = some n → ∀ c ∈ n.kindedDeps, c.2 ≠ .unknown)
    (hclosed : ∀ p n, resolve.lookup p = some n → ∀ c ∈ n.kindedDeps,
      ∃ m, resolve.lookup c.1 = some m)
    (fuel : Nat) {s : DepKindState} (hst : ∀ t ∈ s.stack, ∃ n, resolve.lookup t.pkg = some n)
    {e : Fault} (h : depKindLoop resolve fuel s = .error e) : e = .outOfFuel := by
  induction fuel generalizing s with
  | zero => simp [depKindLoop] at h; exact h.symm
  | succ fuel ih =>
    unfold depKindLoop at h
    split at h
    · cases h
    · next t rest hs =>
      obtain ⟨n, hn⟩ := hst t (by rw [hs]; exact List.mem_cons_self)
      split at h
      · next e' he' =>
        exfalso
        unfold depKindStep at he'
        obtain ⟨st, hp⟩ := pushAll_total (v := t :: s.visited) (pk := t.pathKind) (st := rest)
          (hknown _ _ hn)
        rw [show OMap.index resolve t.pkg = .ok n from index_ok.2 hn] at he'
        simp only [bind, Except.bind, hp] at he'
        cases he'
      · next s' hs' =>
        apply ih _ h
        intro c hc
        obtain ⟨node, pushed, hn', hv, hk, hst', hl, hm⟩ := depKindStep_ok hs'
        rw [hst', List.mem_append] at hc
        rcases hc with hc | hc
        · obtain ⟨⟨c', hc', k, _, rfl⟩, _⟩ := (hm c).1 hc
          exact hclosed _ _ hn' c' hc'
        · exact hst c (by rw [hs]; exact List.mem_cons_of_mem _ hc)

theorem indexDepKinds_total {nodes : List Node} (hc : Spec.Consistent nodes) {root : PackageId}
    (hr : root ∈ nodes.map (·.id)) : ∃ m, indexDepKinds root (indexResolve nodes) = .ok m := by
  have hne := indexDepKinds_ne_fuel root (indexResolve nodes)
  cases h : indexDepKinds root (indexResolve nodes) with
  | ok m => exact ⟨m, rfl⟩
  | error e =>
    exfalso
    suffices e = .outOfFuel by subst this; exact hne h
    unfold indexDepKinds at h
    simp only at h
    split at h
    · next e' he' =>
      cases h
      refine loop_total ?_ ?_ _ ?_ he'
      · intro p n hl c hcm
        obtain ⟨q, k⟩ := c
        obtain ⟨d, hd, _, i, hi, rfl⟩ := mem_kindedDeps.1 hcm
        exact hc.known n ((lookup_indexResolve hc.nodup).1 hl).1 d hd i hi
      · intro p n hl c hcm
        obtain ⟨q, k⟩ := c
        obtain ⟨d, hd, rfl, i, hi, rfl⟩ := mem_kindedDeps.1 hcm
        obtain ⟨m, hm, e⟩ := hc.closed n ((lookup_indexResolve hc.nodup).1 hl).1 d hd
        exact ⟨m, (lookup_indexResolve hc.nodup).2 ⟨hm, e⟩⟩
      · intro t ht
        simp only [List.mem_singleton] at ht
        subst ht
        obtain ⟨n, hn, e⟩ := List.mem_map.1 hr
        exact ⟨n, (lookup_indexResolve hc.nodup).2 ⟨hn, e⟩⟩
    · cases h

theorem indexDepKinds_spec {nodes : List Node} (hc : Spec.Consistent nodes) {root : PackageId}
    {m : DependencyKindMap} (h : indexDepKinds root (indexResolve nodes) = .ok m)
    (p : PackageId) (d : DependencyKind) :
    m.lookup p = some d ↔ Spec.StrongestKind nodes root p d := by
  rw [(indexDepKinds_lookup h).2 p d]
  unfold Spec.StrongestKind
  constructor
  · rintro ⟨k, rfl, hp, hmax⟩
    refine ⟨pathK_sound hc.nodup hp, fun k' hk' => ?_⟩
    obtain ⟨k2, rfl, h2⟩ := pathK_complete hc hk'
    have := hmax k2 h2
    rw [PrivateDepKind.strength_toDependencyKind, PrivateDepKind.strength_toDependencyKind]
    omega
  · rintro ⟨hp, hmax⟩
    obtain ⟨k, rfl, hk⟩ := pathK_complete hc hp
    refine ⟨k, rfl, hk, fun k' hk' => ?_⟩
    have := hmax _ (pathK_sound hc.nodup hk')
    rw [PrivateDepKind.strength_toDependencyKind, PrivateDepKind.strength_toDependencyKind] at this
    omega

/-! ## Breadth-first search -/

/-- Is `--no-build-deps` on? -/
def noBuild (config : SbomConfig) : Bool := decide (config.onlyNormalDeps = some true)

theorem retained_iff {config : SbomConfig} {d : NodeDep} :
    retained config d = true ↔ ∃ i ∈ d.depKinds, Spec.Followed (noBuild config) i.kind := by
  unfold retained Spec.Followed noBuild
  rw [List.any_eq_true]
  constructor
  · rintro ⟨i, hi, h⟩
    refine ⟨i, hi, ?_⟩
    split at h
    · next hc => simp only [hc, decide_true, if_true]; simpa using h
    · next hc => simp only [hc, decide_false]; simpa using h
  · rintro ⟨i, hi, h⟩
    refine ⟨i, hi, ?_⟩
    split
    · next hc => simp only [hc, decide_true, if_true] at h; simpa using h
    · next hc => simp only [hc, decide_false] at h; simpa using h

/-- Reachability through retained dependencies, on the indexed graph. -/
inductive ReachI (resolve : ResolveMap) (config : SbomConfig) (root : PackageId) : PackageId → Prop
  | root : ReachI resolve config root root
  | step {p n d} : ReachI resolve config root p → resolve.lookup p = some n → d ∈ n.deps →
      retained config d = true → ReachI resolve config root d.pkg

theorem reachI_iff {nodes : List Node} (hn : (nodes.map (·.id)).Nodup) {config : SbomConfig}
    {root p : PackageId} : ReachI (indexResolve nodes) config root p ↔
      Spec.ReachVia nodes (Spec.Followed (noBuild config)) root p := by
  constructor
  · intro h
    induction h with
    | root => exact .root
    | step hp hl hd hr ih =>
      obtain ⟨i, hi, hf⟩ := retained_iff.1 hr
      obtain ⟨h1, h2⟩ := (lookup_indexResolve hn).1 hl
      exact .step ih ⟨_, h1, h2, _, hd, rfl, i, hi, rfl⟩ hf
  · intro h
    induction h with
    | root => exact .root
    | step hp he hf ih =>
      obtain ⟨n, h1, h2, d, hd, rfl, i, hi, rfl⟩ := he
      exact .step ih ((lookup_indexResolve hn).2 ⟨h1, h2⟩) hd (retained_iff.2 ⟨i, hi, hf⟩)

theorem queueDeps_ok {resolve : ResolveMap} {ds : List NodeDep} {ns : List Node}
    (h : queueDeps resolve ds = .ok ns) :
    (∀ n ∈ ns, ∃ d ∈ ds, resolve.lookup d.pkg = some n) ∧
    (∀ d ∈ ds, ∃ n ∈ ns, resolve.lookup d.pkg = some n) := by
  induction ds generalizing ns with
  | nil => simp [queueDeps] at h; subst h; simp
  | cons d ds ih =>
    unfold queueDeps at h
    simp only [Res.bind_ok] at h
    obtain ⟨n, hn, ns', hns, h⟩ := h
    cases h
    rw [index_ok] at hn
    obtain ⟨h1, h2⟩ := ih hns
    constructor
    · intro m hm
      simp only [List.mem_cons] at hm
      rcases hm with rfl | hm
      · exact ⟨d, List.mem_cons_self, hn⟩
      · obtain ⟨d', hd', e⟩ := h1 m hm
        exact ⟨d', List.mem_cons_of_mem _ hd', e⟩
    · intro d' hd'
      simp only [List.mem_cons] at hd'
      rcases hd' with rfl | hd'
      · exact ⟨n, List.mem_cons_self, hn⟩
      · obtain ⟨m, hm, e⟩ := h2 d' hd'
        exact ⟨m, List.mem_cons_of_mem _ hm, e⟩

theorem queueDeps_ne_fuel {resolve : ResolveMap} {ds : List NodeDep} :
    queueDeps resolve ds ≠ .error .outOfFuel := by
  induction ds with
  | nil => simp [queueDeps]
  | cons d ds ih =>
    unfold queueDeps
    simp only [Ne, Res.bind_error]
    rintro (h | ⟨_, _, h | ⟨_, _, h⟩⟩)
    · exact index_ne_fuel h
    · exact ih h
    · cases h

theorem queueDeps_total {resolve : ResolveMap} {ds : List NodeDep}
    (h : ∀ d ∈ ds, ∃ n, resolve.lookup d.pkg = some n) : ∃ ns, queueDeps resolve ds = .ok ns := by
  induction ds with
  | nil => exact ⟨[], rfl⟩
  | cons d ds ih =>
    obtain ⟨n, hn⟩ := h d List.mem_cons_self
    obtain ⟨ns, hns⟩ := ih (fun d' hd' => h d' (List.mem_cons_of_mem _ hd'))
    refine ⟨n :: ns, ?_⟩
    unfold queueDeps
    rw [index_ok.2 hn, hns]; rfl

/-- Loop invariant of the breadth-first search; `pending` is everything queued. -/
structure BInv (resolve : ResolveMap) (config : SbomConfig) (root : PackageId)
    (pending : List Node) (out : ResolveMap) : Prop where
  pendingOk : ∀ n ∈ pending, resolve.lookup n.id = some n ∧ ReachI resolve config root n.id
  outOk : ∀ p n', out.lookup p = some n' → ∃ n, resolve.lookup p = some n ∧
    n' = addFilteredDependencies n config ∧ ReachI resolve config root p
  sorted : Sorted out
  closed : ∀ p n', out.lookup p = some n' → ∀ n, resolve.lookup p = some n → ∀ d ∈ n.deps,
    retained config d = true → (∃ m, out.lookup d.pkg = some m) ∨ ∃ m ∈ pending, m.id = d.pkg
  rootIn : (∃ m, out.lookup root = some m) ∨ ∃ m ∈ pending, m.id = root

theorem drain_inv {resolve : ResolveMap} (hk : KeyedById resolve) {config : SbomConfig}
    {root : PackageId} {queue next : List Node} {out : ResolveMap}
    (inv : BInv resolve config root (queue ++ next) out) {r : List Node × ResolveMap}
    (h : drainQueue resolve config queue next out = .ok r) :
    BInv resolve config root r.1 r.2 := by
  induction queue generalizing next out with
  | nil => simp [drainQueue] at h; subst h; simpa using inv
  | cons node queue ih =>
    unfold drainQueue at h
    split at h
    · next hc =>
      refine ih ?_ h
      obtain ⟨v, hv⟩ := contains_iff.1 hc
      refine ⟨?_, inv.outOk, inv.sorted, ?_, ?_⟩
      · intro n hn; exact inv.pendingOk n (by simp only [List.cons_append]; exact List.mem_cons_of_mem _ hn)
      · intro p n' hp n hl d hd hr
        rcases inv.closed p n' hp n hl d hd hr with h | ⟨m, hm, e⟩
        · exact .inl h
        · simp only [List.cons_append, List.mem_cons] at hm
          rcases hm with rfl | hm
          · left; rw [← e]; exact ⟨v, hv⟩
          · exact .inr ⟨m, hm, e⟩
      · rcases inv.rootIn with h | ⟨m, hm, e⟩
        · exact .inl h
        · simp only [List.cons_append, List.mem_cons] at hm
          rcases hm with rfl | hm
          · left; rw [← e]; exact ⟨v, hv⟩
          · exact .inr ⟨m, hm, e⟩
    · next hc =>
      rw [Res.bind_ok] at h
      obtain ⟨more, hmore, h⟩ := h
      obtain ⟨q1, q2⟩ := queueDeps_ok hmore
      obtain ⟨hnl, hnr⟩ := inv.pendingOk node (by simp)
      have hfd : ∀ d, d ∈ filteredDependencies node.deps config ↔
          d ∈ node.deps ∧ retained config d = true := by
        intro d; unfold filteredDependencies; rw [List.mem_filter]
      refine ih ?_ h
      refine ⟨?_, ?_, sorted_insert inv.sorted, ?_, ?_⟩
      · intro n hn
        simp only [List.mem_append] at hn
        rcases hn with hn | hn | hn
        · exact inv.pendingOk n (by simp [hn])
        · exact inv.pendingOk n (by simp [hn])
        · obtain ⟨d, hd, e⟩ := q1 n hn
          have hid := hk _ _ e
          rw [hfd] at hd
          rw [hid]
          exact ⟨e, .step hnr hnl hd.1 hd.2⟩
      · intro p n' hp
        rw [lookup_insert] at hp
        split at hp
        · next e => cases hp; subst e; exact ⟨node, hnl, rfl, hnr⟩
        · exact inv.outOk p n' hp
      · intro p n' hp n hl d hd hr
        rw [lookup_insert] at hp
        split at hp
        · next e =>
          subst e
          rw [hnl] at hl; cases hl
          obtain ⟨m, hm, e⟩ := q2 d ((hfd d).2 ⟨hd, hr⟩)
          exact .inr ⟨m, by simp [hm], hk _ _ e⟩
        · rcases inv.closed p n' hp n hl d hd hr with ⟨m, hm⟩ | ⟨m, hm, e⟩
          · left
            rw [lookup_insert]
            split
            · exact ⟨_, rfl⟩
            · exact ⟨m, hm⟩
          · simp only [List.cons_append, List.mem_cons] at hm
            rcases hm with rfl | hm
            · left; rw [← e, lookup_insert, if_pos rfl]; exact ⟨_, rfl⟩
            · right
              refine ⟨m, ?_, e⟩
              simp only [List.mem_append] at hm ⊢
              rcases hm with h | h
              · exact .inl h
              · exact .inr (.inl h)
      · rcases inv.rootIn with ⟨m, hm⟩ | ⟨m, hm, e⟩
        · left
          rw [lookup_insert]
          split
          · exact ⟨_, rfl⟩
          · exact ⟨m, hm⟩
        · simp only [List.cons_append, List.mem_cons] at hm
          rcases hm with rfl | hm
          · left; rw [← e, lookup_insert, if_pos rfl]; exact ⟨_, rfl⟩
          · right
            refine ⟨m, ?_, e⟩
            simp only [List.mem_append] at hm ⊢
            rcases hm with h | h
            · exact .inl h
            · exact .inr (.inl h)

theorem length_insert_new {α : Type} {k : PackageId} {v : α} {m : OMap PackageId α}
    (h : m.lookup k = none) : (m.insert k v).length = m.length + 1 := by
  induction m with
  | nil => rfl
  | cons kv m ih =>
    obtain ⟨k', v'⟩ := kv
    have hne : k ≠ k' := by rintro rfl; rw [lookup_cons_self] at h; cases h
    rw [lookup_cons_ne hne] at h
    simp only [OMap.insert]
    split
    · rfl
    · next hc => exact absurd (cmp_eq.1 hc) hne
    · simp only [List.length_cons, ih h]

theorem length_insert_le {α : Type} (k : PackageId) (v : α) (m : OMap PackageId α) :
    m.length ≤ (m.insert k v).length := by
  induction m with
  | nil => simp
  | cons kv m ih =>
    obtain ⟨k', v'⟩ := kv
    simp only [OMap.insert]
    split
    · simp only [List.length_cons]; omega
    · simp only [List.length_cons]; omega
    · simp only [List.length_cons]; omega

theorem drain_length {resolve : ResolveMap} {config : SbomConfig} {queue next : List Node}
    {out : ResolveMap} {r : List Node × ResolveMap}
    (h : drainQueue resolve config queue next out = .ok r) :
    out.length ≤ r.2.length ∧ (r.1 ≠ next → out.length < r.2.length) := by
  induction queue generalizing next out with
  | nil => simp [drainQueue] at h; subst h; simp
  | cons node queue ih =>
    unfold drainQueue at h
    split at h
    · exact ih h
    · next hc =>
      rw [Res.bind_ok] at h
      obtain ⟨more, hmore, h⟩ := h
      obtain ⟨h1, h2⟩ := ih h
      have hnone : out.lookup node.id = none := by
        unfold OMap.contains at hc
        simpa using hc
      rw [length_insert_new hnone] at h1
      exact ⟨by omega, fun _ => by omega⟩

theorem drain_ne_fuel {resolve : ResolveMap} {config : SbomConfig} {queue next : List Node}
    {out : ResolveMap} : drainQueue resolve config queue next out ≠ .error .outOfFuel := by
  induction queue generalizing next out with
  | nil => simp [drainQueue]
  | cons node queue ih =>
    unfold drainQueue
    split
    · exact ih
    · rw [Ne, Res.bind_error]
      rintro (h | ⟨_, _, h⟩)
      · exact queueDeps_ne_fuel h
      · exact ih h

theorem length_le_of_keys {α β : Type} {m : OMap PackageId α} {m' : OMap PackageId β}
    (hs : Sorted m) (h : ∀ p n, m.lookup p = some n → ∃ n', m'.lookup p = some n') :
    m.length ≤ m'.length := by
  have hk := keys_nodup hs
  have hsub : ∀ k ∈ keys m, k ∈ keys m' := by
    intro k hk
    obtain ⟨v, hv⟩ := (mem_keys_iff hs).1 hk
    obtain ⟨n', hn'⟩ := h k v hv
    unfold keys
    exact List.mem_map.2 ⟨_, lookup_mem hn', rfl⟩
  have key : ∀ (l l' : List PackageId), l.Nodup → (∀ k ∈ l, k ∈ l') → l.length ≤ l'.length := by
    intro l
    induction l with
    | nil => intros; simp
    | cons a l ih =>
      intro l' hn hs
      rw [List.nodup_cons] at hn
      have ha := hs a List.mem_cons_self
      have h1 := ih (l'.erase a) hn.2 (fun k hk => by
        have : k ≠ a := by rintro rfl; exact hn.1 hk
        exact (List.mem_erase_of_ne this).2 (hs k (List.mem_cons_of_mem _ hk)))
      rw [List.length_erase_of_mem ha] at h1
      have := List.length_pos_of_mem ha
      simp only [List.length_cons]; omega
  have := key _ _ hk hsub
  unfold keys at this
  simpa using this

theorem bfs_inv {resolve : ResolveMap} (hk : KeyedById resolve) {config : SbomConfig}
    {root : PackageId} (fuel : Nat) {queue : List Node} {out : ResolveMap}
    (inv : BInv resolve config root queue out) {out' : ResolveMap}
    (h : bfsLoop resolve config fuel queue out = .ok out') :
    BInv resolve config root [] out' := by
  induction fuel generalizing queue out with
  | zero => simp [bfsLoop] at h
  | succ fuel ih =>
    unfold bfsLoop at h
    split at h
    · cases h; exact inv
    · rw [Res.bind_ok] at h
      obtain ⟨r, hr, h⟩ := h
      exact ih (drain_inv hk (by simpa using inv) hr) h

theorem bfs_ne_fuel {resolve : ResolveMap} (hk : KeyedById resolve) {config : SbomConfig}
    {root : PackageId} (fuel : Nat) {queue : List Node} {out : ResolveMap}
    (inv : BInv resolve config root queue out)
    (hf : resolve.length + 2 ≤ fuel + out.length ∨ (queue = [] ∧ 1 ≤ fuel)) :
    bfsLoop resolve config fuel queue out ≠ .error .outOfFuel := by
  induction fuel generalizing queue out with
  | zero =>
    rcases hf with hf | hf
    · have := length_le_of_keys inv.sorted (m' := resolve) (fun p n hp => by
        obtain ⟨n', h, _⟩ := inv.outOk p n hp; exact ⟨n', h⟩)
      omega
    · omega
  | succ fuel ih =>
    unfold bfsLoop
    split
    · simp
    · next hq =>
      rw [Ne, Res.bind_error]
      rintro (h | ⟨r, hr, h⟩)
      · exact drain_ne_fuel h
      · have hinv := drain_inv hk (by simpa using inv) hr
        obtain ⟨h1, h2⟩ := drain_length hr
        have hle := length_le_of_keys hinv.sorted (m' := resolve) (fun p n hp => by
          obtain ⟨n', h, _⟩ := hinv.outOk p n hp; exact ⟨n', h⟩)
        have hf' : resolve.length + 2 ≤ fuel + 1 + out.length := by
          rcases hf with hf | hf
          · exact hf
          · exact absurd hf.1 (by simpa using hq)
        refine ih hinv ?_ h
        by_cases e : r.1 = []
        · right; exact ⟨e, by omega⟩
        · left; have := h2 e; omega

theorem bfs_init {resolve : ResolveMap} (hk : KeyedById resolve) {config : SbomConfig}
    {root : PackageId} {n : Node} (h : resolve.lookup root = some n) :
    BInv resolve config root [n] [] := by
  have hid := hk _ _ h
  refine ⟨?_, by simp, sorted_nil, by simp, .inr ⟨n, by simp, hid⟩⟩
  intro m hm
  simp only [List.mem_singleton] at hm
  subst hm
  rw [hid]
  exact ⟨h, .root⟩

/-- `all_dependencies` never exhausts the loop bound. -/
theorem allDependencies_ne_fuel (root : PackageId) (packages : PackageMap) (nodes : List Node)
    (config : SbomConfig) :
    allDependencies root packages (indexResolve nodes) config ≠ .error .outOfFuel := by
  unfold allDependencies
  simp only [Ne, Res.bind_error]
  rintro (h | ⟨n, hn, h | ⟨_, _, h⟩⟩)
  · exact index_ne_fuel h
  · rw [index_ok] at hn
    exact bfs_ne_fuel (keyed_indexResolve _) _ (bfs_init (keyed_indexResolve _) hn)
      (.inl (by simp)) h
  · cases h

/-- Result of `all_dependencies` on the indexed graph. -/
theorem allDependencies_ok {root : PackageId} {packages : PackageMap} {resolve : ResolveMap}
    (hk : KeyedById resolve) {config : SbomConfig} {r : PackageMap × ResolveMap}
    (h : allDependencies root packages resolve config = .ok r) :
    Sorted r.2 ∧
    (∀ p n', r.2.lookup p = some n' ↔ ∃ n, resolve.lookup p = some n ∧
      n' = addFilteredDependencies n config ∧ ReachI resolve config root p) ∧
    (∀ p, ReachI resolve config root p → ∃ n', r.2.lookup p = some n') ∧
    r.1 = packages.filter (fun kv => r.2.contains kv.1) := by
  unfold allDependencies at h
  simp only [Res.bind_ok] at h
  obtain ⟨n0, hn0, out, hout, h⟩ := h
  cases h
  rw [index_ok] at hn0
  have inv := bfs_inv hk _ (bfs_init hk hn0) hout
  have hcomp : ∀ p, ReachI resolve config root p → ∃ n', out.lookup p = some n' := by
    intro p hp
    induction hp with
    | root =>
      rcases inv.rootIn with h | ⟨m, hm, _⟩
      · exact h
      · simp at hm
    | step hp hl hd hr ih =>
      obtain ⟨n', hn'⟩ := ih
      rcases inv.closed _ _ hn' _ hl _ hd hr with h | ⟨m, hm, _⟩
      · exact h
      · simp at hm
  refine ⟨inv.sorted, ?_, hcomp, rfl⟩
  intro p n'
  constructor
  · exact inv.outOk p n'
  · rintro ⟨n, hl, rfl, hr⟩
    obtain ⟨m, hm⟩ := hcomp p hr
    obtain ⟨n2, h1, h2, _⟩ := inv.outOk p m hm
    rw [hl] at h1; cases h1; subst h2
    exact hm

theorem drain_total {resolve : ResolveMap}
    (hclosed : ∀ p n, resolve.lookup p = some n → ∀ d ∈ n.deps, ∃ m, resolve.lookup d.pkg = some m)
    (hk : KeyedById resolve) {config : SbomConfig} {queue next : List Node} {out : ResolveMap}
    (hq : ∀ n ∈ queue, resolve.lookup n.id = some n) :
    ∃ r, drainQueue resolve config queue next out = .ok r := by
  induction queue generalizing next out with
  | nil => exact ⟨_, rfl⟩
  | cons node queue ih =>
    have ih' := fun {next out} => ih (next := next) (out := out)
      (fun n hn => hq n (List.mem_cons_of_mem _ hn))
    unfold drainQueue
    split
    · exact ih'
    · have hl := hq node List.mem_cons_self
      obtain ⟨ns, hns⟩ := queueDeps_total (ds := filteredDependencies node.deps config)
        (fun d hd => hclosed _ _ hl d (List.mem_filter.1 hd).1)
      rw [hns]
      exact ih'

theorem bfs_total {resolve : ResolveMap}
    (hclosed : ∀ p n, resolve.lookup p = some n → ∀ d ∈ n.deps, ∃ m, resolve.lookup d.pkg = some m)
    (hk : KeyedById resolve) {config : SbomConfig} {root : PackageId} (fuel : Nat)
    {queue : List Node} {out : ResolveMap} (inv : BInv resolve config root queue out) {e : Fault}
    (h : bfsLoop resolve config fuel queue out = .error e) : e = .outOfFuel := by
  induction fuel generalizing queue out with
  | zero => simp [bfsLoop] at h; exact h.symm
  | succ fuel ih =>
    unfold bfsLoop at h
    split at h
    · cases h
    · obtain ⟨r, hr⟩ := drain_total hclosed hk (config := config) (next := []) (out := out)
        (fun n hn => (inv.pendingOk n hn).1)
      rw [hr] at h
      exact ih (drain_inv hk (by simpa using inv) hr) h

theorem closed_index {nodes : List Node} (hc : Spec.Consistent nodes) :
    ∀ p n, (indexResolve nodes).lookup p = some n → ∀ d ∈ n.deps,
      ∃ m, (indexResolve nodes).lookup d.pkg = some m := by
  intro p n hl d hd
  obtain ⟨m, hm, e⟩ := hc.closed n ((lookup_indexResolve hc.nodup).1 hl).1 d hd
  exact ⟨m, (lookup_indexResolve hc.nodup).2 ⟨hm, e⟩⟩

theorem allDependencies_total {nodes : List Node} (hc : Spec.Consistent nodes) {root : PackageId}
    (hr : root ∈ nodes.map (·.id)) (packages : PackageMap) (config : SbomConfig) :
    ∃ r, allDependencies root packages (indexResolve nodes) config = .ok r := by
  obtain ⟨n, hn, e⟩ := List.mem_map.1 hr
  have hl := (lookup_indexResolve hc.nodup).2 ⟨hn, e⟩
  cases h : allDependencies root packages (indexResolve nodes) config with
  | ok r => exact ⟨r, rfl⟩
  | error f =>
    exfalso
    have hne := allDependencies_ne_fuel root packages nodes config
    suffices f = .outOfFuel by subst this; exact hne h
    unfold allDependencies at h
    simp only [Res.bind_error] at h
    rcases h with h | ⟨n, hn, h | ⟨_, _, h⟩⟩
    · rw [index_ok.2 hl] at h; cases h
    · rw [index_ok] at hn
      exact bfs_total (closed_index hc) (keyed_indexResolve _) _
        (bfs_init (keyed_indexResolve _) hn) h
    · cases h

/-! ## Top-level mode -/

theorem insertPackages_ok {packages : PackageMap} {ids : List PackageId} {acc r : PackageMap}
    (h : insertPackages packages ids acc = .ok r) (hs : Sorted acc) :
    Sorted r ∧ ∀ id p, r.lookup id = some p ↔
      if id ∈ ids then packages.lookup id = some p else acc.lookup id = some p := by
  induction ids generalizing acc with
  | nil => simp [insertPackages] at h; subst h; exact ⟨hs, by simp⟩
  | cons i ids ih =>
    unfold insertPackages at h
    rw [Res.bind_ok] at h
    obtain ⟨p0, hp0, h⟩ := h
    rw [index_ok] at hp0
    obtain ⟨h1, h2⟩ := ih h (sorted_insert hs)
    refine ⟨h1, fun id p => ?_⟩
    rw [h2, lookup_insert]
    simp only [List.mem_cons]
    by_cases e1 : id ∈ ids
    · simp [e1]
    · by_cases e2 : id = i
      · subst e2; simp [e1, hp0]
      · simp [e1, e2]

theorem insertPackages_total {packages : PackageMap} {ids : List PackageId} {acc : PackageMap}
    (h : ∀ i ∈ ids, ∃ p, packages.lookup i = some p) :
    ∃ r, insertPackages packages ids acc = .ok r := by
  induction ids generalizing acc with
  | nil => exact ⟨_, rfl⟩
  | cons i ids ih =>
    obtain ⟨p, hp⟩ := h i List.mem_cons_self
    unfold insertPackages
    rw [index_ok.2 hp]
    exact ih (fun j hj => h j (List.mem_cons_of_mem _ hj))

theorem insertPackages_ne_fuel {packages : PackageMap} {ids : List PackageId} {acc : PackageMap} :
    insertPackages packages ids acc ≠ .error .outOfFuel := by
  induction ids generalizing acc with
  | nil => simp [insertPackages]
  | cons i ids ih =>
    unfold insertPackages
    rw [Ne, Res.bind_error]
    rintro (h | ⟨_, _, h⟩)
    · exact index_ne_fuel h
    · exact ih h

theorem insertCleared_ok {resolve : ResolveMap} {ids : List PackageId} {acc r : ResolveMap}
    (h : insertCleared resolve ids acc = .ok r) (hs : Sorted acc) :
    Sorted r ∧ ∀ id n', r.lookup id = some n' ↔
      if id ∈ ids then ∃ n, resolve.lookup id = some n ∧ n' = { n with deps := [], dependencies := [] }
      else acc.lookup id = some n' := by
  induction ids generalizing acc with
  | nil => simp [insertCleared] at h; subst h; exact ⟨hs, by simp⟩
  | cons i ids ih =>
    unfold insertCleared at h
    rw [Res.bind_ok] at h
    obtain ⟨n0, hn0, h⟩ := h
    rw [index_ok] at hn0
    obtain ⟨h1, h2⟩ := ih h (sorted_insert hs)
    refine ⟨h1, fun id p => ?_⟩
    rw [h2, lookup_insert]
    simp only [List.mem_cons]
    by_cases e1 : id ∈ ids
    · simp [e1]
    · by_cases e2 : id = i
      · subst e2; simp [e1, hn0, eq_comm]
      · simp [e1, e2]

theorem insertCleared_total {resolve : ResolveMap} {ids : List PackageId} {acc : ResolveMap}
    (h : ∀ i ∈ ids, ∃ p, resolve.lookup i = some p) :
    ∃ r, insertCleared resolve ids acc = .ok r := by
  induction ids generalizing acc with
  | nil => exact ⟨_, rfl⟩
  | cons i ids ih =>
    obtain ⟨p, hp⟩ := h i List.mem_cons_self
    unfold insertCleared
    rw [index_ok.2 hp]
    exact ih (fun j hj => h j (List.mem_cons_of_mem _ hj))

theorem mem_addFiltered {n : Node} {config : SbomConfig} {q : PackageId} :
    q ∈ (addFilteredDependencies n config).dependencies ↔
      ∃ d ∈ n.deps, retained config d = true ∧ d.pkg = q := by
  unfold addFilteredDependencies filteredDependencies
  simp only [List.mem_map, List.mem_filter]
  constructor
  · rintro ⟨d, ⟨h1, h2⟩, h3⟩; exact ⟨d, h1, h2, h3⟩
  · rintro ⟨d, h1, h2, h3⟩; exact ⟨d, ⟨h1, h2⟩, h3⟩

/-- Result of `top_level_dependencies` on the indexed graph. -/
theorem topLevelDependencies_ok {root : PackageId} {packages : PackageMap} {resolve : ResolveMap}
    {config : SbomConfig} {r : PackageMap × ResolveMap}
    (h : topLevelDependencies root packages resolve config = .ok r) :
    ∃ n rp, resolve.lookup root = some n ∧ packages.lookup root = some rp ∧
      Sorted r.1 ∧ Sorted r.2 ∧
      (∀ id p, r.1.lookup id = some p ↔ packages.lookup id = some p ∧
        (id = root ∨ id ∈ (addFilteredDependencies n config).dependencies)) ∧
      (∀ id n', r.2.lookup id = some n' ↔
        if id = root then n' = addFilteredDependencies n config
        else id ∈ (addFilteredDependencies n config).dependencies ∧
          ∃ m, resolve.lookup id = some m ∧ n' = { m with deps := [], dependencies := [] }) := by
  unfold topLevelDependencies at h
  simp only [Res.bind_ok] at h
  obtain ⟨n, hn, rp, hrp, pk, hpk, rs, hrs, h⟩ := h
  cases h
  rw [index_ok] at hn hrp
  obtain ⟨p1, p2⟩ := insertPackages_ok hpk (sorted_insert sorted_nil)
  obtain ⟨r1, r2⟩ := insertCleared_ok hrs sorted_nil
  refine ⟨n, rp, hn, hrp, p1, sorted_insert r1, ?_, ?_⟩
  · intro id p
    rw [p2, lookup_insert]
    by_cases e1 : id ∈ (addFilteredDependencies n config).dependencies
    · simp [e1]
    · by_cases e2 : id = root
      · subst e2; simp [e1, hrp]
      · simp [e1, e2]
  · intro id n'
    rw [lookup_insert]
    by_cases e2 : id = root
    · simp [e2, eq_comm]
    · rw [if_neg e2, if_neg e2, r2]
      split
      · next h => simp [h]
      · next h => simp [h]

theorem topLevelDependencies_total {nodes : List Node} (hc : Spec.Consistent nodes)
    {root : PackageId} (hr : root ∈ nodes.map (·.id)) {packages : PackageMap}
    (hp : ∀ n ∈ nodes, ∃ p, packages.lookup n.id = some p) (config : SbomConfig) :
    ∃ r, topLevelDependencies root packages (indexResolve nodes) config = .ok r := by
  obtain ⟨n, hn, e⟩ := List.mem_map.1 hr
  have hl := (lookup_indexResolve hc.nodup).2 ⟨hn, e⟩
  obtain ⟨rp, hrp⟩ := hp n hn
  rw [e] at hrp
  have hcl := closed_index hc
  obtain ⟨pk, hpk⟩ := insertPackages_total (packages := packages)
    (ids := (addFilteredDependencies n config).dependencies) (acc := OMap.insert root rp []) (by
      intro i hi
      obtain ⟨d, hd, _, rfl⟩ := mem_addFiltered.1 hi
      obtain ⟨m, hm, e'⟩ := hc.closed n hn d hd
      rw [← e']; exact hp m hm)
  obtain ⟨rs, hrs⟩ := insertCleared_total (resolve := indexResolve nodes)
    (ids := (addFilteredDependencies n config).dependencies) (acc := []) (by
      intro i hi
      obtain ⟨d, hd, _, rfl⟩ := mem_addFiltered.1 hi
      exact hcl _ _ hl d hd)
  refine ⟨(pk, OMap.insert root (addFilteredDependencies n config) rs), ?_⟩
  unfold topLevelDependencies
  rw [index_ok.2 hl]
  simp only [bind, Except.bind]
  rw [index_ok.2 hrp]
  simp only [hpk, hrs]

end Cdx
