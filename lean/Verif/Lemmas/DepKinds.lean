import Verif.Lemmas.BTreeMap
import Verif.Model.DepGraph
import Verif.Spec.Graph

set_option linter.unusedSimpArgs false

namespace Cdx
open OMap

/-! ## Exceptions -/

theorem Res.bind_ok {α β : Type} {x : Res α} {f : α → Res β} {b : β} :
    (x >>= f) = .ok b ↔ ∃ a, x = .ok a ∧ f a = .ok b := by
  cases x with
  | error e => simp [bind, Except.bind]
  | ok a => simp [bind, Except.bind]

theorem Res.bind_error {α β : Type} {x : Res α} {f : α → Res β} {e : Fault} :
    (x >>= f) = .error e ↔ x = .error e ∨ ∃ a, x = .ok a ∧ f a = .error e := by
  cases x with
  | error e => simp [bind, Except.bind]
  | ok a => simp [bind, Except.bind]

theorem index_ok {α : Type} {m : OMap PackageId α} {id : PackageId} {a : α} :
    OMap.index m id = .ok a ↔ m.lookup id = some a := by
  unfold OMap.index; split <;> simp_all

theorem index_ne_fuel {α : Type} {m : OMap PackageId α} {id : PackageId} :
    OMap.index m id ≠ .error .outOfFuel := by
  unfold OMap.index; split <;> simp

namespace PrivateDepKind

theorem ofDependencyKind_ok {k : DependencyKind} {p : PrivateDepKind} :
    ofDependencyKind k = .ok p ↔ k = p.toDependencyKind := by
  cases k <;> cases p <;> simp [ofDependencyKind, toDependencyKind]

theorem ofDependencyKind_ne_fuel {k : DependencyKind} : ofDependencyKind k ≠ .error .outOfFuel := by
  cases k <;> simp [ofDependencyKind]

theorem toDependencyKind_inj {a b : PrivateDepKind} :
    a.toDependencyKind = b.toDependencyKind ↔ a = b := by
  cases a <;> cases b <;> simp [toDependencyKind]

theorem strength_toDependencyKind (a : PrivateDepKind) :
    Spec.strength a.toDependencyKind = a.rank + 1 := by cases a <;> rfl

theorem weaker_toDependencyKind (a b : PrivateDepKind) :
    Spec.weaker a.toDependencyKind b.toDependencyKind = (b.min a).toDependencyKind := by
  cases a <;> cases b <;> rfl

end PrivateDepKind

/-! ## The inner loop -/

theorem pushChild_ok {v : List DepTriple} {pk : PrivateDepKind} {st st' : List DepTriple}
    {c : PackageId × DependencyKind} (h : pushChild v pk st c = .ok st') :
    ∃ k, c.2 = k.toDependencyKind ∧
      st' = (if (⟨c.1, k, k.min pk⟩ : DepTriple) ∈ v then st else ⟨c.1, k, k.min pk⟩ :: st) := by
  unfold pushChild at h
  rw [Res.bind_ok] at h
  obtain ⟨k, hk, h⟩ := h
  refine ⟨k, PrivateDepKind.ofDependencyKind_ok.1 hk, ?_⟩
  simp only at h
  split at h <;> simp_all

theorem pushChild_ne_fuel {v : List DepTriple} {pk : PrivateDepKind} {st : List DepTriple}
    {c : PackageId × DependencyKind} : pushChild v pk st c ≠ .error .outOfFuel := by
  unfold pushChild
  rw [Ne, Res.bind_error]
  rintro (h | ⟨k, _, h⟩)
  · exact PrivateDepKind.ofDependencyKind_ne_fuel h
  · simp only at h
    split at h <;> cases h

/-- The triples pushed for the children of a node. -/
def childTriple (pk : PrivateDepKind) (cs : List (PackageId × DependencyKind)) (t : DepTriple) :
    Prop :=
  ∃ c ∈ cs, ∃ k : PrivateDepKind, c.2 = k.toDependencyKind ∧ t = ⟨c.1, k, k.min pk⟩

theorem pushAll_ok {v : List DepTriple} {pk : PrivateDepKind}
    {cs : List (PackageId × DependencyKind)} {st st' : List DepTriple}
    (h : cs.foldlM (pushChild v pk) st = .ok st') :
    ∃ pushed, st' = pushed ++ st ∧ pushed.length ≤ cs.length ∧
      ∀ t, t ∈ pushed ↔ childTriple pk cs t ∧ t ∉ v := by
  induction cs generalizing st with
  | nil =>
    simp only [List.foldlM_nil, pure, Except.pure, Except.ok.injEq] at h
    exact ⟨[], by simp [h], by simp, by simp [childTriple]⟩
  | cons c cs ih =>
    rw [List.foldlM_cons, Res.bind_ok] at h
    obtain ⟨st1, h1, h2⟩ := h
    obtain ⟨k, hk, e⟩ := pushChild_ok h1
    obtain ⟨pushed, e2, hl, hm⟩ := ih h2
    split at e
    · next hv =>
      refine ⟨pushed, by rw [e2, e], by simp; omega, fun t => ?_⟩
      rw [hm]
      constructor
      · rintro ⟨⟨c', hc', r⟩, hnv⟩
        exact ⟨⟨c', List.mem_cons_of_mem _ hc', r⟩, hnv⟩
      · rintro ⟨⟨c', hc', k', hk', rfl⟩, hnv⟩
        simp only [List.mem_cons] at hc'
        rcases hc' with rfl | hc'
        · rw [hk, PrivateDepKind.toDependencyKind_inj] at hk'
          subst hk'; exact absurd hv hnv
        · exact ⟨⟨c', hc', k', hk', rfl⟩, hnv⟩
    · next hv =>
      refine ⟨pushed ++ [⟨c.1, k, k.min pk⟩], by rw [e2, e]; simp, by simp; omega, fun t => ?_⟩
      simp only [List.mem_append, List.mem_singleton]
      rw [hm]
      constructor
      · rintro (⟨⟨c', hc', r⟩, hnv⟩ | rfl)
        · exact ⟨⟨c', List.mem_cons_of_mem _ hc', r⟩, hnv⟩
        · exact ⟨⟨c, List.mem_cons_self, k, hk, rfl⟩, hv⟩
      · rintro ⟨⟨c', hc', k', hk', rfl⟩, hnv⟩
        simp only [List.mem_cons] at hc'
        rcases hc' with rfl | hc'
        · rw [hk, PrivateDepKind.toDependencyKind_inj] at hk'
          subst hk'; exact .inr rfl
        · exact .inl ⟨⟨c', hc', k', hk', rfl⟩, hnv⟩

theorem pushAll_ne_fuel {v : List DepTriple} {pk : PrivateDepKind}
    {cs : List (PackageId × DependencyKind)} {st : List DepTriple} :
    cs.foldlM (pushChild v pk) st ≠ .error .outOfFuel := by
  induction cs generalizing st with
  | nil => simp [pure, Except.pure]
  | cons c cs ih =>
    rw [List.foldlM_cons, Ne, Res.bind_error]
    rintro (h | ⟨k, _, h⟩)
    · exact pushChild_ne_fuel h
    · exact ih h

theorem pushAll_total {v : List DepTriple} {pk : PrivateDepKind}
    {cs : List (PackageId × DependencyKind)} {st : List DepTriple}
    (h : ∀ c ∈ cs, c.2 ≠ .unknown) : ∃ st', cs.foldlM (pushChild v pk) st = .ok st' := by
  induction cs generalizing st with
  | nil => exact ⟨st, rfl⟩
  | cons c cs ih =>
    have : ∃ st1, pushChild v pk st c = .ok st1 := by
      have hc := h c List.mem_cons_self
      unfold pushChild
      cases hk : c.2 <;> simp_all [PrivateDepKind.ofDependencyKind, bind, Except.bind] <;>
        split <;> simp
    obtain ⟨st1, h1⟩ := this
    obtain ⟨st2, h2⟩ := ih (st := st1) (fun c' hc' => h c' (List.mem_cons_of_mem _ hc'))
    refine ⟨st2, ?_⟩
    rw [List.foldlM_cons, h1]
    exact h2

/-! ## One step -/

/-- New value of the kind table after visiting `t` (`generator.rs` 653-659). -/
def updKinds (kinds : OMap PackageId PrivateDepKind) (t : DepTriple) :
    OMap PackageId PrivateDepKind :=
  match kinds.lookup t.pkg with
  | none => kinds.insert t.pkg t.pathKind
  | some previous => if t.pathKind.gt previous then kinds.insert t.pkg t.pathKind else kinds

theorem depKindStep_ok {resolve : ResolveMap} {kinds : OMap PackageId PrivateDepKind}
    {visited : List DepTriple} {t : DepTriple} {rest : List DepTriple} {s : DepKindState}
    (h : depKindStep resolve kinds visited t rest = .ok s) :
    ∃ node pushed, resolve.lookup t.pkg = some node ∧ s.visited = t :: visited ∧
      s.kinds = updKinds kinds t ∧ s.stack = pushed ++ rest ∧
      pushed.length ≤ node.kindedDeps.length ∧
      ∀ c, c ∈ pushed ↔ childTriple t.pathKind node.kindedDeps c ∧ c ∉ t :: visited := by
  unfold depKindStep at h
  simp only [Res.bind_ok] at h
  obtain ⟨node, hn, st, hst, h⟩ := h
  obtain ⟨pushed, e, hl, hm⟩ := pushAll_ok hst
  cases h
  exact ⟨node, pushed, index_ok.1 hn, rfl, rfl, e, hl, hm⟩

theorem depKindStep_ne_fuel {resolve : ResolveMap} {kinds : OMap PackageId PrivateDepKind}
    {visited : List DepTriple} {t : DepTriple} {rest : List DepTriple} :
    depKindStep resolve kinds visited t rest ≠ .error .outOfFuel := by
  unfold depKindStep
  simp only [Ne, Res.bind_error]
  rintro (h | ⟨_, _, h | ⟨_, _, h⟩⟩)
  · exact index_ne_fuel h
  · exact pushAll_ne_fuel h
  · cases h

/-! ## Termination -/

/-- All triples on one package. -/
def triplesOf (p : PackageId) : List DepTriple :=
  [.development, .build, .runtime].flatMap fun a =>
    [.development, .build, .runtime].map fun b => ⟨p, a, b⟩

theorem mem_triplesOf (t : DepTriple) : t ∈ triplesOf t.pkg := by
  obtain ⟨p, a, b⟩ := t
  cases a <;> cases b <;> simp [triplesOf]

/-- All triples that can ever be on the stack. -/
def allTriples (root : PackageId) (resolve : ResolveMap) : List DepTriple :=
  (root :: resolve.flatMap fun kn => kn.2.deps.map (·.pkg)).flatMap triplesOf

theorem sum_le_sum {α : Type} (l : List α) (f g : α → Nat) (h : ∀ x ∈ l, f x ≤ g x) :
    (l.map f).sum ≤ (l.map g).sum := by
  induction l with
  | nil => simp
  | cons a l ih =>
    simp only [List.map_cons, List.sum_cons]
    have h1 := h a List.mem_cons_self
    have := ih (fun x hx => h x (List.mem_cons_of_mem _ hx))
    omega

theorem length_le_sum_succ {α : Type} (l : List α) (f : α → Nat) :
    l.length ≤ (l.map fun x => f x + 1).sum := by
  induction l with
  | nil => simp
  | cons a l ih => simp only [List.length_cons, List.map_cons, List.sum_cons]; omega

theorem le_sum_of_mem {α : Type} {l : List α} {f : α → Nat} {x : α} (h : x ∈ l) :
    f x ≤ (l.map f).sum := by
  induction l with
  | nil => simp at h
  | cons a l ih =>
    simp only [List.mem_cons] at h
    simp only [List.map_cons, List.sum_cons]
    rcases h with rfl | h
    · omega
    · have := ih h; omega

theorem length_allTriples (root : PackageId) (resolve : ResolveMap) :
    (allTriples root resolve).length ≤ 9 * (ResolveMap.size resolve + 1) := by
  have h1 : ∀ l : List PackageId, (l.flatMap triplesOf).length = 9 * l.length := by
    intro l
    induction l with
    | nil => rfl
    | cons a l ih => simp only [List.flatMap_cons, List.length_append, ih, List.length_cons,
        show (triplesOf a).length = 9 from rfl]; omega
  unfold allTriples
  rw [h1]
  have : (resolve.flatMap fun kn => kn.2.deps.map (·.pkg)).length ≤ ResolveMap.size resolve := by
    unfold ResolveMap.size
    rw [List.length_flatMap]
    apply sum_le_sum
    intro x _
    rw [List.length_map]
    exact length_le_sum_succ _ _
  simp only [List.length_cons]
  omega

theorem length_kindedDeps_le {resolve : ResolveMap} {p : PackageId} {node : Node}
    (h : resolve.lookup p = some node) : node.kindedDeps.length ≤ ResolveMap.size resolve := by
  have hm := lookup_mem h
  have h1 : node.kindedDeps.length ≤ (node.deps.map fun d => d.depKinds.length + 1).sum := by
    unfold Node.kindedDeps
    rw [List.length_flatMap]
    apply sum_le_sum
    intro d _
    simp
  have h2 := le_sum_of_mem
    (f := fun kn : PackageId × Node => (kn.2.deps.map fun d => d.depKinds.length + 1).sum) hm
  unfold ResolveMap.size
  exact Nat.le_trans h1 h2

/-- Number of triples of the allTriples that are not yet visited. -/
def unvisited (univ visited : List DepTriple) : Nat :=
  (univ.filter fun t => decide (t ∉ visited)).length

theorem filter_length_lt {α : Type} {p q : α → Bool} {l : List α} (hpq : ∀ x, p x → q x) {a : α}
    (ha : a ∈ l) (hq : q a = true) (hp : p a = false) :
    (l.filter p).length < (l.filter q).length := by
  induction l with
  | nil => simp at ha
  | cons b l ih =>
    simp only [List.mem_cons] at ha
    have hle : (l.filter p).length ≤ (l.filter q).length := by
      clear ih ha
      induction l with
      | nil => simp
      | cons c l ih =>
        simp only [List.filter_cons]
        cases hp : p c <;> cases hq' : q c <;> simp_all <;> omega
    rcases ha with rfl | ha
    · simp [List.filter_cons, hq, hp]; omega
    · have := ih ha
      simp only [List.filter_cons]
      cases hp' : p b <;> cases hq' : q b <;> simp_all <;> omega

theorem unvisited_lt {univ visited : List DepTriple} {t : DepTriple} (hu : t ∈ univ)
    (hv : t ∉ visited) : unvisited univ (t :: visited) < unvisited univ visited := by
  unfold unvisited
  apply filter_length_lt _ hu
  · simpa using hv
  · simp
  · intro x; simp

theorem unvisited_le {univ visited : List DepTriple} {t : DepTriple} (hv : t ∈ visited) :
    unvisited univ (t :: visited) = unvisited univ visited := by
  unfold unvisited
  congr 1
  apply List.filter_congr
  intro x _
  simp only [List.mem_cons, decide_eq_decide]
  constructor
  · intro h h'; exact h (.inr h')
  · rintro h (rfl | h')
    · exact h hv
    · exact h h'

/-- 1 if the top of the stack is already visited. -/
def topVisited (s : DepKindState) : Nat :=
  match s.stack with
  | [] => 0
  | t :: _ => if t ∈ s.visited then 1 else 0

/-- Decreases with every loop iteration. -/
def potential (root : PackageId) (resolve : ResolveMap) (s : DepKindState) : Nat :=
  s.stack.length + (ResolveMap.size resolve + 1) *
    (2 * unvisited (allTriples root resolve) s.visited + topVisited s)

theorem topVisited_le (s : DepKindState) : topVisited s ≤ 1 := by
  unfold topVisited; split
  · omega
  · split <;> omega

theorem child_in_allTriples {root : PackageId} {resolve : ResolveMap} {p : PackageId} {node : Node}
    {pk : PrivateDepKind} {c : DepTriple} (h : resolve.lookup p = some node)
    (hc : childTriple pk node.kindedDeps c) : c ∈ allTriples root resolve := by
  obtain ⟨⟨q, k'⟩, hq, k, hk, rfl⟩ := hc
  unfold allTriples
  rw [List.mem_flatMap]
  refine ⟨q, List.mem_cons_of_mem _ ?_, mem_triplesOf _⟩
  rw [List.mem_flatMap]
  refine ⟨_, lookup_mem h, ?_⟩
  unfold Node.kindedDeps at hq
  rw [List.mem_flatMap] at hq
  obtain ⟨d, hd, hq⟩ := hq
  rw [List.mem_map] at hq
  obtain ⟨i, _, e⟩ := hq
  cases e
  exact List.mem_map_of_mem hd

theorem step_potential {root : PackageId} {resolve : ResolveMap} {s s' : DepKindState}
    {t : DepTriple} {rest : List DepTriple} (hs : s.stack = t :: rest)
    (hin : ∀ t ∈ s.stack, t ∈ allTriples root resolve)
    (h : depKindStep resolve s.kinds s.visited t rest = .ok s') :
    (∀ t ∈ s'.stack, t ∈ allTriples root resolve) ∧
      potential root resolve s' < potential root resolve s := by
  obtain ⟨node, pushed, hn, hv, -, hst, hl, hm⟩ := depKindStep_ok h
  have hD := length_kindedDeps_le hn
  constructor
  · intro c hc
    rw [hst, List.mem_append] at hc
    rcases hc with hc | hc
    · exact child_in_allTriples hn ((hm c).1 hc).1
    · exact hin c (by rw [hs]; exact List.mem_cons_of_mem _ hc)
  · unfold potential
    have hlen : s'.stack.length ≤ ResolveMap.size resolve + rest.length := by
      rw [hst, List.length_append]; omega
    have hlen0 : s.stack.length = rest.length + 1 := by rw [hs]; rfl
    rw [hv]
    generalize hN : ResolveMap.size resolve = D at *
    by_cases hvis : t ∈ s.visited
    · rw [unvisited_le hvis]
      have ht : topVisited s = 1 := by unfold topVisited; rw [hs]; simp [hvis]
      rw [ht]
      cases pushed with
      | nil =>
        have h1 := topVisited_le s'
        have : (D + 1) * (2 * unvisited (allTriples root resolve) s.visited + topVisited s') ≤
          (D + 1) * (2 * unvisited (allTriples root resolve) s.visited + 1) :=
          Nat.mul_le_mul_left _ (by omega)
        rw [hst]
        simp only [List.nil_append]
        omega
      | cons c cs =>
        have ht' : topVisited s' = 0 := by
          unfold topVisited
          rw [hst, hv]
          have := ((hm c).1 List.mem_cons_self).2
          simp only [List.cons_append, if_neg this]
        rw [ht', Nat.mul_add (D + 1) _ 1]
        simp only [Nat.add_zero]
        omega
    · have hU := unvisited_lt (hin t (by rw [hs]; exact List.mem_cons_self)) hvis
      have h1 := topVisited_le s'
      have h2 : 2 * unvisited (allTriples root resolve) (t :: s.visited) + topVisited s' + 1 ≤
          2 * unvisited (allTriples root resolve) s.visited + topVisited s := by omega
      have h3 := Nat.mul_le_mul_left (D + 1) h2
      rw [Nat.mul_add (D + 1) _ 1] at h3
      omega

theorem loop_ne_fuel {root : PackageId} {resolve : ResolveMap} (fuel : Nat) {s : DepKindState}
    (hin : ∀ t ∈ s.stack, t ∈ allTriples root resolve) (hf : potential root resolve s < fuel) :
    depKindLoop resolve fuel s ≠ .error .outOfFuel := by
  induction fuel generalizing s with
  | zero => omega
  | succ fuel ih =>
    unfold depKindLoop
    split
    · simp
    · next t rest hs =>
      split
      · next e he => intro h; cases h; exact depKindStep_ne_fuel he
      · next s' hs' =>
        obtain ⟨h1, h2⟩ := step_potential hs hin hs'
        exact ih h1 (by omega)

theorem init_potential (root : PackageId) (resolve : ResolveMap)
    (kinds : OMap PackageId PrivateDepKind) :
    potential root resolve ⟨kinds, [⟨root, .runtime, .runtime⟩], []⟩ < depKindFuel resolve := by
  unfold potential depKindFuel
  have h0 : topVisited ⟨kinds, [⟨root, .runtime, .runtime⟩], []⟩ = 0 := by simp [topVisited]
  rw [h0]
  have h1 : unvisited (allTriples root resolve) [] ≤ 9 * (ResolveMap.size resolve + 1) :=
    Nat.le_trans (List.length_filter_le _ _) (length_allTriples _ _)
  have h2 := Nat.mul_le_mul_left (ResolveMap.size resolve + 1) (Nat.mul_le_mul_left 2 h1)
  simp only [List.length_singleton, Nat.add_zero]
  omega

/-- The loop bound of the model is never reached. -/
theorem indexDepKinds_ne_fuel (root : PackageId) (resolve : ResolveMap) :
    indexDepKinds root resolve ≠ .error .outOfFuel := by
  unfold indexDepKinds
  simp only
  split
  · next e he =>
    intro h; cases h
    refine loop_ne_fuel (root := root) _ ?_ (init_potential root resolve _) he
    intro t ht
    simp only [List.mem_singleton] at ht
    subst ht
    unfold allTriples
    rw [List.mem_flatMap]
    exact ⟨root, List.mem_cons_self, mem_triplesOf _⟩
  · simp

/-! ## Correctness -/

/-- Paths, on the indexed graph and with the private kinds. -/
inductive PathK (resolve : ResolveMap) (root : PackageId) : PackageId → PrivateDepKind → Prop
  | root : PathK resolve root root .runtime
  | step {p k node t} : PathK resolve root p k → resolve.lookup p = some node →
      childTriple k node.kindedDeps t → PathK resolve root t.pkg t.pathKind

structure Inv (resolve : ResolveMap) (root : PackageId) (s : DepKindState) : Prop where
  stackPath : ∀ t ∈ s.stack, PathK resolve root t.pkg t.pathKind
  kindsPath : ∀ p k, s.kinds.lookup p = some k → PathK resolve root p k
  kindsSorted : Sorted s.kinds
  visitedKinds : ∀ t ∈ s.visited, ∃ k, s.kinds.lookup t.pkg = some k ∧ t.pathKind.rank ≤ k.rank
  closed : ∀ t ∈ s.visited, ∀ node, resolve.lookup t.pkg = some node →
    ∀ c, childTriple t.pathKind node.kindedDeps c → c ∈ s.visited ∨ c ∈ s.stack
  rootIn : ∃ t, t.pkg = root ∧ t.pathKind = .runtime ∧ (t ∈ s.visited ∨ t ∈ s.stack)

theorem lookup_updKinds (kinds : OMap PackageId PrivateDepKind) (t : DepTriple) (p : PackageId) :
    (updKinds kinds t).lookup p =
      if p = t.pkg then
        some (match kinds.lookup t.pkg with
          | none => t.pathKind
          | some k => if t.pathKind.gt k then t.pathKind else k)
      else kinds.lookup p := by
  unfold updKinds
  split
  · next h => rw [lookup_insert]
  · next k h =>
    split
    · next hg => rw [lookup_insert]
    · next hg =>
      split
      · next e => subst e; simp [h, hg]
      · rfl

theorem sorted_updKinds {kinds : OMap PackageId PrivateDepKind} {t : DepTriple}
    (h : Sorted kinds) : Sorted (updKinds kinds t) := by
  unfold updKinds
  split
  · exact sorted_insert h
  · split
    · exact sorted_insert h
    · exact h

theorem inv_step {root : PackageId} {resolve : ResolveMap} {s s' : DepKindState}
    {t : DepTriple} {rest : List DepTriple} (hs : s.stack = t :: rest)
    (inv : Inv resolve root s)
    (h : depKindStep resolve s.kinds s.visited t rest = .ok s') : Inv resolve root s' := by
  obtain ⟨node, pushed, hn, hv, hk, hst, hl, hm⟩ := depKindStep_ok h
  have htp := inv.stackPath t (by rw [hs]; exact List.mem_cons_self)
  refine ⟨?_, ?_, ?_, ?_, ?_, ?_⟩
  · intro c hc
    rw [hst, List.mem_append] at hc
    rcases hc with hc | hc
    · exact .step htp hn ((hm c).1 hc).1
    · exact inv.stackPath c (by rw [hs]; exact List.mem_cons_of_mem _ hc)
  · intro p k hpk
    rw [hk, lookup_updKinds] at hpk
    split at hpk
    · next e =>
      subst e
      split at hpk
      · cases hpk; exact htp
      · next k' hk' =>
        split at hpk
        · cases hpk; exact htp
        · cases hpk; exact inv.kindsPath _ _ hk'
    · exact inv.kindsPath p k hpk
  · rw [hk]; exact sorted_updKinds inv.kindsSorted
  · intro c hc
    rw [hv, List.mem_cons] at hc
    rw [hk, lookup_updKinds]
    rcases hc with rfl | hc
    · rw [if_pos rfl]
      refine ⟨_, rfl, ?_⟩
      split
      · omega
      · next k _ =>
        split
        · omega
        · next hg => unfold PrivateDepKind.gt at hg; simp at hg; omega
    · obtain ⟨k, hk1, hk2⟩ := inv.visitedKinds c hc
      split
      · next e =>
        refine ⟨_, rfl, ?_⟩
        rw [← e, hk1]
        simp only
        split
        · next hg => unfold PrivateDepKind.gt at hg; simp at hg; omega
        · omega
      · exact ⟨k, hk1, hk2⟩
  · intro c hc node' hn' d hd
    rw [hv, List.mem_cons] at hc
    rcases hc with rfl | hc
    · rw [hn] at hn'; cases hn'
      by_cases hdv : d ∈ c :: s.visited
      · rw [hv]; exact .inl hdv
      · rw [hst]; exact .inr (List.mem_append_left _ ((hm d).2 ⟨hd, hdv⟩))
    · rcases inv.closed c hc node' hn' d hd with h | h
      · rw [hv]; exact .inl (List.mem_cons_of_mem _ h)
      · rw [hs, List.mem_cons] at h
        rcases h with rfl | h
        · rw [hv]; exact .inl List.mem_cons_self
        · rw [hst]; exact .inr (List.mem_append_right _ h)
  · obtain ⟨r, h1, h2, h3⟩ := inv.rootIn
    refine ⟨r, h1, h2, ?_⟩
    rcases h3 with h3 | h3
    · rw [hv]; exact .inl (List.mem_cons_of_mem _ h3)
    · rw [hs, List.mem_cons] at h3
      rcases h3 with rfl | h3
      · rw [hv]; exact .inl List.mem_cons_self
      · rw [hst]; exact .inr (List.mem_append_right _ h3)

theorem loop_inv {root : PackageId} {resolve : ResolveMap} (fuel : Nat) {s : DepKindState}
    (inv : Inv resolve root s) {m : OMap PackageId PrivateDepKind}
    (h : depKindLoop resolve fuel s = .ok m) :
    ∃ s', Inv resolve root s' ∧ s'.stack = [] ∧ s'.kinds = m := by
  induction fuel generalizing s with
  | zero => simp [depKindLoop] at h
  | succ fuel ih =>
    unfold depKindLoop at h
    split at h
    · next hs => cases h; exact ⟨s, inv, hs, rfl⟩
    · next t rest hs =>
      split at h
      · cases h
      · next s' hs' => exact ih (inv_step hs inv hs') h

theorem exit_complete {root : PackageId} {resolve : ResolveMap} {s : DepKindState}
    (inv : Inv resolve root s) (he : s.stack = []) {p : PackageId} {k : PrivateDepKind}
    (hp : PathK resolve root p k) : ∃ t ∈ s.visited, t.pkg = p ∧ t.pathKind = k := by
  induction hp with
  | root =>
    obtain ⟨t, h1, h2, h3⟩ := inv.rootIn
    rw [he] at h3
    simp only [List.not_mem_nil, or_false] at h3
    exact ⟨t, h3, h1, h2⟩
  | step hp hn hc ih =>
    next p k node c =>
    obtain ⟨t, ht, rfl, rfl⟩ := ih
    have := inv.closed t ht node hn c hc
    rw [he] at this
    simp only [List.not_mem_nil, or_false] at this
    exact ⟨c, this, rfl, rfl⟩

/-- The kind table records exactly the strongest paths. -/
theorem indexDepKinds_lookup {root : PackageId} {resolve : ResolveMap} {m : DependencyKindMap}
    (h : indexDepKinds root resolve = .ok m) :
    Sorted m ∧ ∀ p d, m.lookup p = some d ↔ ∃ k : PrivateDepKind, d = k.toDependencyKind ∧
      PathK resolve root p k ∧ ∀ k', PathK resolve root p k' → k'.rank ≤ k.rank := by
  unfold indexDepKinds at h
  simp only at h
  split at h
  · cases h
  next m0 h0 =>
  cases h
  have inv0 : Inv resolve root
      { kinds := OMap.insert root .runtime [], stack := [⟨root, .runtime, .runtime⟩],
        visited := [] } := by
    refine ⟨?_, ?_, ?_, ?_, ?_, ?_⟩
    · intro t ht; simp at ht; subst ht; exact .root
    · intro p k hpk
      rw [lookup_insert] at hpk
      split at hpk
      · next e => cases hpk; subst e; exact .root
      · simp at hpk
    · exact sorted_insert sorted_nil
    · simp
    · simp
    · exact ⟨⟨root, .runtime, .runtime⟩, rfl, rfl, .inr List.mem_cons_self⟩
  obtain ⟨s, inv, he, rfl⟩ := loop_inv _ inv0 h0
  constructor
  · unfold Sorted
    rw [List.pairwise_map]
    exact inv.kindsSorted
  intro p d
  have hmap : ∀ l : OMap PackageId PrivateDepKind,
      OMap.lookup p (l.map fun kv => (kv.1, kv.2.toDependencyKind)) =
        (l.lookup p).map PrivateDepKind.toDependencyKind := by
    intro l
    induction l with
    | nil => rfl
    | cons kv l ih =>
      obtain ⟨k, v⟩ := kv
      by_cases e : p = k
      · subst e; rw [List.map_cons, lookup_cons_self, lookup_cons_self]; rfl
      · rw [List.map_cons, lookup_cons_ne e, lookup_cons_ne e, ih]
  rw [hmap]
  have key : ∀ k, s.kinds.lookup p = some k ↔
      PathK resolve root p k ∧ ∀ k', PathK resolve root p k' → k'.rank ≤ k.rank := by
    intro k
    constructor
    · intro hk
      refine ⟨inv.kindsPath p k hk, fun k' hk' => ?_⟩
      obtain ⟨t, ht, rfl, rfl⟩ := exit_complete inv he hk'
      obtain ⟨k2, h1, h2⟩ := inv.visitedKinds t ht
      rw [hk] at h1; cases h1; exact h2
    · rintro ⟨hp, hmax⟩
      obtain ⟨t, ht, rfl, rfl⟩ := exit_complete inv he hp
      obtain ⟨k2, h1, h2⟩ := inv.visitedKinds t ht
      have h3 := hmax k2 (inv.kindsPath _ _ h1)
      rw [h1]
      congr 1
      have : k2.rank = t.pathKind.rank := by omega
      revert this
      cases k2 <;> cases t.pathKind <;> simp [PrivateDepKind.rank]
  constructor
  · intro h
    rw [Option.map_eq_some_iff] at h
    obtain ⟨k, hk, rfl⟩ := h
    exact ⟨k, rfl, (key k).1 hk⟩
  · rintro ⟨k, rfl, hk⟩
    rw [(key k).2 hk]; rfl

end Cdx
