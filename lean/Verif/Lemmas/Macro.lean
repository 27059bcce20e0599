import Verif.Spec.Macro

/-!
# Lemmas on the `versioned` attribute
-/

namespace Cdx

/-- The attributes say that the node belongs to the version, if nothing else is known `b`. -/
def lets (v : MacroVersion) (b : Bool) (attrs : List MacroAttr) : Prop :=
  match (attrs.filterMap MacroAttr.versions).getLast? with
  | none => b = true
  | some vs => v ∈ vs

theorem lets_cons_versioned {v b args vs l} (h : parseVersions args = some vs) :
    lets v b (.versioned args :: l) ↔ lets v (vs.contains v) l := by
  unfold lets
  have hv : (MacroAttr.versioned args).versions = some vs := h
  rw [List.filterMap_cons, hv]
  dsimp only
  cases hl : l.filterMap MacroAttr.versions with
  | nil => simp
  | cons a m =>
    rw [List.getLast?_cons_cons, List.getLast?_eq_some_getLast (List.cons_ne_nil a m)]

theorem isActive_ok {v : MacroVersion} : ∀ {b : Bool} {attrs l : List MacroAttr} {found : Bool},
    isActive v b attrs = .ok (found, l) →
      l = otherAttrs attrs ∧ (found = true ↔ lets v b attrs) ∧ ∀ a ∈ attrs, ¬ a.Malformed
  | b, [], l, found, h => by
    cases h
    exact ⟨rfl, by simp [lets], by simp⟩
  | b, .versioned args :: attrs, l, found, h => by
    unfold isActive at h
    cases hp : parseVersions args with
    | none => rw [hp] at h; cases h
    | some vs =>
      rw [hp] at h
      obtain ⟨h1, h2, h3⟩ := isActive_ok h
      refine ⟨by rw [h1]; simp [otherAttrs], h2.trans (lets_cons_versioned hp).symm, ?_⟩
      intro a ha
      rcases List.mem_cons.1 ha with rfl | ha
      · rintro ⟨_, e, hn⟩
        cases e
        rw [hp] at hn
        cases hn
      · exact h3 a ha
  | b, .other s :: attrs, l, found, h => by
    unfold isActive at h
    cases hr : isActive v b attrs with
    | error e => rw [hr] at h; cases h
    | ok r =>
      obtain ⟨found', l'⟩ := r
      rw [hr] at h
      cases h
      obtain ⟨h1, h2, h3⟩ := isActive_ok hr
      refine ⟨by rw [h1]; simp [otherAttrs], h2, ?_⟩
      intro a ha
      rcases List.mem_cons.1 ha with rfl | ha
      · rintro ⟨_, e, _⟩
        cases e
      · exact h3 a ha

theorem isActive_error {v : MacroVersion} : ∀ {b : Bool} {attrs : List MacroAttr} {e : Unit},
    isActive v b attrs = .error e → ∃ a ∈ attrs, a.Malformed
  | b, [], e, h => by cases h
  | b, .versioned args :: attrs, e, h => by
    unfold isActive at h
    cases hp : parseVersions args with
    | none => exact ⟨_, List.mem_cons_self, args, rfl, hp⟩
    | some vs =>
      rw [hp] at h
      obtain ⟨a, ha, hm⟩ := isActive_error h
      exact ⟨a, List.mem_cons_of_mem _ ha, hm⟩
  | b, .other s :: attrs, e, h => by
    unfold isActive at h
    cases hr : isActive v b attrs with
    | error e =>
      obtain ⟨a, ha, hm⟩ := isActive_error hr
      exact ⟨a, List.mem_cons_of_mem _ ha, hm⟩
    | ok r => rw [hr] at h; cases h

theorem lets_true {v : MacroVersion} {attrs : List MacroAttr} :
    lets v true attrs ↔ ∀ vs, (attrs.filterMap MacroAttr.versions).getLast? = some vs → v ∈ vs := by
  unfold lets
  cases (attrs.filterMap MacroAttr.versions).getLast? with
  | none => simp
  | some vs => simp

theorem otherAttrs_idem (l : List MacroAttr) : otherAttrs (otherAttrs l) = otherAttrs l := by
  unfold otherAttrs
  rw [List.filter_filter]
  congr 1
  funext a
  cases a <;> rfl

mutual
theorem Syn.nodes_around : ∀ (x : Syn) (around : List Syn),
    ∀ p ∈ Syn.nodes around x, x ∈ p.2 :: p.1 ∧ ∀ n ∈ around, n ∈ p.1
  | .node kind attrs tokens children, around, p, hp => by
    unfold Syn.nodes at hp
    split at hp
    · cases hp
    · rcases List.mem_cons.1 hp with rfl | hp
      · exact ⟨List.mem_cons_self, fun n hn => hn⟩
      · split at hp
        · cases hp
        · have := Syn.nodesAll_around children _ p hp
          exact ⟨List.mem_cons_of_mem _ (this _ List.mem_cons_self),
            fun n hn => this n (List.mem_cons_of_mem _ hn)⟩
termination_by structural x => x

theorem Syn.nodesAll_around : ∀ (l : List Syn) (around : List Syn),
    ∀ p ∈ Syn.nodesAll around l, ∀ n ∈ around, n ∈ p.1
  | [], _, p, hp => by cases hp
  | x :: l, around, p, hp => by
    unfold Syn.nodesAll at hp
    rcases List.mem_append.1 hp with hp | hp
    · exact (Syn.nodes_around x around p hp).2
    · exact Syn.nodesAll_around l around p hp
termination_by structural x => x
end

open Classical in
/-- The lines of the marked nodes. -/
noncomputable def linesOf (v : MacroVersion) (l : List (List Syn × Syn)) : List SynLine :=
  (l.filter fun p => ∀ n ∈ p.2 :: p.1, n.Marked v).map fun p => p.2.line p.1.length

/-- The lines of all nodes. -/
def allLines (l : List (List Syn × Syn)) : List SynLine := l.map fun p => p.2.line p.1.length

theorem linesOf_nil (v : MacroVersion) : linesOf v [] = [] := rfl

theorem linesOf_append (v : MacroVersion) (a b : List (List Syn × Syn)) :
    linesOf v (a ++ b) = linesOf v a ++ linesOf v b := by
  simp [linesOf]

theorem linesOf_cons_pos {v : MacroVersion} {p : List Syn × Syn} {l : List (List Syn × Syn)}
    (h : ∀ n ∈ p.2 :: p.1, n.Marked v) : linesOf v (p :: l) = p.2.line p.1.length :: linesOf v l := by
  unfold linesOf
  rw [List.filter_cons_of_pos (by simpa using h)]
  rfl

theorem linesOf_none {v : MacroVersion} {l : List (List Syn × Syn)}
    (h : ∀ p ∈ l, ¬ ∀ n ∈ p.2 :: p.1, n.Marked v) : linesOf v l = [] := by
  unfold linesOf
  rw [List.filter_eq_nil_iff.2 (by simpa using h)]
  rfl

theorem linesOf_unmarked {v : MacroVersion} {x : Syn} {around : List Syn} (h : ¬ x.Marked v) :
    linesOf v (Syn.nodes around x) = [] :=
  linesOf_none fun p hp hm => h (hm x (Syn.nodes_around x around p hp).1)

/-- The result of folding a node: what is left of it. -/
def keptLines (around : List Syn) : Option Syn → List SynLine
  | none => []
  | some y => allLines (Syn.nodes around y)

mutual
theorem Syn.fold_lines (v : MacroVersion) : ∀ (x : Syn) {r : Option Syn} {around around' : List Syn},
    Syn.fold v x = .ok r → around.length = around'.length → (∀ n ∈ around, n.Marked v) →
    linesOf v (Syn.nodes around x) = keptLines around' r
  | .node kind attrs tokens children, r, around, around', h, hl, hm => by
    have gated : kind ≠ .other → kind ≠ .gone → kind ≠ .field →
        ∀ {found l}, isActive v true attrs = .ok (found, l) → found = true →
        ∀ {cs}, Syn.foldAll v children = .ok cs →
        linesOf v (Syn.nodes around (.node kind attrs tokens children)) =
          keptLines around' (some (.node kind l tokens cs)) := by
      intro ho hg hf found l ha ht cs hc
      obtain ⟨rfl, h2, -⟩ := isActive_ok ha
      have hmk : Syn.Marked v (.node kind attrs tokens children) := .inr (lets_true.1 (h2.1 ht))
      have ih := Syn.foldAll_lines v children (around := .node kind attrs tokens children :: around)
        (around' := .node kind (otherAttrs attrs) tokens cs :: around') hc (by simp [hl])
        (List.forall_mem_cons.2 ⟨hmk, hm⟩)
      unfold keptLines Syn.nodes
      dsimp only
      rw [if_neg hg, if_neg hf, if_neg hg, if_neg hf, linesOf_cons_pos (List.forall_mem_cons.2 ⟨hmk, hm⟩), ih]
      simp [allLines, Syn.line, otherAttrs_idem, hl, hf, ho]
    have dropped : kind ≠ .other → ∀ {found l}, isActive v true attrs = .ok (found, l) → ¬ found = true →
        linesOf v (Syn.nodes around (.node kind attrs tokens children)) = [] := by
      intro ho found l ha ht
      obtain ⟨-, h2, -⟩ := isActive_ok ha
      apply linesOf_unmarked
      rintro (e | hk)
      · exact ho e
      · exact ht (h2.2 (lets_true.2 hk))
    unfold Syn.fold at h
    cases kind
    case item | stmt | expr =>
      dsimp only at h
      cases ha : isActive v true attrs with
      | error e => rw [ha] at h; cases h
      | ok p =>
        obtain ⟨found, l⟩ := p
        rw [ha] at h
        simp only [bind, Except.bind] at h
        split at h
        · rename_i ht
          cases hc : Syn.foldAll v children with
          | error e => rw [hc] at h; cases h
          | ok cs =>
            rw [hc] at h
            cases h
            exact gated (by simp) (by simp) (by simp) ha ht hc
        · rename_i ht
          cases h
          rw [dropped (by simp) ha ht]
          simp [keptLines, Syn.nodes, allLines]
    case fieldValue | arm | variant =>
      dsimp only at h
      cases ha : isActive v true attrs with
      | error e => rw [ha] at h; cases h
      | ok p =>
        obtain ⟨found, l⟩ := p
        rw [ha] at h
        simp only [bind, Except.bind] at h
        split at h
        · rename_i ht
          cases hc : Syn.foldAll v children with
          | error e => rw [hc] at h; cases h
          | ok cs =>
            rw [hc] at h
            cases h
            exact gated (by simp) (by simp) (by simp) ha ht hc
        · rename_i ht
          cases h
          rw [dropped (by simp) ha ht]
          rfl
    case field =>
      dsimp only at h
      cases ha : isActive v true attrs with
      | error e => rw [ha] at h; cases h
      | ok p =>
        obtain ⟨found, l⟩ := p
        rw [ha] at h
        simp only [bind, Except.bind] at h
        cases h
        by_cases ht : found = true
        · rw [if_pos ht]
          obtain ⟨rfl, h2, -⟩ := isActive_ok ha
          have hmk : Syn.Marked v (.node .field attrs tokens children) := .inr (lets_true.1 (h2.1 ht))
          unfold keptLines Syn.nodes
          dsimp only
          rw [if_neg (by simp), if_pos rfl, if_neg (by simp), if_pos rfl,
            linesOf_cons_pos (List.forall_mem_cons.2 ⟨hmk, hm⟩), linesOf_nil]
          simp [allLines, Syn.line, otherAttrs_idem, hl]
        · rw [if_neg ht, dropped (by simp) ha ht]
          rfl
    case other =>
      dsimp only at h
      cases hc : Syn.foldAll v children with
      | error e => rw [hc] at h; cases h
      | ok cs =>
        rw [hc] at h
        cases h
        have hmk : Syn.Marked v (.node .other attrs tokens children) := .inl rfl
        have ih := Syn.foldAll_lines v children (around := .node .other attrs tokens children :: around)
          (around' := .node .other attrs tokens cs :: around') hc (by simp [hl])
          (List.forall_mem_cons.2 ⟨hmk, hm⟩)
        unfold keptLines Syn.nodes
        dsimp only
        rw [if_neg (by simp), if_neg (by simp), if_neg (by simp), if_neg (by simp),
          linesOf_cons_pos (List.forall_mem_cons.2 ⟨hmk, hm⟩), ih]
        simp [allLines, Syn.line, hl]
    case gone =>
      cases h
      simp [keptLines, Syn.nodes, allLines, linesOf_nil]
termination_by structural x => x

theorem Syn.foldAll_lines (v : MacroVersion) : ∀ (l : List Syn) {r : List Syn} {around around' : List Syn},
    Syn.foldAll v l = .ok r → around.length = around'.length → (∀ n ∈ around, n.Marked v) →
    linesOf v (Syn.nodesAll around l) = allLines (Syn.nodesAll around' r)
  | [], r, around, around', h, _, _ => by
    cases h
    simp [Syn.nodesAll, linesOf_nil, allLines]
  | x :: l, r, around, around', h, hl, hm => by
    unfold Syn.foldAll at h
    cases hx : Syn.fold v x with
    | error e => rw [hx] at h; cases h
    | ok y =>
      rw [hx] at h
      cases hr : Syn.foldAll v l with
      | error e => rw [hr] at h; cases h
      | ok l' =>
        rw [hr] at h
        cases h
        have h1 := Syn.fold_lines v x hx hl hm
        have h2 := Syn.foldAll_lines v l hr hl hm
        rw [Syn.nodesAll, linesOf_append, h1, h2]
        cases y with
        | none => rfl
        | some y => simp [keptLines, Syn.nodesAll, allLines]
termination_by structural x => x
end

/-- Folding a node that is looked at, and its children, fails exactly if the node is malformed, or is
marked and folding the children fails. -/
def Fails (v : MacroVersion) (l : List (List Syn × Syn)) : Prop :=
  ∃ p ∈ l, p.2.Malformed ∧ ∀ n ∈ p.1, n.Marked v

theorem Fails_append {v : MacroVersion} {a b : List (List Syn × Syn)} :
    Fails v (a ++ b) ↔ Fails v a ∨ Fails v b := by
  unfold Fails
  constructor
  · rintro ⟨p, hp, h⟩
    rcases List.mem_append.1 hp with hp | hp
    · exact .inl ⟨p, hp, h⟩
    · exact .inr ⟨p, hp, h⟩
  · rintro (⟨p, hp, h⟩ | ⟨p, hp, h⟩)
    · exact ⟨p, List.mem_append_left _ hp, h⟩
    · exact ⟨p, List.mem_append_right _ hp, h⟩

/-- An error. -/
def isError {α : Type} : Except Unit α → Prop
  | .ok _ => False
  | .error _ => True

mutual
theorem Syn.fold_fails (v : MacroVersion) : ∀ (x : Syn) {around : List Syn}, (∀ n ∈ around, n.Marked v) →
    (isError (Syn.fold v x) ↔ Fails v (Syn.nodes around x))
  | .node kind attrs tokens children, around, hm => by
    have gated : kind ≠ .other → kind ≠ .gone → kind ≠ .field →
        (Fails v (Syn.nodes around (.node kind attrs tokens children)) ↔
          (∃ e, isActive v true attrs = .error e) ∨
          (∃ l, isActive v true attrs = .ok (true, l)) ∧ isError (Syn.foldAll v children)) := by
      intro ho hg hf
      unfold Syn.nodes
      rw [if_neg hg, if_neg hf]
      cases ha : isActive v true attrs with
      | error e =>
        refine ⟨fun _ => .inl ⟨e, rfl⟩, fun _ => ⟨_, List.mem_cons_self, ⟨ho, isActive_error ha⟩, hm⟩⟩
      | ok p =>
        obtain ⟨found, l⟩ := p
        obtain ⟨-, h2, h3⟩ := isActive_ok ha
        have hmark : Syn.Marked v (.node kind attrs tokens children) ↔ found = true :=
          ⟨fun hk => hk.elim (fun e => absurd e ho) fun hk => h2.2 (lets_true.2 hk),
            fun ht => .inr (lets_true.1 (h2.1 ht))⟩
        constructor
        · rintro ⟨p, hp, hb, hk⟩
          rcases List.mem_cons.1 hp with rfl | hp
          · obtain ⟨-, a, haa, hab⟩ := hb
            exact absurd hab (h3 a haa)
          · have hx := hk _ (Syn.nodesAll_around children _ p hp _ List.mem_cons_self)
            have ht := hmark.1 hx
            refine .inr ⟨⟨l, by rw [ht]⟩, ?_⟩
            exact (Syn.foldAll_fails v children (List.forall_mem_cons.2 ⟨hx, hm⟩)).2 ⟨p, hp, hb, hk⟩
        · rintro (⟨e, he⟩ | ⟨⟨l', hl'⟩, he⟩)
          · cases he
          · cases hl'
            obtain ⟨p, hp, h⟩ := (Syn.foldAll_fails v children
              (List.forall_mem_cons.2 ⟨hmark.2 rfl, hm⟩)).1 he
            exact ⟨p, List.mem_cons_of_mem _ hp, h⟩
    unfold Syn.fold
    cases kind
    case item | stmt | expr | fieldValue | arm | variant =>
      rw [gated (by simp) (by simp) (by simp)]
      dsimp only
      cases ha : isActive v true attrs with
      | error e => simp [bind, Except.bind, isError]
      | ok p =>
        obtain ⟨found, l⟩ := p
        simp only [bind, Except.bind]
        cases found with
        | false => simp [isError]
        | true => cases hc : Syn.foldAll v children <;> simp [isError]
    case field =>
      unfold Syn.nodes
      rw [if_neg (by simp), if_pos rfl]
      dsimp only
      cases ha : isActive v true attrs with
      | error e =>
        refine ⟨fun _ => ⟨_, List.mem_cons_self, ⟨by simp, isActive_error ha⟩, hm⟩, fun _ => trivial⟩
      | ok p =>
        obtain ⟨found, l⟩ := p
        obtain ⟨-, -, h3⟩ := isActive_ok ha
        refine ⟨fun h => h.elim, ?_⟩
        rintro ⟨p, hp, hb, -⟩
        rcases List.mem_cons.1 hp with rfl | hp
        · obtain ⟨-, a, haa, hab⟩ := hb
          exact absurd hab (h3 a haa)
        · cases hp
    case other =>
      have hmk : Syn.Marked v (.node .other attrs tokens children) := .inl rfl
      have ih := Syn.foldAll_fails v children (around := .node .other attrs tokens children :: around)
        (List.forall_mem_cons.2 ⟨hmk, hm⟩)
      unfold Syn.nodes
      rw [if_neg (by simp), if_neg (by simp)]
      dsimp only
      have hs : isError (do
          let children ← Syn.foldAll v children
          Except.ok (some (Syn.node SynKind.other attrs tokens children))) ↔
          isError (Syn.foldAll v children) := by
        cases Syn.foldAll v children <;> simp [isError, bind, Except.bind]
      rw [hs, ih]
      constructor
      · rintro ⟨p, hp, h⟩
        exact ⟨p, List.mem_cons_of_mem _ hp, h⟩
      · rintro ⟨p, hp, h⟩
        rcases List.mem_cons.1 hp with rfl | hp
        · exact absurd rfl h.1.1
        · exact ⟨p, hp, h⟩
    case gone =>
      unfold Syn.nodes
      rw [if_pos rfl]
      refine ⟨fun h => h.elim, ?_⟩
      rintro ⟨p, hp, -⟩
      cases hp
termination_by structural x => x

theorem Syn.foldAll_fails (v : MacroVersion) : ∀ (l : List Syn) {around : List Syn},
    (∀ n ∈ around, n.Marked v) → (isError (Syn.foldAll v l) ↔ Fails v (Syn.nodesAll around l))
  | [], around, _ => by
    refine ⟨fun h => h.elim, ?_⟩
    rintro ⟨p, hp, -⟩
    cases hp
  | x :: l, around, hm => by
    have h1 := Syn.fold_fails v x hm
    have h2 := Syn.foldAll_fails v l hm
    rw [Syn.nodesAll, Fails_append, ← h1, ← h2]
    conv => lhs; unfold Syn.foldAll
    cases Syn.fold v x with
    | error e => simp [isError, bind, Except.bind]
    | ok y => cases Syn.foldAll v l <;> simp [isError, bind, Except.bind]
termination_by structural x => x
end

end Cdx
