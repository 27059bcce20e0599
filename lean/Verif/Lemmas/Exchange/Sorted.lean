import Verif.Lemmas.Exchange.Basic

set_option linter.unusedSectionVars false
set_option linter.unusedSimpArgs false
set_option linter.unusedVariables false

/-!
# The order of child elements: putting them into the order of the format
-/

namespace Cdx.Exchange

open Cdx.Spec

variable {v : SpecVersion}

/-! ## Sequences -/

/-- The names of a part of a sequence. -/
def namesOf (p : Particle) : List String := p.items.map (·.1)

/-- The place of the part that a name belongs to. -/
def rank : List Particle → String → Nat
  | [], _ => 0
  | p :: l, n => if n ∈ namesOf p then 0 else rank l n + 1

/-- The parts of a sequence have different names. -/
def Disjoint : List Particle → Prop
  | [] => True
  | p :: l => (∀ q ∈ l, ∀ n ∈ namesOf q, n ∉ namesOf p) ∧ Disjoint l

theorem sorted_split (f : String → Nat) : ∀ {l : List String}, l.Pairwise (fun a b => f a ≤ f b) →
    l = (l.filter fun n => f n = 0) ++ l.filter fun n => f n ≠ 0
  | [], _ => rfl
  | a :: l, h => by
    cases h with
    | cons ha hl =>
      have ih := sorted_split f hl
      by_cases h0 : f a = 0
      · simp only [List.filter_cons, h0, decide_true, if_true, ne_eq, not_true_eq_false, decide_false,
          Bool.false_eq_true, if_false, List.cons_append]
        rw [← ih]
      · have : l.filter (fun n => f n = 0) = [] := by
          rw [List.filter_eq_nil_iff]
          intro b hb
          have := ha b hb
          simp only [decide_eq_true_eq]
          omega
        rw [this, List.nil_append] at ih
        simp only [List.filter_cons, h0, decide_false, Bool.false_eq_true, if_false, ne_eq, not_false_eq_true,
          decide_true, if_true, this, List.nil_append]
        congr 1

theorem rank_zero {p : Particle} {l n} : rank (p :: l) n = 0 ↔ n ∈ namesOf p := by
  simp only [rank]
  split <;> simp_all

theorem follows_sorted : ∀ {l : List Particle} {names names' : List String}, Disjoint l → Follows l names' →
    names.Perm names' → names.Pairwise (fun a b => rank l a ≤ rank l b) → Follows l names
  | [], names, names', _, hf, hp, _ => by
    rw [Follows] at hf ⊢
    subst hf
    exact hp.eq_nil
  | p :: l, names, names', hd, hf, hp, hs => by
    rw [Follows] at hf ⊢
    obtain ⟨piece, rest, rfl, h1, h2, h3, h4⟩ := hf
    have hrest : ∀ n ∈ rest, n ∉ namesOf p := by
      intro n hn
      obtain ⟨q, hq, e⟩ := follows_mem h4 n hn
      exact hd.1 q hq n e
    have e := sorted_split (rank (p :: l)) hs
    have g1 : ∀ n ∈ piece, n ∈ namesOf p := h1
    have f1 : (piece ++ rest).filter (fun n => rank (p :: l) n = 0) = piece := by
      have a : piece.filter (fun n => rank (p :: l) n = 0) = piece := List.filter_eq_self.mpr fun n hn =>
        decide_eq_true (rank_zero.mpr (g1 n hn))
      have b : rest.filter (fun n => rank (p :: l) n = 0) = [] := List.filter_eq_nil_iff.mpr fun n hn => by
        simp only [decide_eq_true_eq]
        exact fun h => hrest n hn (rank_zero.mp h)
      rw [List.filter_append, a, b, List.append_nil]
    have f2 : (piece ++ rest).filter (fun n => rank (p :: l) n ≠ 0) = rest := by
      have a : piece.filter (fun n => rank (p :: l) n ≠ 0) = [] := List.filter_eq_nil_iff.mpr fun n hn => by
        simp only [decide_eq_true_eq]
        exact fun h => h (rank_zero.mpr (g1 n hn))
      have b : rest.filter (fun n => rank (p :: l) n ≠ 0) = rest := List.filter_eq_self.mpr fun n hn =>
        decide_eq_true fun h => hrest n hn (rank_zero.mp h)
      rw [List.filter_append, a, b, List.nil_append]
    have p1 := hp.filter fun n => rank (p :: l) n = 0
    have p2 := hp.filter fun n => rank (p :: l) n ≠ 0
    rw [f1] at p1
    rw [f2] at p2
    refine ⟨_, _, e, ?_, by rw [p1.length_eq]; exact h2, fun m hm => by rw [p1.length_eq]; exact h3 m hm, ?_⟩
    · intro n hn
      exact h1 n (p1.mem_iff.mp hn)
    · refine follows_sorted hd.2 h4 p2 ?_
      refine List.Pairwise.imp_of_mem ?_ (hs.filter _)
      intro a b ha hb h
      have ha := hrest a (p2.mem_iff.mp ha)
      have hb := hrest b (p2.mem_iff.mp hb)
      simp only [rank, ha, hb, if_false] at h
      omega

/-! ## Many exchanges -/

/-- Any number of exchanges. -/
inductive Many (v : SpecVersion) (t : ElementType) : List XNode → List XNode → Prop
  | refl {c} : Many v t c c
  | step {a b c} : Many v t a b → Exchanged v t b c → Many v t a c

theorem Many.trans {t a b c} (h : Many v t a b) (h' : Many v t b c) : Many v t a c := by
  induction h' with
  | refl => exact h
  | step _ he ih => exact ih.step he

theorem exchanged_cons {t a b} (x : XNode) (h : Exchanged v t a b) : Exchanged v t (x :: a) (x :: b) := by
  cases h with
  | @here _ before after n n' attrs attrs' ns ns' c c' ha => exact .here (before := x :: before) ha
  | @inside _ before after n attrs ns c c' t' ht he => exact .inside (before := x :: before) ht he

theorem Many.cons {t a b} (x : XNode) (h : Many v t a b) : Many v t (x :: a) (x :: b) := by
  induction h with
  | refl => exact .refl
  | step _ he ih => exact ih.step (exchanged_cons x he)

theorem Many.inside {t t' a b n attrs ns l} (ht : t.child v n.localName = some t') (h : Many v t' a b) :
    Many v t (.elem n attrs ns a :: l) (.elem n attrs ns b :: l) := by
  induction h with
  | refl => exact .refl
  | step _ he ih => exact ih.step (.inside (before := []) ht he)

theorem Many.okAt {t attrs a b} (h : Many v t a b) (ha : OkAt v t attrs a) : OkAt v t attrs b := by
  induction h with
  | refl => exact ha
  | step _ he ih => exact okAt_exchanged ih he

theorem Many.same {t n attrs ns a b} (h : Many v t a b) :
    SameButOrder v t (.elem n attrs ns a) (.elem n attrs ns b) := by
  induction h with
  | refl => exact .refl
  | step _ he ih => exact ih.step he

/-! ## Sorting -/

/-- The place of an element. -/
def rankOf (l : List Particle) (x : XNode) : Nat := rank l ((nameOf x).getD "")

theorem insert_sorted {t l} (hap : ∀ a b, rank l a ≠ rank l b → a ∈ l.flatMap namesOf → b ∈ l.flatMap namesOf →
      Apart v t a b) (n attrs ns k) (hn : n.localName ∈ l.flatMap namesOf) :
    ∀ (c : List XNode), (∀ x ∈ c, ∃ m ∈ l.flatMap namesOf, nameOf x = some m) →
      c.Pairwise (fun a b => rankOf l a ≤ rankOf l b) →
      ∃ c', Many v t (.elem n attrs ns k :: c) c' ∧ c'.Perm (.elem n attrs ns k :: c) ∧
        c'.Pairwise (fun a b => rankOf l a ≤ rankOf l b)
  | [], _, _ => ⟨_, .refl, .refl _, by simp⟩
  | y :: c, hc, hs => by
    cases hs with
    | cons hy hs =>
      by_cases hle : rankOf l (.elem n attrs ns k) ≤ rankOf l y
      · refine ⟨_, .refl, .refl _, .cons ?_ (.cons hy hs)⟩
        intro z hz
        rcases List.mem_cons.mp hz with rfl | hz
        · exact hle
        · exact Nat.le_trans hle (hy z hz)
      · obtain ⟨c', h1, h2, h3⟩ := insert_sorted hap n attrs ns k hn c (fun x hx => hc x (.tail _ hx)) hs
        obtain ⟨m, hm, em⟩ := hc y (.head _)
        cases y with
        | elem n' attrs' ns' k' =>
          simp only [nameOf, Option.some.injEq] at em
          subst em
          have ha : Apart v t n.localName n'.localName := hap _ _ (by
            simp only [rankOf, nameOf, Option.getD_some] at hle
            omega) hn hm
          refine ⟨.elem n' attrs' ns' k' :: c', ?_, ?_, .cons ?_ h3⟩
          · exact Many.trans (Many.step .refl (.here (before := []) ha)) (h1.cons _)
          · exact (List.Perm.cons _ h2).trans (List.Perm.swap ..)
          · intro z hz
            rcases List.mem_cons.mp (h2.mem_iff.mp hz) with rfl | hz
            · omega
            · exact hy z hz
        | chars s => simp [nameOf] at em
        | cdata s => simp [nameOf] at em
        | other => simp [nameOf] at em

theorem sort_content {t l} (hap : ∀ a b, rank l a ≠ rank l b → a ∈ l.flatMap namesOf → b ∈ l.flatMap namesOf →
      Apart v t a b) : ∀ (c : List XNode), (∀ x ∈ c, ∃ m ∈ l.flatMap namesOf, nameOf x = some m) →
      ∃ c', Many v t c c' ∧ c'.Perm c ∧ c'.Pairwise (fun a b => rankOf l a ≤ rankOf l b)
  | [], _ => ⟨[], .refl, .refl _, .nil⟩
  | y :: c, hc => by
    obtain ⟨c', h1, h2, h3⟩ := sort_content hap c fun x hx => hc x (.tail _ hx)
    obtain ⟨m, hm, em⟩ := hc y (.head _)
    cases y with
    | elem n attrs ns k =>
      simp only [nameOf, Option.some.injEq] at em
      subst em
      obtain ⟨c'', g1, g2, g3⟩ := insert_sorted hap n attrs ns k hm c'
        (fun x hx => hc x (.tail _ (h2.mem_iff.mp hx))) h3
      exact ⟨c'', (h1.cons _).trans g1, g2.trans (List.Perm.cons _ h2), g3⟩
    | chars s => simp [nameOf] at em
    | cdata s => simp [nameOf] at em
    | other => simp [nameOf] at em

/-! ## The table -/

/-- Names at different places of a sequence are apart. -/
def tidy (v : SpecVersion) (t : ElementType) : Bool :=
  (t.choices v).all fun l => (l.flatMap namesOf).all fun a => (l.flatMap namesOf).all fun b =>
    rank l a == rank l b || (t.choices v).flatten.all fun p => !((namesOf p).contains a && (namesOf p).contains b)

/-- The parts of all sequences have different names. -/
def disjoint : List Particle → Bool
  | [] => true
  | p :: l => (l.all fun q => (namesOf q).all fun n => !(namesOf p).contains n) && disjoint l

theorem disjoint_sound : ∀ {l : List Particle}, disjoint l = true → Disjoint l
  | [], _ => trivial
  | p :: l, h => by
    simp only [disjoint, Bool.and_eq_true] at h
    refine ⟨fun q hq n hn => ?_, disjoint_sound h.2⟩
    have := List.all_eq_true.mp (List.all_eq_true.mp h.1 q hq) n hn
    simpa using this

theorem table_tidy (v : SpecVersion) (t : ElementType) :
    (tidy v t && (t.choices v).all disjoint) = true := by
  cases v <;> cases t <;> decide +kernel

theorem table_apart {t : ElementType} {l} (hl : l ∈ t.choices v) : ∀ a b, rank l a ≠ rank l b → a ∈ l.flatMap namesOf →
    b ∈ l.flatMap namesOf → Apart v t a b := by
  intro a b hne ha hb p hp hab
  have h := table_tidy v t
  simp only [Bool.and_eq_true] at h
  have := List.all_eq_true.mp (List.all_eq_true.mp (List.all_eq_true.mp h.1 l hl) a ha) b hb
  simp only [Bool.or_eq_true, beq_iff_eq] at this
  rcases this with h | h
  · exact hne h
  · have := List.all_eq_true.mp h p hp
    simp only [Bool.not_eq_true', ← Bool.not_eq_true, Bool.and_eq_true, List.contains_iff_mem] at this
    exact this hab

theorem table_disjoint {t : ElementType} {l} (hl : l ∈ t.choices v) : Disjoint l := by
  have h := table_tidy v t
  simp only [Bool.and_eq_true] at h
  exact disjoint_sound (List.all_eq_true.mp h.2 l hl)

/-! ## Whole elements -/

theorem throughoutAll_iff {P t} : ∀ {c : List XNode}, ThroughoutAll P v t c ↔
    ∀ x ∈ c, ∀ n ∈ nameOf x, ∀ t' ∈ t.child v n, Throughout P v t' x
  | [] => by simp [ThroughoutAll]
  | x :: c => by simp only [ThroughoutAll, throughoutAll_iff (c := c), List.forall_mem_cons]

/-- An element whose child elements are in order inside can be put in order. -/
theorem sort_here {t attrs c} (hok : OkAt v t attrs c) (hin : ThroughoutAll (LocallyConforms true v) v t c) :
    ∃ c', Many v t c c' ∧ LocallyConforms true v t attrs c' ∧ ThroughoutAll (LocallyConforms true v) v t c' := by
  cases ht : t.rule.content with
  | text type =>
    refine ⟨c, .refl, ⟨hok.1.1, ?_⟩, hin⟩
    have := hok.1.2
    unfold ContentConforms at this ⊢
    rw [ht] at this ⊢
    exact this
  | children ls =>
    obtain ⟨names, e, l, hl, names', hp, hf⟩ := children_names hok ht
    have hmem : ∀ x ∈ c, ∃ m ∈ l.flatMap namesOf, nameOf x = some m := by
      intro x hx
      obtain ⟨n, a, ns, k, rfl, hn⟩ := mem_names e x hx
      obtain ⟨p, hp', hn'⟩ := follows_mem hf _ (hp.mem_iff.mpr hn)
      exact ⟨_, List.mem_flatMap.mpr ⟨p, hp', hn'⟩, rfl⟩
    obtain ⟨c', h1, h2, h3⟩ := sort_content (table_apart hl) c hmem
    have hok' := h1.okAt hok
    obtain ⟨names'', e'', -⟩ := children_names hok' ht
    refine ⟨c', h1, ⟨hok.1.1, ?_⟩, throughoutAll_iff.mpr fun x hx => throughoutAll_iff.mp hin x (h2.mem_iff.mp hx)⟩
    rw [filter_content hok'.2.1]
    unfold ContentConforms
    rw [ht]
    refine ⟨names'', e'', l, hl, ?_⟩
    simp only [if_true]
    have hperm : names''.Perm names := by
      have := h2.map nameOf
      rw [e, e''] at this
      have := this.filterMap (f := id)
      simpa using this
    refine follows_sorted (table_disjoint hl) hf (hperm.trans hp.symm) ?_
    have e3 : names'' = c'.map fun x => (nameOf x).getD "" := by
      have : names'' = (names''.map some).map fun o => o.getD "" := by
        rw [List.map_map]
        exact (List.map_id _).symm
      rw [this, ← e'', List.map_map]
      rfl
    rw [e3]
    exact List.pairwise_map.mpr h3

mutual
/-- The number of nodes. -/
def size : XNode → Nat
  | .elem _ _ _ c => 1 + sizeAll c
  | _ => 1
/-- The number of nodes in some content. -/
def sizeAll : List XNode → Nat
  | [] => 0
  | x :: l => size x + sizeAll l
end

theorem size_pos (x : XNode) : 0 < size x := by
  cases x <;> simp [size]; omega

theorem sort_inside : ∀ (k : Nat) (c : List XNode), sizeAll c ≤ k → ∀ (t : ElementType), ThroughoutAll (OkAt v) v t c →
    ∃ c', Many v t c c' ∧ ThroughoutAll (LocallyConforms true v) v t c' := by
  intro k
  induction k with
  | zero =>
    intro c hc t h
    cases c with
    | nil => exact ⟨[], .refl, by rw [ThroughoutAll]; trivial⟩
    | cons x c =>
      rw [sizeAll] at hc
      have := size_pos x
      omega
  | succ k ih =>
    intro c hc t h
    cases c with
    | nil => exact ⟨[], .refl, by rw [ThroughoutAll]; trivial⟩
    | cons x c =>
      rw [sizeAll] at hc
      have hpos := size_pos x
      rw [ThroughoutAll] at h
      obtain ⟨c', h1, h2⟩ := ih c (by omega) t h.2
      have leaf : nameOf x = none → ∃ c'', Many v t (x :: c) c'' ∧ ThroughoutAll (LocallyConforms true v) v t c'' := by
        intro hx
        refine ⟨_, h1.cons _, ?_⟩
        rw [ThroughoutAll]
        refine ⟨fun m hm => ?_, h2⟩
        rw [hx] at hm
        cases hm
      cases x with
      | elem n attrs ns a =>
        rw [size] at hc
        cases ht : t.child v n.localName with
        | none =>
          refine ⟨_, h1.cons _, ?_⟩
          rw [ThroughoutAll]
          refine ⟨fun m hm t' ht' => ?_, h2⟩
          have e : n.localName = m := Option.some.inj hm
          rw [← e, ht] at ht'
          cases ht'
        | some t' =>
          have hx := h.1 _ rfl _ ht
          rw [Throughout] at hx
          obtain ⟨a1, q1, q2⟩ := ih a (by omega) t' hx.2
          obtain ⟨a2, q3, q4, q5⟩ := sort_here (q1.okAt hx.1) q2
          refine ⟨_, (h1.cons _).trans ((q1.trans q3).inside ht), ?_⟩
          rw [ThroughoutAll]
          refine ⟨fun m hm t'' ht'' => ?_, h2⟩
          have e : n.localName = m := Option.some.inj hm
          rw [← e, ht] at ht''
          cases ht''
          rw [Throughout]
          exact ⟨q4, q5⟩
      | chars s => exact leaf rfl
      | cdata s => exact leaf rfl
      | other => exact leaf rfl

theorem sort_elem {t n attrs ns c} (h : Throughout (OkAt v) v t (.elem n attrs ns c)) :
    ∃ c', Many v t c c' ∧ Throughout (LocallyConforms true v) v t (.elem n attrs ns c') := by
  rw [Throughout] at h
  obtain ⟨c1, h1, h2⟩ := sort_inside _ c (Nat.le_refl _) t h.2
  obtain ⟨c2, g1, g2, g3⟩ := sort_here (h1.okAt h.1) h2
  refine ⟨c2, h1.trans g1, ?_⟩
  rw [Throughout]
  exact ⟨g2, g3⟩

end Cdx.Exchange
