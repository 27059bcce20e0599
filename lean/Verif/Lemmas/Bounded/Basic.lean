import Verif.Spec.Bounded
import Verif.Lemmas.Xml

set_option linter.unusedSectionVars false
set_option linter.unusedSimpArgs false

/-!
# Readers that do not go beyond their element
-/

namespace Cdx

variable {σ α β ρ : Type}

/-! ## Readers that consume exactly their element, whatever is in it -/

/-- `LocalAt` without a condition on the content. -/
def PlainAt (tag : String) (r : XElem α) : Prop :=
  ∀ name attrs content, name.localName = tag → ∃ o : Except XErr α, ∀ rest,
    r name attrs (XNode.eventsAll content ++ .stop name :: rest) = o.map fun x => (x, rest)

/-- `PlainAt` for an arm of a reader loop. -/
def PlainArm (tag : String) (a : Arm σ) : Prop :=
  ∀ name attrs st content, name.localName = tag → ∃ o : Except XErr σ, ∀ rest,
    a name attrs st (XNode.eventsAll content ++ .stop name :: rest) = o.map fun x => (x, rest)

theorem arm_plain {tag : String} {r : XElem α} (h : PlainAt tag r) (set : α → σ → σ) :
    PlainArm tag (arm r set) := by
  intro name attrs st content h1
  obtain ⟨o, ho⟩ := h name attrs content h1
  refine ⟨o.map fun x => set x st, fun rest => ?_⟩
  simp only [arm]
  rw [ho]
  cases o <;> rfl

theorem plainNil : ∀ p ∈ ([] : List (String × Arm σ)), PlainArm p.1 p.2 := fun _ h => nomatch h

theorem plainCons {t : String} {a : Arm σ} {l : List (String × Arm σ)} (h : PlainArm t a)
    (hl : ∀ q ∈ l, PlainArm q.1 q.2) : ∀ q ∈ (t, a) :: l, PlainArm q.1 q.2 := by
  intro q hq
  cases hq with
  | head => exact h
  | tail _ hq => exact hl q hq

theorem readSimple_plain {tag} : PlainAt tag readSimple := by
  intro el attrs content h1
  cases content with
  | nil => exact ⟨.ok "", fun rest => rfl⟩
  | cons x l =>
    obtain ⟨o, ho⟩ := readClose_local el l
    cases x with
    | chars s =>
      refine ⟨o.map fun _ => s, fun rest => ?_⟩
      simp only [XNode.eventsAll, XNode.events, List.cons_append, List.nil_append, readSimple]
      rw [ho]
      cases o <;> rfl
    | cdata s =>
      refine ⟨o.map fun _ => s, fun rest => ?_⟩
      simp only [XNode.eventsAll, XNode.events, List.cons_append, List.nil_append, readSimple]
      rw [ho]
      cases o <;> rfl
    | elem n a ns c => exact ⟨.error (.unexpected el.localName), fun rest => rfl⟩
    | other => exact ⟨.error (.unexpected el.localName), fun rest => rfl⟩

theorem readOptional_plain {tag} : PlainAt tag readOptional := by
  intro el attrs content h1
  cases content with
  | nil => exact ⟨.ok none, fun rest => by simp [readOptional, XNode.eventsAll, Except.map]⟩
  | cons x l =>
    obtain ⟨o, ho⟩ := readClose_local el l
    cases x with
    | chars s =>
      refine ⟨o.map fun _ => some s, fun rest => ?_⟩
      simp only [XNode.eventsAll, XNode.events, List.cons_append, List.nil_append, readOptional]
      rw [ho]
      cases o <;> rfl
    | cdata s =>
      refine ⟨o.map fun _ => some s, fun rest => ?_⟩
      simp only [XNode.eventsAll, XNode.events, List.cons_append, List.nil_append, readOptional]
      rw [ho]
      cases o <;> rfl
    | elem n a ns c => exact ⟨.error (.unexpected el.localName), fun rest => rfl⟩
    | other => exact ⟨.error (.unexpected el.localName), fun rest => rfl⟩

theorem readInner_plain {tag} : PlainAt tag readInner := by
  intro el attrs content h1
  rcases readText_cases el content with ⟨e, he⟩ | ⟨s, l, hs⟩
  · exact ⟨.error e, fun rest => by simp only [readInner]; rw [he]; rfl⟩
  · obtain ⟨o, ho⟩ := readClose_local el l
    exact ⟨o.map fun _ => s, fun rest => by
        simp only [readInner]; rw [hs]; simp only [bind, Except.bind]; rw [ho]; cases o <;> rfl⟩

theorem readU32_plain {tag} : PlainAt tag readU32 := by
  intro el attrs content h1
  rcases readText_cases el content with ⟨e, he⟩ | ⟨s, l, hs⟩
  · exact ⟨.error e, fun rest => by simp only [readU32]; rw [he]; rfl⟩
  · obtain ⟨o, ho⟩ := readClose_local el l
    cases hp : parseU32 (trim s) with
    | none => exact ⟨.error (.invalid s "u32" el.localName), fun rest => by
        simp only [readU32]; rw [hs]; simp only [bind, Except.bind, hp]; rfl⟩
    | some n => exact ⟨o.map fun _ => n, fun rest => by
        simp only [readU32]; rw [hs]; simp only [bind, Except.bind, hp]; rw [ho]; cases o <;> rfl⟩

theorem readF32_plain [F32Format] {tag} : PlainAt tag readF32 := by
  intro el attrs content h1
  rcases readText_cases el content with ⟨e, he⟩ | ⟨s, l, hs⟩
  · exact ⟨.error e, fun rest => by simp only [readF32]; rw [he]; rfl⟩
  · obtain ⟨o, ho⟩ := readClose_local el l
    cases hp : F32Format.parse (trim s) with
    | none => exact ⟨.error (.invalid s "f32" el.localName), fun rest => by
        simp only [readF32]; rw [hs]; simp only [bind, Except.bind, hp]; rfl⟩
    | some n => exact ⟨o.map fun _ => n, fun rest => by
        simp only [readF32]; rw [hs]; simp only [bind, Except.bind, hp]; rw [ho]; cases o <;> rfl⟩

theorem readRef_plain {tag} : PlainAt tag readRef := by
  intro el attrs content _
  obtain ⟨o, ho⟩ := readClose_local el content
  cases hr : reqAttr el attrs "ref" with
  | error e => exact ⟨.error e, fun rest => by simp [readRef, hr, bind, Except.bind, Except.map]⟩
  | ok r =>
    refine ⟨o.map fun _ => r, fun rest => ?_⟩
    simp only [readRef, hr, bind, Except.bind]
    rw [ho]
    cases o <;> rfl

theorem bind_plain {tag : String} {r : XElem α} (h : PlainAt tag r) (f : XName → List (String × String) → α → Except XErr β) :
    PlainAt tag (fun el attrs evs => do
      let (x, l) ← r el attrs evs
      let y ← f el attrs x
      .ok (y, l)) := by
  intro el attrs content h1
  obtain ⟨o, ho⟩ := h el attrs content h1
  refine ⟨o.bind (f el attrs), fun rest => ?_⟩
  simp only
  rw [ho]
  cases o with
  | error e => rfl
  | ok x =>
    simp only [Except.map, bind, Except.bind]

theorem map_plain {tag : String} {r : XElem α} (h : PlainAt tag r) (f : α → β) : PlainAt tag (r.map f) :=
  bind_plain h fun _ _ x => .ok (f x)

theorem plain_eventsAll {el : XName} {arms : List (String × Arm σ)}
    (harms : ∀ p ∈ arms, PlainArm p.1 p.2) : ∀ (content : List XNode) (st : σ),
    Passes .fail el arms (XNode.eventsAll content) st
  | [], st => .inr ⟨st, fun _ => rfl⟩
  | x :: l, st => by
    rw [XNode.eventsAll]
    refine Passes.append ?_ (fun st' => plain_eventsAll harms l st')
    cases x with
    | chars s => exact passes_other (by simp) (by simp)
    | cdata s => exact passes_other (by simp) (by simp)
    | other => exact passes_other (by simp) (by simp)
    | elem n attrs ns c =>
      have hev : ∀ rest, XNode.events (.elem n attrs ns c) ++ rest =
          .start n attrs ns :: (XNode.eventsAll c ++ .stop n :: rest) := by
        intro rest
        simp [XNode.events]
      cases harm : arms.lookup n.localName with
      | some act =>
        have hact : PlainArm n.localName act := harms _ (mem_of_lookup harm)
        obtain ⟨o, ho⟩ := hact n attrs st c rfl
        cases o with
        | error e => exact .inl ⟨e, fun rest => by
            rw [hev, readFields_start, harm]; simp only; rw [ho]; rfl⟩
        | ok st' =>
          refine .inr ⟨st', fun rest => ?_⟩
          rw [hev, readFields_start, harm]
          simp only
          rw [ho]
          simp only [Except.map]
          rw [if_pos (by simp; omega)]
      | none => exact .inl ⟨.unexpected el.localName, fun rest => by
          rw [hev, readFields_start, harm]⟩

theorem readFields_plain {el : XName} {arms : List (String × Arm σ)}
    (harms : ∀ p ∈ arms, PlainArm p.1 p.2) (content : List XNode) (st : σ) :
    ∃ o : Except XErr σ, ∀ rest,
      readFields .fail el arms st (XNode.eventsAll content ++ .stop el :: rest) =
        o.map fun x => (x, rest) := by
  rcases plain_eventsAll (el := el) harms content st with ⟨e, he⟩ | ⟨st', hst⟩
  · exact ⟨.error e, fun rest => he _⟩
  · exact ⟨.ok st', fun rest => by rw [hst, readFields_stop]; rfl⟩

theorem readStruct_plain {tag : String}
    {pre : XName → List (String × String) → Except XErr ρ}
    {init : σ} {arms : List (String × Arm σ)} {fin : XName → ρ → σ → Except XErr α}
    (harms : ∀ p ∈ arms, PlainArm p.1 p.2) : PlainAt tag (readStruct .fail pre init arms fin) := by
  intro el attrs content h1
  subst h1
  simp only [readStruct]
  cases pre el attrs with
  | error e => exact ⟨.error e, fun _ => rfl⟩
  | ok p =>
    obtain ⟨o, ho⟩ := readFields_plain (el := el) harms content init
    refine ⟨o.bind (fin el p), fun rest => ?_⟩
    simp only [bind, Except.bind]
    rw [ho]
    cases o with
    | error e => rfl
    | ok x =>
      simp only [Except.map, Except.bind]

theorem readList_plain {tag inner : String} {r : XElem α} (h : PlainAt inner r) :
    PlainAt tag (readList inner r) := by
  intro el attrs content h1
  subst h1
  exact readFields_plain (plainCons (arm_plain h fun x (l : List α) => l ++ [x]) plainNil) content []

/-! ## Places in the events of an element -/

mutual
theorem start_in_events {n : XName} {attrs ns} {q : List XEvent} : ∀ (x : XNode) (p t : List XEvent),
    x.Bare → p ++ .start n attrs ns :: q = x.events ++ t →
    (∃ c u, BareContent n.localName c ∧ XNode.BareAll c ∧
      q = XNode.eventsAll c ++ .stop n :: (u ++ t)) ∨
    ∃ p', p' ++ .start n attrs ns :: q = t
  | .chars s, p, t, _, h => by
    cases p with
    | nil => cases h
    | cons e p => exact .inr ⟨p, (List.cons.inj h).2⟩
  | .cdata s, p, t, _, h => by
    cases p with
    | nil => cases h
    | cons e p => exact .inr ⟨p, (List.cons.inj h).2⟩
  | .other, p, t, _, h => by
    cases p with
    | nil => cases h
    | cons e p => exact .inr ⟨p, (List.cons.inj h).2⟩
  | .elem m as ms c, p, t, hb, h => by
    simp only [XNode.Bare] at hb
    simp only [XNode.events, List.cons_append, List.append_assoc, List.nil_append] at h
    cases p with
    | nil =>
      simp only [List.nil_append, List.cons.injEq, XEvent.start.injEq] at h
      obtain ⟨⟨rfl, rfl, rfl⟩, h⟩ := h
      exact .inl ⟨c, [], hb.1, hb.2, h⟩
    | cons e p =>
      rcases start_in_eventsAll c p (.stop m :: t) hb.2 (List.cons.inj h).2 with
        ⟨c', u, h1, h2, h3⟩ | ⟨p', h'⟩
      · exact .inl ⟨c', u ++ [.stop m], h1, h2, by simpa using h3⟩
      · cases p' with
        | nil => cases h'
        | cons e p' => exact .inr ⟨p', (List.cons.inj h').2⟩

theorem start_in_eventsAll {n : XName} {attrs ns} {q : List XEvent} :
    ∀ (l : List XNode) (p t : List XEvent),
    XNode.BareAll l → p ++ .start n attrs ns :: q = XNode.eventsAll l ++ t →
    (∃ c u, BareContent n.localName c ∧ XNode.BareAll c ∧
      q = XNode.eventsAll c ++ .stop n :: (u ++ t)) ∨
    ∃ p', p' ++ .start n attrs ns :: q = t
  | [], p, t, _, h => .inr ⟨p, h⟩
  | x :: l, p, t, hb, h => by
    simp only [XNode.BareAll] at hb
    rw [XNode.eventsAll, List.append_assoc] at h
    rcases start_in_events x p _ hb.1 h with ⟨c, u, h1, h2, h3⟩ | ⟨p', h'⟩
    · exact .inl ⟨c, u ++ XNode.eventsAll l, h1, h2, by simpa using h3⟩
    · exact start_in_eventsAll l p' t hb.2 h'
end

/-- `q` is a rest of the content and the end tag of an element. -/
def RestOf (content : List XNode) (el : XName) (q : List XEvent) : Prop :=
  q ≠ [] ∧ ∃ p, p ++ q = XNode.eventsAll content ++ [.stop el]

theorem RestOf.last {content el e q} (h : RestOf content el (e :: q)) : q = [] → e = .stop el := by
  rintro rfl
  obtain ⟨_, p, h⟩ := h
  have := congrArg List.getLast? h
  simpa using this

theorem RestOf.tail {content el e q} (h : RestOf content el (e :: q)) (he : e ≠ .stop el) :
    RestOf content el q :=
  ⟨fun hq => he (h.last hq), h.2.elim fun p hp => ⟨p ++ [e], by simpa using hp⟩⟩

theorem RestOf.tail' {content el e q} (h : RestOf content el (e :: q)) (hq : q ≠ []) :
    RestOf content el q :=
  ⟨hq, h.2.elim fun p hp => ⟨p ++ [e], by simpa using hp⟩⟩

theorem RestOf.drop {content el a q} (h : RestOf content el (a ++ q)) (hq : q ≠ []) :
    RestOf content el q :=
  ⟨hq, h.2.elim fun p hp => ⟨p ++ a, by simpa using hp⟩⟩

theorem RestOf.elem {content el n attrs ns q} (h : RestOf content el (.start n attrs ns :: q))
    (hb : XNode.BareAll content) : ∃ c q', BareContent n.localName c ∧ XNode.BareAll c ∧
      q = XNode.eventsAll c ++ .stop n :: q' ∧ RestOf content el q' := by
  obtain ⟨p, hp⟩ := h.2
  rcases start_in_eventsAll content p _ hb hp with ⟨c, u, h1, h2, h3⟩ | ⟨p', h'⟩
  · refine ⟨c, _, h1, h2, h3, ?_⟩
    subst h3
    exact RestOf.drop (a := .start n attrs ns :: (XNode.eventsAll c ++ [.stop n])) (by simpa using h) (by simp)
  · cases p' with
    | nil => cases h'
    | cons e p' =>
      have := (List.cons.inj h').2
      simp at this

/-! ## The reader loop -/

/-- `BoundedAt` for an arm of a reader loop. -/
def BoundedArm (tag : String) (a : Arm σ) : Prop :=
  ∀ name attrs st content rest x left, name.localName = tag → BareContent tag content →
    XNode.BareAll content →
    a name attrs st (XNode.eventsAll content ++ .stop name :: rest) = .ok (x, left) →
    ∃ used unread, used ≠ [] ∧ used ++ unread = XNode.eventsAll content ++ [.stop name] ∧
      left = unread ++ rest ∧ ∀ other, a name attrs st (used ++ other) = .ok (x, other)

theorem readLoop_bounded {mode : Unknown} {isEnd : XName → Bool} {el last : XName}
    {arms : List (String × Arm σ)} (harms : ∀ p ∈ arms, BoundedArm p.1 p.2) {content : List XNode}
    (hb : XNode.BareAll content) (hend : mode = .ignore → isEnd last = true) :
    ∀ (fuel : Nat) (st : σ) (q rest : List XEvent) (st' : σ) (left : List XEvent),
    RestOf content last q →
    readLoop mode isEnd el arms fuel st (q ++ rest) = .ok (st', left) →
    ∃ used unread, used ≠ [] ∧ q = used ++ unread ∧ left = unread ++ rest ∧
      ∀ other, ∀ n, (used ++ other).length < n →
        readLoop mode isEnd el arms n st (used ++ other) = .ok (st', other)
  | 0, _, _, _, _, _, _, h => by simp [readLoop] at h
  | fuel + 1, st, q, rest, st', left, hq, h => by
    cases q with
    | nil => exact absurd rfl hq.1
    | cons e q =>
      have next : ∀ (a : List XEvent) (st₁ : σ) (q' : List XEvent), q = a ++ q' → q' ≠ [] →
          readLoop mode isEnd el arms fuel st₁ (q' ++ rest) = .ok (st', left) →
          (∀ n l, readLoop mode isEnd el arms (n + 1) st (e :: (a ++ l)) =
            readLoop mode isEnd el arms n st₁ l) →
          ∃ used unread, used ≠ [] ∧ e :: q = used ++ unread ∧ left = unread ++ rest ∧
            ∀ other, ∀ n, (used ++ other).length < n →
              readLoop mode isEnd el arms n st (used ++ other) = .ok (st', other) := by
        rintro a st₁ q' rfl hne h' hk
        obtain ⟨used, unread, h1, h2, h3, h4⟩ := readLoop_bounded harms hb hend fuel st₁ q' rest st' left
          (RestOf.drop (a := e :: a) (by simpa using hq) hne) h'
        refine ⟨e :: (a ++ used), unread, nofun, by simp [h2], h3, fun other n hn => ?_⟩
        cases n with
        | zero => omega
        | succ n =>
          simp only [List.cons_append, List.append_assoc, List.length_cons] at hn ⊢
          rw [hk]
          exact h4 other n (by simp only [List.length_append] at hn ⊢; omega)
      cases e with
      | start n attrs ns =>
        obtain ⟨c, q', hc, hbc, rfl, hq'⟩ := hq.elem hb
        simp only [List.cons_append, List.append_assoc, readLoop] at h
        cases harm : arms.lookup n.localName with
        | some act =>
          rw [harm] at h
          simp only at h
          cases hact : act n attrs st (XNode.eventsAll c ++ .stop n :: (q' ++ rest)) with
          | error e => rw [hact] at h; cases h
          | ok r =>
            obtain ⟨st₁, l'⟩ := r
            rw [hact] at h
            simp only at h
            split at h
            · obtain ⟨used, unread, h1, h2, rfl, h4⟩ :=
                harms _ (mem_of_lookup harm) n attrs st c _ _ _ rfl hc hbc hact
              refine next used st₁ (unread ++ q') ?_ (by simp [hq'.1]) (by simpa using h) ?_
              · rw [← List.append_assoc, h2]
                simp
              · intro n l
                simp only [readLoop, harm]
                rw [show act _ attrs st (used ++ l) = _ from h4 l]
                simp
            · cases h
        | none =>
          rw [harm] at h
          simp only at h
          cases mode with
          | fail => cases h
          | ignore =>
            refine next [] st _ rfl (by simp) (by simpa using h) ?_
            intro n l
            simp [readLoop, harm]
          | skip =>
            simp only at h
            rw [skipElem_eventsAll] at h
            simp only [skipElem, if_true] at h
            split at h
            · refine next (XNode.eventsAll c ++ [.stop n]) st q' (by simp) hq'.1 h ?_
              intro m l
              simp only [readLoop, harm, List.append_assoc, List.cons_append, List.nil_append]
              rw [skipElem_eventsAll]
              simp only [skipElem, if_true]
              rw [if_pos (by simp; omega)]
            · cases h
      | stop n =>
        simp only [List.cons_append, readLoop] at h
        split at h
        · rename_i he
          cases h
          refine ⟨[.stop n], q, nofun, rfl, rfl, fun other m hm => ?_⟩
          cases m with
          | zero => omega
          | succ m => simp [readLoop, he]
        · rename_i he
          split at h
          · rename_i hm
            refine next [] st q rfl (fun hn => ?_) h ?_
            · have := hq.last hn
              cases this
              exact he (hend hm)
            · intro m l
              simp [readLoop, he, hm]
          · cases h
      | _ =>
        simp only [List.cons_append, readLoop] at h
        split at h
        · rename_i hm
          refine next [] st q rfl (fun hn => nomatch hq.last hn) h ?_
          intro m l
          simp [readLoop, hm]
        · cases h

theorem restOf_all {content : List XNode} {el : XName} :
    RestOf content el (XNode.eventsAll content ++ [.stop el]) := ⟨by simp, [], rfl⟩

theorem readFields_bounded {mode : Unknown} {el last : XName} {arms : List (String × Arm σ)}
    (harms : ∀ p ∈ arms, BoundedArm p.1 p.2) {content : List XNode} (hb : XNode.BareAll content)
    (hend : mode = .ignore → last = el) {st st' : σ} {rest left : List XEvent}
    (h : readFields mode el arms st (XNode.eventsAll content ++ .stop last :: rest) = .ok (st', left)) :
    ∃ used unread, used ≠ [] ∧ used ++ unread = XNode.eventsAll content ++ [.stop last] ∧
      left = unread ++ rest ∧ ∀ other, readFields mode el arms st (used ++ other) = .ok (st', other) := by
  obtain ⟨used, unread, h1, h2, h3, h4⟩ := readLoop_bounded (mode := mode) (el := el)
    (isEnd := fun n => n = el) harms hb
    (last := last) (fun h => by simp [hend h]) _ st _ rest st' left restOf_all
    (by rw [List.append_assoc]; exact h)
  exact ⟨used, unread, h1, h2.symm, h3, fun other => h4 other _ (Nat.lt_succ_self _)⟩

/-! ## Readers -/

theorem PlainAt.bounded {tag : String} {r : XElem α} (h : PlainAt tag r) : BoundedAt tag r := by
  intro el attrs content rest x left h1 _ _ h4
  obtain ⟨o, ho⟩ := h el attrs content h1
  rw [ho] at h4
  cases o with
  | error e => cases h4
  | ok y =>
    cases h4
    exact ⟨XNode.eventsAll content ++ [.stop el], [], by simp, by simp, rfl, fun other => by
      rw [List.append_assoc]; exact ho other⟩

theorem bind_bounded {tag : String} {r : XElem α} (h : BoundedAt tag r)
    (f : XName → List (String × String) → α → Except XErr β) :
    BoundedAt tag (fun el attrs evs => do
      let (x, l) ← r el attrs evs
      let y ← f el attrs x
      .ok (y, l)) := by
  intro el attrs content rest x left h1 h2 h3 h4
  simp only [bind, Except.bind] at h4
  split at h4
  · cases h4
  · rename_i p hp
    obtain ⟨used, unread, e1, e2, e3, e4⟩ := h el attrs content rest p.1 p.2 h1 h2 h3 hp
    split at h4
    · cases h4
    · rename_i y hy
      cases h4
      refine ⟨used, unread, e1, e2, e3, fun other => ?_⟩
      simp only [bind, Except.bind]
      rw [e4]
      simp only
      rw [hy]

theorem map_bounded {tag : String} {r : XElem α} (h : BoundedAt tag r) (f : α → β) :
    BoundedAt tag (r.map f) := bind_bounded h fun _ _ x => .ok (f x)

theorem readSimple_bounded {tag} : BoundedAt tag readSimple := readSimple_plain.bounded
theorem readOptional_bounded {tag} : BoundedAt tag readOptional := readOptional_plain.bounded
theorem readInner_bounded {tag} : BoundedAt tag readInner := readInner_plain.bounded
theorem readU32_bounded {tag} : BoundedAt tag readU32 := readU32_plain.bounded
theorem readF32_bounded [F32Format] {tag} : BoundedAt tag readF32 := readF32_plain.bounded
theorem readRef_bounded {tag} : BoundedAt tag readRef := readRef_plain.bounded

theorem readBool_bounded {tag} : BoundedAt tag readBool :=
  bind_bounded readSimple_bounded fun el _ s => parseBool el.localName s

theorem readScore_bounded [F32Format] {tag} : BoundedAt tag readScore :=
  bind_bounded readSimple_bounded fun _ _ s => parseF32 "score" s

theorem readWith_bounded {pre : XName → List (String × String) → Except XErr ρ} {r : XElem α}
    {fin : ρ → α → β} {tag : String} (h : BoundedAt tag r) : BoundedAt tag (readWith pre r fin) := by
  intro el attrs content rest x left h1 h2 h3 h4
  simp only [readWith, bind, Except.bind] at h4
  split at h4
  · cases h4
  · rename_i p hp
    split at h4
    · cases h4
    · rename_i y hy
      cases h4
      obtain ⟨used, unread, e1, e2, e3, e4⟩ := h el attrs content rest y.1 y.2 h1 h2 h3 hy
      refine ⟨used, unread, e1, e2, e3, fun other => ?_⟩
      simp only [readWith, bind, Except.bind, hp]
      rw [e4]

theorem arm_bounded {tag : String} {r : XElem α} (h : BoundedAt tag r) (set : α → σ → σ) :
    BoundedArm tag (arm r set) := by
  intro el attrs st content rest x left h1 h2 h3 h4
  simp only [arm, bind, Except.bind] at h4
  split at h4
  · cases h4
  · rename_i y hy
    cases h4
    obtain ⟨used, unread, e1, e2, e3, e4⟩ := h el attrs content rest y.1 y.2 h1 h2 h3 hy
    refine ⟨used, unread, e1, e2, e3, fun other => ?_⟩
    simp only [arm, bind, Except.bind]
    rw [e4]

theorem armOnce_bounded {tag : String} {r : XElem α} (h : BoundedAt tag r) (isSet : σ → Bool)
    (set : α → σ → σ) : BoundedArm tag (armOnce r isSet set) := by
  intro el attrs st content rest x left h1 h2 h3 h4
  simp only [armOnce] at h4 ⊢
  split at h4
  · cases h4
  · rename_i hs
    simp only [hs]
    exact arm_bounded h set el attrs st content rest x left h1 h2 h3 h4

theorem barmsNil : ∀ p ∈ ([] : List (String × Arm σ)), BoundedArm p.1 p.2 := fun _ h => nomatch h

theorem barmsCons {t : String} {a : Arm σ} {l : List (String × Arm σ)} (h : BoundedArm t a)
    (hl : ∀ q ∈ l, BoundedArm q.1 q.2) : ∀ q ∈ (t, a) :: l, BoundedArm q.1 q.2 := by
  intro q hq
  cases hq with
  | head => exact h
  | tail _ hq => exact hl q hq

theorem barmsAppend {l m : List (String × Arm σ)} (hl : ∀ q ∈ l, BoundedArm q.1 q.2)
    (hm : ∀ q ∈ m, BoundedArm q.1 q.2) : ∀ q ∈ l ++ m, BoundedArm q.1 q.2 := by
  intro q hq
  rcases List.mem_append.mp hq with h | h
  · exact hl q h
  · exact hm q h

theorem barmsSince14 {v : SpecVersion} {l : List (String × Arm σ)}
    (hl : ∀ q ∈ l, BoundedArm q.1 q.2) : ∀ q ∈ since14 v l [], BoundedArm q.1 q.2 := by
  cases v
  · exact barmsNil
  · exact hl
  · exact hl

theorem barmsSince15 {v : SpecVersion} {l : List (String × Arm σ)}
    (hl : ∀ q ∈ l, BoundedArm q.1 q.2) : ∀ q ∈ since15 v l [], BoundedArm q.1 q.2 := by
  cases v
  · exact barmsNil
  · exact barmsNil
  · exact hl

theorem readStruct_bounded {mode : Unknown} {tag : String}
    {pre : XName → List (String × String) → Except XErr ρ}
    {init : σ} {arms : List (String × Arm σ)} {fin : XName → ρ → σ → Except XErr α}
    (harms : ∀ p ∈ arms, BoundedArm p.1 p.2) : BoundedAt tag (readStruct mode pre init arms fin) := by
  intro el attrs content rest x left h1 h2 h3 h4
  simp only [readStruct, bind, Except.bind] at h4
  split at h4
  · cases h4
  · rename_i p hp
    split at h4
    · cases h4
    · rename_i y hy
      split at h4
      · cases h4
      · rename_i z hz
        cases h4
        obtain ⟨used, unread, e1, e2, e3, e4⟩ := readFields_bounded harms h3 (fun _ => rfl) hy
        refine ⟨used, unread, e1, e2, e3, fun other => ?_⟩
        simp only [readStruct, bind, Except.bind, hp]
        rw [e4]
        simp only [hz]

theorem readListWith_bounded {mode : Unknown} {tag inner : String} {r : XElem α}
    (h : BoundedAt inner r) : BoundedAt tag (readListWith mode inner r) := by
  intro el attrs content rest x left h1 h2 h3 h4
  exact readFields_bounded (barmsCons (arm_bounded h _) barmsNil) h3 (fun _ => rfl) h4

theorem readList_bounded {tag inner : String} {r : XElem α} (h : BoundedAt inner r) :
    BoundedAt tag (readList inner r) := readListWith_bounded h

theorem readListLax_bounded {tag inner : String} {r : XElem α} (h : BoundedAt inner r) :
    BoundedAt tag (readListLax inner r) := readListWith_bounded h

end Cdx
