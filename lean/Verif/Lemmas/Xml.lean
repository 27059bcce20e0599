import Verif.Spec.Xml
import Verif.Lemmas.Strings

set_option linter.unusedSectionVars false
set_option linter.unusedSimpArgs false

/-!
# Lemmas on XML readers and writers
-/

namespace Cdx

variable {σ α β ρ : Type}

/-! ## Writers -/

variable {loose : Bool}

attribute [simp] WellFormed.nil WellFormed.chars WellFormed.cdata

theorem goodNil {tag} : GoodKeys loose tag ([] : List String) := .inl .nil

theorem mkAttrs_keys_sub : ∀ {l : List (String × Option String)},
    List.Sublist ((mkAttrs l).map (·.1)) (l.map (·.1))
  | [] => .slnil
  | (k, none) :: l => .cons _ (mkAttrs_keys_sub (l := l))
  | (k, some v) :: l => .cons_cons _ (mkAttrs_keys_sub (l := l))

theorem goodAttrs {tag} {l : List (String × Option String)} (h : (l.map (·.1)).Nodup) :
    GoodKeys loose tag ((mkAttrs l).map (·.1)) := .inl (h.sublist mkAttrs_keys_sub)

theorem GoodKeys.loosen {tag keys} (h : GoodKeys true tag keys) (hl : loose = true) :
    GoodKeys loose tag keys := hl ▸ h

theorem WellFormed.loosen {w} (h : WellFormed true w) (hl : loose = true) : WellFormed loose w :=
  hl ▸ h

theorem writeElem_wf {tag attrs body} (hk : GoodKeys loose tag (attrs.map (·.1)))
    (h : WellFormed loose body) : WellFormed loose (writeElem tag attrs body) := .elem tag attrs hk h

theorem writeElem_one {tag attrs body} (hk : GoodKeys loose tag (attrs.map (·.1)))
    (h : WellFormed loose body) : OneElement loose tag (writeElem tag attrs body) :=
  ⟨attrs, body, hk, h, rfl⟩

theorem OneElement.wf {tag w} (h : OneElement loose tag w) : WellFormed loose w := by
  obtain ⟨a, b, hk, hb, rfl⟩ := h
  exact .elem _ _ hk hb

theorem flatMap_wf {w : α → List WEvent} : ∀ {l : List α}, (∀ x ∈ l, WellFormed loose (w x)) →
    WellFormed loose (l.flatMap w)
  | [], _ => .nil
  | x :: l, h => by
    rw [List.flatMap_cons]
    exact .append (h x (.head _)) (flatMap_wf fun y hy => h y (.tail _ hy))

theorem writeOpt_wf {w : α → List WEvent} {x : Option α}
    (h : ∀ y, x = some y → WellFormed loose (w y)) : WellFormed loose (writeOpt w x) := by
  cases x with
  | none => exact .nil
  | some y => exact h y rfl

theorem writeSimple_one {tag s} : OneElement loose tag (writeSimple tag s) :=
  ⟨[], [.chars s], goodNil, .chars s, rfl⟩

theorem writeSimple_wf {tag s} : WellFormed loose (writeSimple tag s) := writeSimple_one.wf

theorem writeSimpleOpt_wf {tag s} : WellFormed loose (writeSimpleOpt tag s) :=
  writeOpt_wf fun _ _ => writeSimple_wf

theorem writeList_one {tag} {w : α → List WEvent} {l : List α}
    (h : ∀ x ∈ l, WellFormed loose (w x)) : OneElement loose tag (writeList tag w l) :=
  writeElem_one goodNil (flatMap_wf h)

theorem writeList_wf {tag} {w : α → List WEvent} {l : List α}
    (h : ∀ x ∈ l, WellFormed loose (w x)) : WellFormed loose (writeList tag w l) :=
  (writeList_one h).wf

theorem writeStrings_wf {tag child l} : WellFormed loose (writeStrings tag child l) :=
  writeList_wf fun _ _ => writeSimple_wf

theorem if_wf {b : Bool} {w : List WEvent} (h : WellFormed loose w) :
    WellFormed loose (if b = true then w else []) := by
  split
  · exact h
  · exact .nil

theorem since14_wf {v : SpecVersion} {w : List WEvent} (h : WellFormed loose w) :
    WellFormed loose (since14 v w []) := by
  cases v
  · exact .nil
  · exact h
  · exact h

theorem since15_wf {v : SpecVersion} {w : List WEvent} (h : v = .v1_5 → WellFormed loose w) :
    WellFormed loose (since15 v w []) := by
  cases v
  · exact .nil
  · exact .nil
  · exact h rfl

/-! ## Delivery -/

theorem deliver_append {a : List WEvent} (h : WellFormed loose a) : ∀ ns stk b,
    deliver ns stk (a ++ b) = deliver ns [] a ++ deliver ns stk b := by
  induction h with
  | nil => intros; rfl
  | chars s =>
    intro ns stk b
    simp only [List.cons_append, List.nil_append, deliver]
    split <;> rfl
  | cdata s =>
    intro ns stk b
    simp only [List.cons_append, List.nil_append, deliver]
  | elem tag attrs _ _ ih =>
    intro ns stk b
    simp only [List.cons_append, List.append_assoc, List.nil_append, deliver]
    rw [ih ns (_ :: stk), ih ns [_]]
    simp [deliver]
  | append _ _ iha ihb =>
    intro ns stk b
    rw [List.append_assoc, iha, ihb, iha ns [], List.append_assoc]

theorem deliver_elem {tag attrs body} (h : WellFormed loose body) (ns) :
    deliver ns [] (writeElem tag attrs body) =
      .start ⟨tag, ns, none⟩ attrs ns :: (deliver ns [] body ++ [.stop ⟨tag, ns, none⟩]) := by
  simp only [writeElem, deliver]
  rw [deliver_append h ns [_]]
  simp [deliver]

/-! ## The reader loop -/

theorem mem_of_lookup {α β : Type} [BEq α] [LawfulBEq α] {k : α} {v : β} : ∀ {l : List (α × β)},
    l.lookup k = some v → (k, v) ∈ l
  | [], h => by simp at h
  | (a, b) :: l, h => by
    rw [List.lookup_cons] at h
    split at h
    · rename_i he
      have := eq_of_beq he
      subst this
      cases h
      exact .head _
    · exact .tail _ (mem_of_lookup h)

theorem readLoop_fuel (mode : Unknown) (isEnd : XName → Bool) (el : XName)
    (arms : List (String × Arm σ)) : ∀ n m (st : σ) (evs : List XEvent),
    evs.length < n → evs.length < m →
    readLoop mode isEnd el arms n st evs = readLoop mode isEnd el arms m st evs
  | 0, _, _, _, h, _ => by omega
  | _, 0, _, _, _, h => by omega
  | n + 1, m + 1, st, evs, hn, hm => by
    unfold readLoop
    cases evs with
    | nil => rfl
    | cons e l =>
      simp only [List.length_cons] at hn hm
      have ih : ∀ st (l' : List XEvent), l'.length ≤ l.length →
          readLoop mode isEnd el arms n st l' = readLoop mode isEnd el arms m st l' :=
        fun st l' h => readLoop_fuel mode isEnd el arms n m st l' (by omega) (by omega)
      cases e with
      | start name attrs ns =>
        simp only
        cases arms.lookup name.localName with
        | some act =>
          simp only
          cases act name attrs st l with
          | error e => rfl
          | ok r =>
            obtain ⟨st', l'⟩ := r
            simp only
            split
            · exact ih _ _ ‹_›
            · rfl
        | none =>
          cases mode with
          | fail => rfl
          | ignore => exact ih _ _ (Nat.le_refl _)
          | skip =>
            simp only
            cases skipElem [name] l with
            | error e => rfl
            | ok l' =>
              simp only
              split
              · exact ih _ _ ‹_›
              · rfl
      | _ =>
        simp only
        rw [ih st l (Nat.le_refl _)]

theorem lookup_of_mem {α β : Type} [BEq α] [LawfulBEq α] {k : α} {v : β} : ∀ {l : List (α × β)},
    (l.map (·.1)).Nodup → (k, v) ∈ l → l.lookup k = some v
  | [], _, h => nomatch h
  | (a, b) :: l, hn, h => by
    rw [List.map_cons, List.nodup_cons] at hn
    rw [List.lookup_cons]
    cases h with
    | head => rw [beq_self_eq_true]
    | tail _ h =>
      have : k ≠ a := fun e => hn.1 (e ▸ List.mem_map_of_mem (f := (·.1)) h)
      rw [beq_eq_false_iff_ne.mpr this]
      exact lookup_of_mem hn.2 h

theorem readFields_start (mode : Unknown) (el : XName) (arms : List (String × Arm σ)) (st : σ)
    (n : XName) (attrs) (ns) (l : List XEvent) :
    readFields mode el arms st (.start n attrs ns :: l) =
      match arms.lookup n.localName with
      | some act =>
        match act n attrs st l with
        | .ok (st', l') =>
          if l'.length ≤ l.length then readFields mode el arms st' l' else .error .stuck
        | .error e => .error e
      | none =>
        match mode with
        | .fail => .error (.unexpected el.localName)
        | .skip =>
          match skipElem [n] l with
          | .ok l' => if l'.length ≤ l.length then readFields mode el arms st l' else .error .stuck
          | .error e => .error e
        | .ignore => readFields mode el arms st l := by
  have ih : ∀ st (l' : List XEvent), l'.length ≤ l.length →
      readLoop mode (fun n => n = el) el arms (l.length + 1) st l' =
        readLoop mode (fun n => n = el) el arms (l'.length + 1) st l' :=
    fun st l' h => readLoop_fuel _ _ _ _ _ _ _ _ (by omega) (by omega)
  unfold readFields
  conv => lhs; unfold readLoop
  simp only [List.length_cons]
  cases arms.lookup n.localName with
  | some act =>
    simp only
    cases act n attrs st l with
    | error e => rfl
    | ok r =>
      obtain ⟨st', l'⟩ := r
      simp only
      split
      · exact ih _ _ ‹_›
      · rfl
  | none =>
    cases mode with
    | fail => rfl
    | ignore => rfl
    | skip =>
      simp only
      cases skipElem [n] l with
      | error e => rfl
      | ok l' =>
        simp only
        split
        · exact ih _ _ ‹_›
        · rfl

theorem readFields_stop (mode : Unknown) (el : XName) (arms : List (String × Arm σ)) (st : σ)
    (l : List XEvent) : readFields mode el arms st (.stop el :: l) = .ok (st, l) := by
  simp [readFields, readLoop]

theorem readFields_stop_other (mode : Unknown) (el : XName) (arms : List (String × Arm σ)) (st : σ)
    (n : XName) (l : List XEvent) (h : n ≠ el) :
    readFields mode el arms st (.stop n :: l) =
      if mode = .ignore then readFields mode el arms st l else .error (.unexpected el.localName) := by
  simp [readFields, readLoop, h]

theorem readFields_other (mode : Unknown) (el : XName) (arms : List (String × Arm σ)) (st : σ)
    (e : XEvent) (l : List XEvent) (h : ∀ n a ns, e ≠ .start n a ns) (h' : ∀ n, e ≠ .stop n) :
    readFields mode el arms st (e :: l) =
      if mode = .ignore then readFields mode el arms st l else .error (.unexpected el.localName) := by
  cases e with
  | start n a ns => exact absurd rfl (h n a ns)
  | stop n => exact absurd rfl (h' n)
  | _ => rfl

mutual
theorem skipElem_events : ∀ (x : XNode) (e : XName) (stk : List XName) (rest : List XEvent),
    skipElem (e :: stk) (x.events ++ rest) = skipElem (e :: stk) rest
  | .elem n attrs ns children, e, stk, rest => by
    simp only [XNode.events, List.cons_append, List.append_assoc, List.nil_append, skipElem]
    rw [skipElem_eventsAll children]
    simp [skipElem]
  | .chars s, e, stk, rest => rfl
  | .cdata s, e, stk, rest => rfl
  | .other, e, stk, rest => rfl

theorem skipElem_eventsAll : ∀ (l : List XNode) (e : XName) (stk : List XName) (rest : List XEvent),
    skipElem (e :: stk) (XNode.eventsAll l ++ rest) = skipElem (e :: stk) rest
  | [], e, stk, rest => rfl
  | x :: l, e, stk, rest => by
    rw [XNode.eventsAll, List.append_assoc, skipElem_events x, skipElem_eventsAll l]
end

/-! ## Locality -/

/-- `LocalAt` for an arm of a reader loop. -/
def LocalArm (tag : String) (a : Arm σ) : Prop :=
  ∀ name attrs st content, name.localName = tag → TameContent tag content →
    XNode.TameAll content → ∃ o : Except XErr σ, ∀ rest,
    a name attrs st (XNode.eventsAll content ++ .stop name :: rest) = o.map fun x => (x, rest)

theorem arm_local {tag : String} {r : XElem α} (h : LocalAt tag r) (set : α → σ → σ) :
    LocalArm tag (arm r set) := by
  intro name attrs st content h1 h2 h3
  obtain ⟨o, ho⟩ := h name attrs content h1 h2 h3
  refine ⟨o.map fun x => set x st, fun rest => ?_⟩
  simp only [arm]
  rw [ho]
  cases o <;> rfl

theorem armOnce_local {tag : String} {r : XElem α} (h : LocalAt tag r) (isSet : σ → Bool)
    (set : α → σ → σ) : LocalArm tag (armOnce r isSet set) := by
  intro name attrs st content h1 h2 h3
  simp only [armOnce]
  cases isSet st with
  | true => exact ⟨.error (.unexpected name.localName), fun rest => rfl⟩
  | false => exact arm_local h set name attrs st content h1 h2 h3

theorem armsNil : ∀ p ∈ ([] : List (String × Arm σ)), LocalArm p.1 p.2 := fun _ h => nomatch h

theorem armsCons {t : String} {a : Arm σ} {l : List (String × Arm σ)} (h : LocalArm t a)
    (hl : ∀ q ∈ l, LocalArm q.1 q.2) : ∀ q ∈ (t, a) :: l, LocalArm q.1 q.2 := by
  intro q hq
  cases hq with
  | head => exact h
  | tail _ hq => exact hl q hq

theorem armsAppend {l m : List (String × Arm σ)} (hl : ∀ q ∈ l, LocalArm q.1 q.2)
    (hm : ∀ q ∈ m, LocalArm q.1 q.2) : ∀ q ∈ l ++ m, LocalArm q.1 q.2 := by
  intro q hq
  rcases List.mem_append.mp hq with h | h
  · exact hl q h
  · exact hm q h

theorem armsSince14 {v : SpecVersion} {l : List (String × Arm σ)}
    (hl : ∀ q ∈ l, LocalArm q.1 q.2) : ∀ q ∈ since14 v l [], LocalArm q.1 q.2 := by
  cases v
  · exact armsNil
  · exact hl
  · exact hl

theorem armsSince15 {v : SpecVersion} {l : List (String × Arm σ)}
    (hl : ∀ q ∈ l, LocalArm q.1 q.2) : ∀ q ∈ since15 v l [], LocalArm q.1 q.2 := by
  cases v
  · exact armsNil
  · exact armsNil
  · exact hl

theorem readClose_local (el : XName) (content : List XNode) : ∃ o : Except XErr Unit, ∀ rest,
    readClose el (XNode.eventsAll content ++ .stop el :: rest) = o.map fun x => (x, rest) := by
  cases content with
  | nil => exact ⟨.ok (), fun rest => by simp [XNode.eventsAll, readClose, Except.map]⟩
  | cons x l => exact ⟨.error (.unexpected el.localName), fun rest => by
      cases x <;> rfl⟩

theorem readText_cases (el : XName) (content : List XNode) :
    (∃ e, ∀ rest, readText el (XNode.eventsAll content ++ .stop el :: rest) = .error e) ∨
    (∃ s l, ∀ rest, readText el (XNode.eventsAll content ++ .stop el :: rest) =
      .ok (s, XNode.eventsAll l ++ .stop el :: rest)) := by
  cases content with
  | nil => exact .inl ⟨.unexpected el.localName, fun rest => rfl⟩
  | cons x l =>
    cases x with
    | chars s => exact .inr ⟨s, l, fun rest => rfl⟩
    | cdata s => exact .inr ⟨s, l, fun rest => rfl⟩
    | elem n a ns c => exact .inl ⟨.unexpected el.localName, fun rest => rfl⟩
    | other => exact .inl ⟨.unexpected el.localName, fun rest => rfl⟩

theorem readSimple_local {tag} : LocalAt tag readSimple := by
  intro el attrs content h1 h2 h3
  cases content with
  | nil => exact ⟨.ok "", fun rest => rfl⟩
  | cons x l =>
    obtain ⟨o, ho⟩ := readClose_local el l
    cases x with
    | chars s =>
      refine ⟨o.map fun _ => s, fun rest => ?_⟩
      simp only [XNode.eventsAll, XNode.events, List.cons_append, List.nil_append, readSimple]
      rw [ho]
      cases o <;> rfl
    | cdata s =>
      refine ⟨o.map fun _ => s, fun rest => ?_⟩
      simp only [XNode.eventsAll, XNode.events, List.cons_append, List.nil_append, readSimple]
      rw [ho]
      cases o <;> rfl
    | elem n a ns c => exact ⟨.error (.unexpected el.localName), fun rest => rfl⟩
    | other => exact ⟨.error (.unexpected el.localName), fun rest => rfl⟩

theorem readOptional_local {tag} : LocalAt tag readOptional := by
  intro el attrs content h1 h2 h3
  cases content with
  | nil => exact ⟨.ok none, fun rest => by simp [readOptional, XNode.eventsAll, Except.map]⟩
  | cons x l =>
    obtain ⟨o, ho⟩ := readClose_local el l
    cases x with
    | chars s =>
      refine ⟨o.map fun _ => some s, fun rest => ?_⟩
      simp only [XNode.eventsAll, XNode.events, List.cons_append, List.nil_append, readOptional]
      rw [ho]
      cases o <;> rfl
    | cdata s =>
      refine ⟨o.map fun _ => some s, fun rest => ?_⟩
      simp only [XNode.eventsAll, XNode.events, List.cons_append, List.nil_append, readOptional]
      rw [ho]
      cases o <;> rfl
    | elem n a ns c => exact ⟨.error (.unexpected el.localName), fun rest => rfl⟩
    | other => exact ⟨.error (.unexpected el.localName), fun rest => rfl⟩

theorem readInner_local {tag} : LocalAt tag readInner := by
  intro el attrs content h1 h2 h3
  rcases readText_cases el content with ⟨e, he⟩ | ⟨s, l, hs⟩
  · exact ⟨.error e, fun rest => by simp only [readInner]; rw [he]; rfl⟩
  · obtain ⟨o, ho⟩ := readClose_local el l
    exact ⟨o.map fun _ => s, fun rest => by
        simp only [readInner]; rw [hs]; simp only [bind, Except.bind]; rw [ho]; cases o <;> rfl⟩

theorem readU32_local {tag} : LocalAt tag readU32 := by
  intro el attrs content h1 h2 h3
  rcases readText_cases el content with ⟨e, he⟩ | ⟨s, l, hs⟩
  · exact ⟨.error e, fun rest => by simp only [readU32]; rw [he]; rfl⟩
  · obtain ⟨o, ho⟩ := readClose_local el l
    cases hp : parseU32 (trim s) with
    | none => exact ⟨.error (.invalid s "u32" el.localName), fun rest => by
        simp only [readU32]; rw [hs]; simp only [bind, Except.bind, hp]; rfl⟩
    | some n => exact ⟨o.map fun _ => n, fun rest => by
        simp only [readU32]; rw [hs]; simp only [bind, Except.bind, hp]; rw [ho]; cases o <;> rfl⟩

theorem readF32_local [F32Format] {tag} : LocalAt tag readF32 := by
  intro el attrs content h1 h2 h3
  rcases readText_cases el content with ⟨e, he⟩ | ⟨s, l, hs⟩
  · exact ⟨.error e, fun rest => by simp only [readF32]; rw [he]; rfl⟩
  · obtain ⟨o, ho⟩ := readClose_local el l
    cases hp : F32Format.parse (trim s) with
    | none => exact ⟨.error (.invalid s "f32" el.localName), fun rest => by
        simp only [readF32]; rw [hs]; simp only [bind, Except.bind, hp]; rfl⟩
    | some n => exact ⟨o.map fun _ => n, fun rest => by
        simp only [readF32]; rw [hs]; simp only [bind, Except.bind, hp]; rw [ho]; cases o <;> rfl⟩

theorem readRef_local {tag} : LocalAt tag readRef := by
  intro el attrs content _ _ _
  obtain ⟨o, ho⟩ := readClose_local el content
  cases hr : reqAttr el attrs "ref" with
  | error e => exact ⟨.error e, fun rest => by simp [readRef, hr, bind, Except.bind, Except.map]⟩
  | ok r =>
    refine ⟨o.map fun _ => r, fun rest => ?_⟩
    simp only [readRef, hr, bind, Except.bind]
    rw [ho]
    cases o <;> rfl

theorem bind_local {tag : String} {r : XElem α} (h : LocalAt tag r) (f : XName → List (String × String) → α → Except XErr β) :
    LocalAt tag (fun el attrs evs => do
      let (x, l) ← r el attrs evs
      let y ← f el attrs x
      .ok (y, l)) := by
  intro el attrs content h1 h2 h3
  obtain ⟨o, ho⟩ := h el attrs content h1 h2 h3
  refine ⟨o.bind (f el attrs), fun rest => ?_⟩
  simp only
  rw [ho]
  cases o with
  | error e => rfl
  | ok x =>
    simp only [Except.map, bind, Except.bind]

theorem map_local {tag : String} {r : XElem α} (h : LocalAt tag r) (f : α → β) : LocalAt tag (r.map f) :=
  bind_local h fun _ _ x => .ok (f x)

theorem readBool_local {tag} : LocalAt tag readBool := bind_local readSimple_local fun el _ s => parseBool el.localName s

theorem readScore_local [F32Format] {tag} : LocalAt tag readScore :=
  bind_local readSimple_local fun _ _ s => parseF32 "score" s

theorem readWith_local {pre : XName → List (String × String) → Except XErr ρ} {r : XElem α}
    {fin : ρ → α → β} {tag : String} (h : LocalAt tag r) : LocalAt tag (readWith pre r fin) := by
  intro el attrs content h1 h2 h3
  simp only [readWith]
  cases pre el attrs with
  | error e => exact ⟨.error e, fun _ => rfl⟩
  | ok p =>
    obtain ⟨o, ho⟩ := h el attrs content h1 h2 h3
    refine ⟨o.map (fin p), fun rest => ?_⟩
    simp only [bind, Except.bind]
    rw [ho]
    cases o <;> rfl

/-- Going over some content, the loop either stops with an error or changes the variables. In
`ignore` mode the content must not contain an element with the name whose end is looked for. -/
def Passes (mode : Unknown) (el : XName) (arms : List (String × Arm σ)) (evs : List XEvent)
    (st : σ) : Prop :=
  (∃ e, ∀ rest, readFields mode el arms st (evs ++ rest) = .error e) ∨
  (∃ st', ∀ rest, readFields mode el arms st (evs ++ rest) = readFields mode el arms st' rest)

theorem Passes.append {mode : Unknown} {el : XName} {arms : List (String × Arm σ)}
    {a b : List XEvent} {st : σ} (ha : Passes mode el arms a st)
    (hb : ∀ st', Passes mode el arms b st') : Passes mode el arms (a ++ b) st := by
  rcases ha with ⟨e, he⟩ | ⟨st', hst⟩
  · exact .inl ⟨e, fun rest => by rw [List.append_assoc, he]⟩
  · rcases hb st' with ⟨e, he⟩ | ⟨st'', hst'⟩
    · exact .inl ⟨e, fun rest => by rw [List.append_assoc, hst, he]⟩
    · exact .inr ⟨st'', fun rest => by rw [List.append_assoc, hst, hst']⟩

theorem passes_other {mode : Unknown} {el : XName} {arms : List (String × Arm σ)} {e : XEvent}
    {st : σ} (h : ∀ n a ns, e ≠ .start n a ns) (h' : ∀ n, e ≠ .stop n) :
    Passes mode el arms [e] st := by
  by_cases hm : mode = .ignore
  · exact .inr ⟨st, fun rest => by
      rw [List.cons_append, List.nil_append, readFields_other _ _ _ _ _ _ h h', if_pos hm]⟩
  · exact .inl ⟨.unexpected el.localName, fun rest => by
      rw [List.cons_append, List.nil_append, readFields_other _ _ _ _ _ _ h h', if_neg hm]⟩

mutual
theorem passes_events {mode : Unknown} {el : XName} {arms : List (String × Arm σ)}
    (harms : ∀ p ∈ arms, LocalArm p.1 p.2) : ∀ (x : XNode) (st : σ),
    (mode = .ignore → el.localName ∉ x.names) → x.Tame → Passes mode el arms x.events st
  | .chars s, st, _, _ => passes_other (by simp) (by simp)
  | .cdata s, st, _, _ => passes_other (by simp) (by simp)
  | .other, st, _, _ => passes_other (by simp) (by simp)
  | .elem n attrs ns c, st, hname, htame => by
    simp only [XNode.Tame] at htame
    have hev : ∀ rest, XNode.events (.elem n attrs ns c) ++ rest =
        .start n attrs ns :: (XNode.eventsAll c ++ .stop n :: rest) := by
      intro rest
      simp [XNode.events]
    cases harm : arms.lookup n.localName with
    | some act =>
      have hact : LocalArm n.localName act := harms _ (mem_of_lookup harm)
      obtain ⟨o, ho⟩ := hact n attrs st c rfl htame.1 htame.2
      cases o with
      | error e => exact .inl ⟨e, fun rest => by
          rw [hev, readFields_start, harm]; simp only; rw [ho]; rfl⟩
      | ok st' =>
        refine .inr ⟨st', fun rest => ?_⟩
        rw [hev, readFields_start, harm]
        simp only
        rw [ho]
        simp only [Except.map]
        rw [if_pos (by simp; omega)]
    | none =>
      cases mode with
      | fail => exact .inl ⟨.unexpected el.localName, fun rest => by
          rw [hev, readFields_start, harm]⟩
      | skip =>
        refine .inr ⟨st, fun rest => ?_⟩
        rw [hev, readFields_start, harm]
        simp only
        rw [skipElem_eventsAll]
        simp only [skipElem, if_true]
        rw [if_pos (by simp; omega)]
      | ignore =>
        have hn := hname rfl
        simp only [XNode.names, List.mem_cons, not_or] at hn
        have hne : n ≠ el := fun e => hn.1 (by rw [e])
        rcases passes_eventsAll harms c st (fun _ => hn.2) htame.2 with ⟨e, he⟩ | ⟨st', hst⟩
        · exact .inl ⟨e, fun rest => by rw [hev, readFields_start, harm]; exact he _⟩
        · refine .inr ⟨st', fun rest => ?_⟩
          rw [hev, readFields_start, harm]
          simp only
          rw [hst, readFields_stop_other _ _ _ _ _ _ hne, if_pos rfl]

theorem passes_eventsAll {mode : Unknown} {el : XName} {arms : List (String × Arm σ)}
    (harms : ∀ p ∈ arms, LocalArm p.1 p.2) : ∀ (content : List XNode) (st : σ),
    (mode = .ignore → el.localName ∉ XNode.namesAll content) → XNode.TameAll content →
    Passes mode el arms (XNode.eventsAll content) st
  | [], st, _, _ => .inr ⟨st, fun _ => rfl⟩
  | x :: l, st, hname, htame => by
    simp only [XNode.TameAll] at htame
    simp only [XNode.namesAll, List.mem_append, not_or] at hname
    rw [XNode.eventsAll]
    exact Passes.append (passes_events harms x st (fun h => (hname h).1) htame.1)
      (fun st' => passes_eventsAll harms l st' (fun h => (hname h).2) htame.2)
end

theorem readFields_local {mode : Unknown} {el : XName} {arms : List (String × Arm σ)}
    (harms : ∀ p ∈ arms, LocalArm p.1 p.2) (content : List XNode) (st : σ)
    (hmode : mode = .ignore → el.localName ∈ ignoring)
    (hc : TameContent el.localName content) (ht : XNode.TameAll content) :
    ∃ o : Except XErr σ, ∀ rest,
      readFields mode el arms st (XNode.eventsAll content ++ .stop el :: rest) =
        o.map fun x => (x, rest) := by
  rcases passes_eventsAll (mode := mode) (el := el) harms content st
    (fun h => hc.1 (hmode h)) ht with ⟨e, he⟩ | ⟨st', hst⟩
  · exact ⟨.error e, fun rest => he _⟩
  · exact ⟨.ok st', fun rest => by rw [hst, readFields_stop]; rfl⟩

theorem readStruct_local {mode : Unknown} {tag : String}
    {pre : XName → List (String × String) → Except XErr ρ}
    {init : σ} {arms : List (String × Arm σ)} {fin : XName → ρ → σ → Except XErr α}
    (hmode : mode = .ignore → tag ∈ ignoring)
    (harms : ∀ p ∈ arms, LocalArm p.1 p.2) : LocalAt tag (readStruct mode pre init arms fin) := by
  intro el attrs content h1 h2 h3
  subst h1
  simp only [readStruct]
  cases pre el attrs with
  | error e => exact ⟨.error e, fun _ => rfl⟩
  | ok p =>
    obtain ⟨o, ho⟩ := readFields_local (mode := mode) (el := el) harms content init hmode h2 h3
    refine ⟨o.bind (fin el p), fun rest => ?_⟩
    simp only [bind, Except.bind]
    rw [ho]
    cases o with
    | error e => rfl
    | ok x =>
      simp only [Except.map, Except.bind]

theorem readListWith_local {mode : Unknown} {tag inner : String} {r : XElem α}
    (hmode : mode = .ignore → tag ∈ ignoring) (h : LocalAt inner r) :
    LocalAt tag (readListWith mode inner r) := by
  intro el attrs content h1 h2 h3
  subst h1
  exact readFields_local (armsCons (arm_local h fun x (l : List α) => l ++ [x]) armsNil)
    content [] hmode h2 h3

theorem readList_local {tag inner : String} {r : XElem α} (h : LocalAt inner r) :
    LocalAt tag (readList inner r) := readListWith_local (by simp) h

theorem readListLax_local {tag inner : String} {r : XElem α} (h : LocalAt inner r) :
    LocalAt tag (readListLax inner r) := readListWith_local (by simp) h

/-! ## Reading back -/

theorem Trimmed.empty : Trimmed "" := rfl

theorem reads_text {ns tag attrs s} (h : Trimmed s) :
    Reads ns (writeElem tag attrs [.chars s]) tag readSimple s := by
  by_cases hs : s = ""
  · subst hs
    refine ⟨attrs, [], ?_, fun rest => rfl⟩
    have h' : xmlTrim "" = "" := h
    simp [writeElem, deliver, h']
  · refine ⟨attrs, [.chars s], ?_, fun rest => ?_⟩
    · have h' : xmlTrim s = s := h
      simp [writeElem, deliver, h', hs]
    · simp [readSimple, readClose, bind, Except.bind]

theorem reads_inner {ns tag attrs s} (h : Trimmed s ∧ s ≠ "") :
    Reads ns (writeElem tag attrs [.chars s]) tag readInner s := by
  refine ⟨attrs, [.chars s], ?_, fun rest => ?_⟩
  · have h' : xmlTrim s = s := h.1
    simp [writeElem, deliver, h', h.2]
  · simp [readInner, readText, readClose, bind, Except.bind]

theorem reads_simple {ns tag s} (h : Trimmed s) : Reads ns (writeSimple tag s) tag readSimple s :=
  reads_text (attrs := []) h

theorem reads_enum {ns tag} {display : α → String} {new : String → α} {x : α}
    (h : Stable display new x ∧ Trimmed (display x)) :
    Reads ns (writeSimple tag (display x)) tag (readSimple.map new) x := by
  have h' := reads_simple (ns := ns) (tag := tag) h.2
  obtain ⟨a, b, hd, hr⟩ := h'
  refine ⟨a, b, hd, fun rest => ?_⟩
  simp only [XElem.map]
  rw [hr]
  show Except.ok (new (display x), rest) = _
  rw [show new (display x) = x from h.1]

theorem reads_optional {ns tag s} (h : Trimmed s) (hs : s ≠ "") :
    Reads ns (writeSimple tag s) tag readOptional (some s) := by
  refine ⟨[], [.chars s], ?_, fun rest => ?_⟩
  · have h' : xmlTrim s = s := h
    simp [writeSimple, deliver, h', hs]
  · simp [readOptional, readClose, bind, Except.bind]

theorem reads_bool {ns tag b} : Reads ns (writeSimple tag (boolStr b)) tag readBool b := by
  cases b
  · exact ⟨[], [.chars "false"], by
      have h : xmlTrim "false" = "false" := by decide +kernel
      simp [writeSimple, deliver, boolStr, h], fun rest => by
      simp [readBool, readSimple, readClose, bind, Except.bind, parseBool]⟩
  · exact ⟨[], [.chars "true"], by
      have h : xmlTrim "true" = "true" := by decide +kernel
      simp [writeSimple, deliver, boolStr, h], fun rest => by
      simp [readBool, readSimple, readClose, bind, Except.bind, parseBool]⟩

theorem dropWhile_none {p : Char → Bool} : ∀ {l : List Char}, (∀ c ∈ l, p c = false) →
    l.dropWhile p = l
  | [], _ => rfl
  | c :: l, h => by rw [List.dropWhile_cons, h c (.head _)]; rfl

theorem xmlTrim_none {s : String} (h : ∀ c ∈ s.toList, xmlSpace c = false) : xmlTrim s = s := by
  rw [xmlTrim, dropWhile_none h, dropWhile_none (by simpa using h), List.reverse_reverse,
    String.ofList_toList]

theorem trim_none {s : String} (h : ∀ c ∈ s.toList, isWhitespace c = false) : trim s = s := by
  rw [trim, trimChars, trimStartChars, trimStartChars, dropWhile_none h,
    dropWhile_none (by simpa using h), List.reverse_reverse, String.ofList_toList]

theorem digit_space {c : Char} (h : c.isDigit = true) : xmlSpace c = false := by
  simp only [Char.isDigit, Bool.and_eq_true, decide_eq_true_eq] at h
  simp only [xmlSpace, Bool.or_eq_false_iff, beq_eq_false_iff_ne, ne_eq]
  refine ⟨⟨⟨?_, ?_⟩, ?_⟩, ?_⟩ <;> (intro e; subst e; exact absurd h.1 (by decide))

theorem digit_whitespace {c : Char} (h : c.isDigit = true) : isWhitespace c = false := by
  have h1 : 48 ≤ c.toNat ∧ c.toNat ≤ 57 := by
    simp only [Char.isDigit, Bool.and_eq_true, decide_eq_true_eq] at h
    exact h
  obtain ⟨h1, h2⟩ := h1
  simp [isWhitespace]
  omega

theorem showNat_toList (n : Nat) : (showNat n).toList = Nat.toDigits 10 n := by
  show (Nat.repr n).toList = _
  exact Nat.toList_repr

theorem showNat_digit {n : Nat} {c : Char} (h : c ∈ (showNat n).toList) : c.isDigit = true := by
  rw [showNat_toList] at h
  exact Nat.isDigit_of_mem_toDigits (by decide) (by decide) h

theorem showNat_trimmed (n : Nat) : Trimmed (showNat n) :=
  xmlTrim_none fun _ h => digit_space (showNat_digit h)

theorem showNat_ne (n : Nat) : showNat n ≠ "" := by
  intro h
  have := congrArg String.toList h
  rw [showNat_toList] at this
  exact Nat.toDigits_ne_nil this

theorem parseU32_show {n : Nat} (h : n < 2 ^ 32) : parseU32 (showNat n) = some n := by
  have hall : ∀ c ∈ Nat.toDigits 10 n, c.isDigit = true := fun c hc =>
    Nat.isDigit_of_mem_toDigits (by decide) (by decide) hc
  have hne : Nat.toDigits 10 n ≠ [] := Nat.toDigits_ne_nil
  have hv : Nat.ofDigitChars 10 (Nat.toDigits 10 n) 0 = n := Nat.ofDigitChars_ten_toDigits
  unfold parseU32
  rw [showNat_toList]
  cases hd : Nat.toDigits 10 n with
  | nil => exact absurd hd hne
  | cons c l =>
    have hc : c ≠ '+' := by
      intro e
      have := hall c (hd ▸ .head _)
      subst e
      exact absurd this (by decide)
    rw [hd] at hall hv
    have : (if (c :: l).head? = some '+' then (c :: l).tail else c :: l) = c :: l :=
      if_neg (by simpa using hc)
    simp only [this]
    simp only [hv, List.isEmpty_cons, Bool.false_or, Bool.not_eq_true', if_pos h]
    rw [if_neg]
    simp only [Bool.not_eq_false, List.all_eq_true]
    exact hall

theorem reads_u32 {ns tag n} (h : n < 2 ^ 32) :
    Reads ns (writeSimple tag (showNat n)) tag readU32 n := by
  refine ⟨[], [.chars (showNat n)], ?_, fun rest => ?_⟩
  · have h' : xmlTrim (showNat n) = showNat n := showNat_trimmed n
    simp [writeSimple, deliver, h', showNat_ne]
  · have h' : trim (showNat n) = showNat n :=
      trim_none fun _ h => digit_whitespace (showNat_digit h)
    simp [readU32, readText, readClose, bind, Except.bind, h', parseU32_show h]

theorem xmlSpace_of_not_whitespace {c : Char} (h : isWhitespace c = false) : xmlSpace c = false := by
  simp only [xmlSpace, Bool.or_eq_false_iff, beq_eq_false_iff_ne, ne_eq]
  refine ⟨⟨⟨?_, ?_⟩, ?_⟩, ?_⟩ <;> (intro e; subst e; exact absurd h (by decide))

theorem reads_f32 [F32Format] {ns tag} {x : F32} (h : x.isFinite = true) :
    Reads ns (writeSimple tag (F32Format.display x)) tag readF32 x := by
  refine ⟨[], [.chars (F32Format.display x)], ?_, fun rest => ?_⟩
  · have h' : xmlTrim (F32Format.display x) = F32Format.display x :=
      xmlTrim_none fun c hc => xmlSpace_of_not_whitespace (F32Format.no_space x c hc)
    simp [writeSimple, deliver, h', F32Format.nonempty x]
  · have h' : trim (F32Format.display x) = F32Format.display x := trim_none (F32Format.no_space x)
    simp [readF32, readText, readClose, bind, Except.bind, h', F32Format.parse_display x h]

/-! ## Attributes -/

theorem lookup_mkAttrs_none : ∀ {l : List (String × Option String)} {k : String},
    k ∉ l.map (·.1) → (mkAttrs l).lookup k = none
  | [], _, _ => rfl
  | (a, x) :: l, k, h => by
    simp only [List.map_cons, List.mem_cons, not_or] at h
    cases x with
    | none => exact lookup_mkAttrs_none (l := l) h.2
    | some j =>
      show List.lookup k ((a, j) :: mkAttrs l) = none
      rw [List.lookup_cons, beq_eq_false_iff_ne.mpr h.1]
      exact lookup_mkAttrs_none h.2

theorem optAttr_mk : ∀ {l : List (String × Option String)} {k : String} {x : Option String},
    (l.map (·.1)).Nodup → (k, x) ∈ l → optAttr (mkAttrs l) k = x
  | [], _, _, _, h => nomatch h
  | (a, y) :: l, k, x, hn, h => by
    rw [List.map_cons, List.nodup_cons] at hn
    cases h with
    | head =>
      cases y with
      | none => exact lookup_mkAttrs_none (l := l) hn.1
      | some j =>
        show List.lookup a ((a, j) :: mkAttrs l) = some j
        rw [List.lookup_cons, beq_self_eq_true]
    | tail _ h =>
      have hne : k ≠ a := fun e => hn.1 (e ▸ List.mem_map_of_mem (f := (·.1)) h)
      cases y with
      | none => exact optAttr_mk (l := l) hn.2 h
      | some j =>
        show List.lookup k ((a, j) :: mkAttrs l) = x
        rw [List.lookup_cons, beq_eq_false_iff_ne.mpr hne]
        exact optAttr_mk hn.2 h

theorem reqAttr_mk {el : XName} {l : List (String × Option String)} {k v : String}
    (hn : (l.map (·.1)).Nodup) (h : (k, some v) ∈ l) : reqAttr el (mkAttrs l) k = .ok v := by
  have := optAttr_mk hn h
  simp only [optAttr] at this
  simp only [reqAttr, this]

theorem bindOk {ε α β : Type} {m : Except ε α} {f : α → Except ε β} {a : α} {b : Except ε β}
    (h : m = .ok a) (h' : f a = b) : (m >>= f) = b := by
  subst h
  exact h'

/-- The loop goes over what `w` wrote and changes the variables from `st` to `st'`. -/
def Goes (ns : Option String) (mode : Unknown) (el : XName) (arms : List (String × Arm σ))
    (w : List WEvent) (st st' : σ) : Prop :=
  ∀ rest, readFields mode el arms st (deliver ns [] w ++ rest) = readFields mode el arms st' rest

variable {ns : Option String} {mode : Unknown} {el : XName} {arms : List (String × Arm σ)}

theorem Goes.nil {st : σ} : Goes ns mode el arms [] st st := fun _ => rfl

/-- The state after reading, under another name. -/
theorem Goes.to {a : List WEvent} {s1 s2 s3 : σ}
    (h : Goes ns mode el arms a s1 s2) (e : s2 = s3) : Goes ns mode el arms a s1 s3 := e ▸ h

theorem Goes.append {a b : List WEvent} {s1 s2 s3 : σ} (h1 : Goes ns mode el arms a s1 s2)
    (h2 : Goes ns mode el arms b s2 s3) (ha : WellFormed true a) :
    Goes ns mode el arms (a ++ b) s1 s3 := by
  intro rest
  rw [deliver_append ha, List.append_assoc, h1, h2]

theorem Goes.one {w : List WEvent} {tag : String} {r : XElem α} {x : α} {set : α → σ → σ} {st : σ}
    (h : Reads ns w tag r x) (hm : (tag, arm r set) ∈ arms) (hn : (arms.map (·.1)).Nodup) :
    Goes ns mode el arms w st (set x st) := by
  intro rest
  obtain ⟨attrs, body, hd, hr⟩ := h
  rw [hd]
  simp only [List.cons_append, List.append_assoc, List.nil_append]
  rw [readFields_start, lookup_of_mem hn hm]
  simp only [arm]
  rw [hr]
  simp only [bind, Except.bind]
  rw [if_pos (by simp; omega)]

theorem Goes.once {w : List WEvent} {tag : String} {r : XElem α} {x : α} {isSet : σ → Bool}
    {set : α → σ → σ} {st : σ} (h : Reads ns w tag r x) (hm : (tag, armOnce r isSet set) ∈ arms)
    (hn : (arms.map (·.1)).Nodup) (hs : isSet st = false) :
    Goes ns mode el arms w st (set x st) := by
  intro rest
  obtain ⟨attrs, body, hd, hr⟩ := h
  rw [hd]
  simp only [List.cons_append, List.append_assoc, List.nil_append]
  rw [readFields_start, lookup_of_mem hn hm]
  simp only [armOnce, hs, arm]
  rw [if_neg (by simp), hr]
  simp only [bind, Except.bind]
  rw [if_pos (by simp; omega)]

/-- An optional field that is read back changed by `a`. `setO` assigns the whole optional
variable. -/
theorem Goes.opt_at {w : α → List WEvent} {tag : String} {r : XElem β} {x : Option α} {a : α → β}
    {set : β → σ → σ} {st : σ} (setO : Option β → σ → σ)
    (hm : (tag, arm r set) ∈ arms) (hn : (arms.map (·.1)).Nodup)
    (hset : ∀ y, set y st = setO (some y) st)
    (hnone : setO none st = st) (h : ∀ y, x = some y → Reads ns (w y) tag r (a y)) :
    Goes ns mode el arms (writeOpt w x) st (setO (x.map a) st) := by
  cases x with
  | none =>
    rw [Option.map_none, hnone]
    exact Goes.nil
  | some y =>
    rw [Option.map_some, ← hset (a y)]
    exact Goes.one (h y rfl) hm hn

/-- An optional field. -/
theorem Goes.opt {w : α → List WEvent} {tag : String} {r : XElem α} {x : Option α}
    {set : α → σ → σ} {st : σ} (setO : Option α → σ → σ)
    (hm : (tag, arm r set) ∈ arms) (hn : (arms.map (·.1)).Nodup)
    (hset : ∀ y, set y st = setO (some y) st)
    (hnone : setO none st = st) (h : ∀ y, x = some y → Reads ns (w y) tag r y) :
    Goes ns mode el arms (writeOpt w x) st (setO x st) := by
  have := Goes.opt_at (mode := mode) (el := el) (a := id) setO hm hn hset hnone h
  rwa [Option.map_id] at this

/-- Elements of a list written one after the other. -/
theorem Goes.flatMap {w : α → List WEvent} {tag : String} {r : XElem β} {a : α → β}
    {set : β → σ → σ} (hm : (tag, arm r set) ∈ arms) (hn : (arms.map (·.1)).Nodup) :
    ∀ {l : List α} {st : σ},
    (∀ y ∈ l, Reads ns (w y) tag r (a y)) → (∀ y ∈ l, WellFormed true (w y)) →
    Goes ns mode el arms (l.flatMap w) st ((l.map a).foldl (fun s y => set y s) st)
  | [], st, _, _ => Goes.nil
  | y :: l, st, h, hw => by
    rw [List.flatMap_cons, List.map_cons, List.foldl_cons]
    exact Goes.append (Goes.one (h y (.head _)) hm hn)
      (Goes.flatMap hm hn (fun z hz => h z (.tail _ hz)) (fun z hz => hw z (.tail _ hz)))
      (hw y (.head _))

theorem foldl_pushes {set : α → σ → σ} {setO : Option (List α) → σ → σ} {st : σ}
    (hset : ∀ l y, set y (setO (some l) st) = setO (some (l ++ [y])) st) :
    ∀ (l acc : List α), l.foldl (fun s y => set y s) (setO (some acc) st) =
      setO (some (acc ++ l)) st
  | [], acc => by simp
  | y :: l, acc => by
    rw [List.foldl_cons, hset, foldl_pushes hset l]
    simp

/-- Elements written one after the other, which the reader pushes to an optional vector
(`get_or_insert(Vec::new()).push(..)`). -/
theorem Goes.inline {w : α → List WEvent} {tag : String} {r : XElem α} {x : Option (List α)}
    {set : α → σ → σ} {st : σ} (setO : Option (List α) → σ → σ)
    (hm : (tag, arm r set) ∈ arms) (hn : (arms.map (·.1)).Nodup)
    (hset0 : ∀ y, set y st = setO (some [y]) st)
    (hset : ∀ l y, set y (setO (some l) st) = setO (some (l ++ [y])) st)
    (hnone : setO none st = st) (hne : x ≠ some [])
    (h : ∀ l, x = some l → ∀ y ∈ l, Reads ns (w y) tag r y) (hw : ∀ l : List α, ∀ y : α, WellFormed true (w y)) :
    Goes ns mode el arms (writeOpt (fun l => l.flatMap w) x) st (setO x st) := by
  cases x with
  | none =>
    rw [hnone]
    exact Goes.nil
  | some l =>
    have h' := Goes.flatMap (mode := mode) (el := el) (a := id) (st := st) hm hn (h l rfl) (fun y _ => hw l y)
    cases l with
    | nil => exact absurd rfl hne
    | cons y l =>
      rw [List.map_id, List.foldl_cons, hset0, foldl_pushes hset] at h'
      exact h'

/-- Elements written one after the other, which the reader pushes to a vector. -/
theorem Goes.inlineReq {w : α → List WEvent} {tag : String} {r : XElem α} {x : List α}
    {set : α → σ → σ} {st : σ} (setO : List α → σ → σ)
    (hm : (tag, arm r set) ∈ arms) (hn : (arms.map (·.1)).Nodup)
    (hset : ∀ l y, set y (setO l st) = setO (l ++ [y]) st)
    (hnone : setO [] st = st)
    (h : ∀ y ∈ x, Reads ns (w y) tag r y) (hw : ∀ y : α, WellFormed true (w y)) :
    Goes ns mode el arms (x.flatMap w) st (setO x st) := by
  have h' := Goes.flatMap (mode := mode) (el := el) (a := id) (st := st) hm hn h (fun y _ => hw y)
  rw [List.map_id] at h'
  have : ∀ (l acc : List α), l.foldl (fun s y => set y s) (setO acc st) = setO (acc ++ l) st := by
    intro l
    induction l with
    | nil => simp
    | cons y l ih => intro acc; rw [List.foldl_cons, hset, ih]; simp
  have h2 := this x []
  rw [hnone, List.nil_append] at h2
  rwa [h2] at h'

theorem congrPair {α β : Type} {a a' : α} {b b' : β} (h : a = a') (h' : b = b') :
    (a, b) = (a', b') := by rw [h, h']

theorem map_stable {display : α → String} {new : String → α} {x : Option α}
    (h : ∀ y, x = some y → Stable display new y) : (x.map display).map new = x := by
  cases x with
  | none => rfl
  | some y => exact congrArg some (h y rfl)

theorem reads_if {b : Bool} {w : List WEvent} {tag : String} {r : XElem α} {x : α} (hb : b = true)
    (h : Reads ns w tag r x) : Reads ns (if b = true then w else []) tag r x := by
  rwa [if_pos hb]

theorem reads_with {tag : String} {w : List WEvent} {attrs : List (String × String)}
    {pre : XName → List (String × String) → Except XErr ρ} {p : ρ} {r : XElem α} {x : α}
    {fin : ρ → α → β} {y : β} (h : Reads ns (writeElem tag attrs w) tag r x)
    (hp : pre ⟨tag, ns, none⟩ attrs = .ok p) (hf : fin p x = y) :
    Reads ns (writeElem tag attrs w) tag (readWith pre r fin) y := by
  obtain ⟨a, b, hd, hr⟩ := h
  have ha : a = attrs := by
    simp only [writeElem, deliver, List.cons.injEq, XEvent.start.injEq] at hd
    exact hd.1.2.1.symm
  subst ha
  refine ⟨a, b, hd, fun rest => ?_⟩
  simp only [readWith, hp, bind, Except.bind]
  rw [hr, ← hf]

theorem reads_struct {tag : String} {attrs : List (String × String)} {body : List WEvent}
    {pre : XName → List (String × String) → Except XErr ρ} {init st : σ} {p : ρ}
    {fin : XName → ρ → σ → Except XErr α} {x : α} (hb : WellFormed true body)
    (hp : pre ⟨tag, ns, none⟩ attrs = .ok p)
    (hs : Goes ns mode ⟨tag, ns, none⟩ arms body init st)
    (hf : fin ⟨tag, ns, none⟩ p st = .ok x) :
    Reads ns (writeElem tag attrs body) tag (readStruct mode pre init arms fin) x := by
  refine ⟨attrs, deliver ns [] body, deliver_elem hb ns, fun rest => ?_⟩
  simp only [readStruct, hp, bind, Except.bind]
  rw [hs, readFields_stop]
  simp only [hf]

theorem foldl_snoc (l : List α) : ∀ acc : List α,
    l.foldl (fun (s : List α) y => s ++ [y]) acc = acc ++ l := by
  induction l with
  | nil => simp
  | cons x l ih => intro acc; rw [List.foldl_cons, ih]; simp

theorem reads_listWith {tag inner : String} {w : α → List WEvent} {r : XElem β} {a : α → β}
    {l : List α} (h : ∀ y ∈ l, Reads ns (w y) inner r (a y)) (hw : ∀ y ∈ l, WellFormed true (w y)) :
    Reads ns (writeList tag w l) tag (readListWith mode inner r) (l.map a) := by
  refine ⟨[], deliver ns [] (l.flatMap w), deliver_elem (flatMap_wf hw) ns, fun rest => ?_⟩
  simp only [readListWith]
  rw [Goes.flatMap (r := r) (a := a) (set := fun x l => l ++ [x]) (.head _) (by simp) h hw,
    readFields_stop, foldl_snoc]
  rfl

theorem reads_list_at {tag inner : String} {w : α → List WEvent} {r : XElem β} {a : α → β}
    {l : List α} (h : ∀ y ∈ l, Reads ns (w y) inner r (a y)) (hw : ∀ y ∈ l, WellFormed true (w y)) :
    Reads ns (writeList tag w l) tag (readList inner r) (l.map a) := reads_listWith h hw

theorem reads_listLax_at {tag inner : String} {w : α → List WEvent} {r : XElem β} {a : α → β}
    {l : List α} (h : ∀ y ∈ l, Reads ns (w y) inner r (a y)) (hw : ∀ y ∈ l, WellFormed true (w y)) :
    Reads ns (writeList tag w l) tag (readListLax inner r) (l.map a) := reads_listWith h hw

theorem reads_list {tag inner : String} {w : α → List WEvent} {r : XElem α} {l : List α}
    (h : ∀ y ∈ l, Reads ns (w y) inner r y) (hw : ∀ y ∈ l, WellFormed true (w y)) :
    Reads ns (writeList tag w l) tag (readList inner r) l := by
  have := reads_list_at (tag := tag) (a := id) h hw
  rwa [List.map_id] at this

theorem reads_listLax {tag inner : String} {w : α → List WEvent} {r : XElem α} {l : List α}
    (h : ∀ y ∈ l, Reads ns (w y) inner r y) (hw : ∀ y ∈ l, WellFormed true (w y)) :
    Reads ns (writeList tag w l) tag (readListLax inner r) l := by
  have := reads_listLax_at (tag := tag) (a := id) h hw
  rwa [List.map_id] at this

theorem reads_listIgn_at {tag inner : String} {w : α → List WEvent} {r : XElem β} {a : α → β}
    {l : List α} (h : ∀ y ∈ l, Reads ns (w y) inner r (a y)) (hw : ∀ y ∈ l, WellFormed true (w y)) :
    Reads ns (writeList tag w l) tag (readListWith .ignore inner r) (l.map a) := reads_listWith h hw

theorem reads_listIgn {tag inner : String} {w : α → List WEvent} {r : XElem α} {l : List α}
    (h : ∀ y ∈ l, Reads ns (w y) inner r y) (hw : ∀ y ∈ l, WellFormed true (w y)) :
    Reads ns (writeList tag w l) tag (readListWith .ignore inner r) l := by
  have := reads_listIgn_at (tag := tag) (a := id) h hw
  rwa [List.map_id] at this

theorem reads_map {w : List WEvent} {tag : String} {r : XElem α} {x : α} {f : α → β}
    (h : Reads ns w tag r x) : Reads ns w tag (r.map f) (f x) := by
  obtain ⟨a, b, hd, hr⟩ := h
  exact ⟨a, b, hd, fun rest => by simp only [XElem.map]; rw [hr]; rfl⟩

theorem writeRef_one {loose tag r} : OneElement loose tag (writeRef tag r) :=
  writeElem_one (goodAttrs (by decide : ["ref"].Nodup)) .nil

theorem writeRef_wf {loose tag r} : WellFormed loose (writeRef tag r) := writeRef_one.wf

theorem reads_ref {tag r} : Reads ns (writeRef tag r) tag readRef r := by
  refine ⟨[("ref", r)], [], deliver_elem (loose := true) .nil ns, fun rest => ?_⟩
  simp [readRef, reqAttr, readClose, bind, Except.bind]

theorem reads_score [F32Format] {tag} {x : F32} (h : F32Format.parse (F32Format.display x) = some x) :
    Reads ns (writeSimple tag (F32Format.display x)) tag readScore x := by
  have ht : Trimmed (F32Format.display x) :=
    xmlTrim_none fun c hc => xmlSpace_of_not_whitespace (F32Format.no_space x c hc)
  obtain ⟨a, b, hd, hr⟩ := reads_simple (ns := ns) (tag := tag) ht
  refine ⟨a, b, hd, fun rest => ?_⟩
  simp only [readScore]
  rw [hr]
  simp only [bind, Except.bind, parseF32, h]

/-- Elements of a list written one after the other, with a step for each. -/
theorem Goes.each {w : α → List WEvent} {step : α → σ → σ} : ∀ {l : List α} {st : σ},
    (∀ y ∈ l, ∀ st, Goes ns mode el arms (w y) st (step y st)) →
    (∀ y ∈ l, WellFormed true (w y)) →
    Goes ns mode el arms (l.flatMap w) st (l.foldl (fun s y => step y s) st)
  | [], st, _, _ => Goes.nil
  | y :: l, st, h, hw => by
    rw [List.flatMap_cons, List.foldl_cons]
    exact Goes.append (h y (.head _) st)
      (Goes.each (fun z hz => h z (.tail _ hz)) (fun z hz => hw z (.tail _ hz))) (hw y (.head _))

end Cdx
