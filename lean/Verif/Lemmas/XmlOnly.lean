import Verif.Lemmas.Xml

set_option linter.unusedSectionVars false
set_option linter.unusedSimpArgs false

/-!
# What a successful reading of written XML says about what was written

The converse of the lemmas on `Reads` and `Goes`: reading what was written fails, or it yields a value
that satisfies a given property. For a value `x` the property is that the result is `x` only under
some condition, which is then shown to be the condition under which `x` is read back.
-/

namespace Cdx

variable {σ α β ρ : Type}

/-- Reading the element that `w` wrote with `r` fails, or yields a value that satisfies `P`. -/
def Tells (ns : Option String) (w : List WEvent) (tag : String) (r : XElem α) (P : α → Prop) : Prop :=
  ∃ attrs body,
    deliver ns [] w = .start ⟨tag, ns, none⟩ attrs ns :: (body ++ [.stop ⟨tag, ns, none⟩]) ∧
    ((∃ e, ∀ rest, r ⟨tag, ns, none⟩ attrs (body ++ .stop ⟨tag, ns, none⟩ :: rest) = .error e) ∨
      ∃ y, (∀ rest, r ⟨tag, ns, none⟩ attrs (body ++ .stop ⟨tag, ns, none⟩ :: rest) = .ok (y, rest)) ∧
        P y)

/-- The loop of a reader with another test for its end, with enough fuel for all its iterations. -/
def readTo (mode : Unknown) (isEnd : XName → Bool) (el : XName) (arms : List (String × Arm σ)) (st : σ) :
    XRead σ :=
  fun evs => readLoop mode isEnd el arms (evs.length + 1) st evs

/-- A test for the end of an element that no element with another name passes. -/
def Ends (isEnd : XName → Bool) (el : XName) : Prop := ∀ n, isEnd n = true → n.localName = el.localName

/-- Whatever the test for its end, the loop goes over what `w` wrote and changes the variables from
`st` to `st'`. -/
def Moves (ns : Option String) (mode : Unknown) (el : XName) (arms : List (String × Arm σ))
    (w : List WEvent) (st st' : σ) : Prop :=
  ∀ isEnd, Ends isEnd el → ∀ rest,
    readTo mode isEnd el arms st (deliver ns [] w ++ rest) = readTo mode isEnd el arms st' rest

/-- The loop fails on what `w` wrote, or goes over it and changes the variables from `st` to values
with `Q`. -/
def Turns (ns : Option String) (mode : Unknown) (el : XName) (arms : List (String × Arm σ))
    (w : List WEvent) (st : σ) (Q : σ → Prop) : Prop :=
  (∃ e, ∀ isEnd, Ends isEnd el → ∀ rest,
    readTo mode isEnd el arms st (deliver ns [] w ++ rest) = .error e) ∨
    ∃ st', Moves ns mode el arms w st st' ∧ Q st'

variable {ns : Option String} {mode : Unknown} {el : XName} {arms : List (String × Arm σ)}

theorem ends_self : Ends (fun n => n = el) el := by
  intro n h
  rw [of_decide_eq_true h]

theorem readTo_start (mode : Unknown) (isEnd : XName → Bool) (el : XName) (arms : List (String × Arm σ))
    (st : σ) (n : XName) (attrs) (ns) (l : List XEvent) :
    readTo mode isEnd el arms st (.start n attrs ns :: l) =
      match arms.lookup n.localName with
      | some act =>
        match act n attrs st l with
        | .ok (st', l') =>
          if l'.length ≤ l.length then readTo mode isEnd el arms st' l' else .error .stuck
        | .error e => .error e
      | none =>
        match mode with
        | .fail => .error (.unexpected el.localName)
        | .skip =>
          match skipElem [n] l with
          | .ok l' => if l'.length ≤ l.length then readTo mode isEnd el arms st l' else .error .stuck
          | .error e => .error e
        | .ignore => readTo mode isEnd el arms st l := by
  have ih : ∀ st (l' : List XEvent), l'.length ≤ l.length →
      readLoop mode isEnd el arms (l.length + 1) st l' =
        readLoop mode isEnd el arms (l'.length + 1) st l' :=
    fun st l' h => readLoop_fuel _ _ _ _ _ _ _ _ (by omega) (by omega)
  unfold readTo
  conv => lhs; unfold readLoop
  simp only [List.length_cons]
  cases arms.lookup n.localName with
  | some act =>
    simp only
    cases act n attrs st l with
    | error e => rfl
    | ok r =>
      obtain ⟨st', l'⟩ := r
      simp only
      split
      · exact ih _ _ ‹_›
      · rfl
  | none =>
    cases mode with
    | fail => rfl
    | ignore => rfl
    | skip =>
      simp only
      cases skipElem [n] l with
      | error e => rfl
      | ok l' =>
        simp only
        split
        · exact ih _ _ ‹_›
        · rfl

theorem Moves.nil {st : σ} : Moves ns mode el arms [] st st := fun _ _ _ => rfl

theorem Moves.goes {w : List WEvent} {st st' : σ} (h : Moves ns mode el arms w st st') :
    Goes ns mode el arms w st st' := h _ ends_self

theorem Moves.append {a b : List WEvent} {s1 s2 s3 : σ} (h1 : Moves ns mode el arms a s1 s2)
    (h2 : Moves ns mode el arms b s2 s3) (ha : WellFormed true a) : Moves ns mode el arms (a ++ b) s1 s3 := by
  intro isEnd hi rest
  rw [deliver_append ha, List.append_assoc, h1 isEnd hi, h2 isEnd hi]

/-! ## Elements -/

theorem Tells.imp {w : List WEvent} {tag : String} {r : XElem α} {P Q : α → Prop}
    (h : Tells ns w tag r P) (hpq : ∀ y, P y → Q y) : Tells ns w tag r Q := by
  obtain ⟨a, b, hd, h⟩ := h
  refine ⟨a, b, hd, ?_⟩
  rcases h with h | ⟨y, hr, hp⟩
  · exact .inl h
  · exact .inr ⟨y, hr, hpq y hp⟩

theorem Reads.tells {w : List WEvent} {tag : String} {r : XElem α} {y : α} {P : α → Prop}
    (h : Reads ns w tag r y) (hp : P y) : Tells ns w tag r P := by
  obtain ⟨a, b, hd, hr⟩ := h
  exact ⟨a, b, hd, .inr ⟨y, hr, hp⟩⟩

/-- What is read back for sure: nothing is asked of it. -/
theorem Reads.only {w : List WEvent} {tag : String} {r : XElem α} {y z : α}
    (h : Reads ns w tag r y) : Tells ns w tag r (fun a => a = z → True) :=
  h.tells fun _ => trivial

theorem Tells.read {w : List WEvent} {tag : String} {r : XElem α} {P : α → Prop} {y : α}
    (h : Tells ns w tag r P) (hr : Reads ns w tag r y) : P y := by
  obtain ⟨a, b, hd, h⟩ := h
  obtain ⟨a', b', hd', hr⟩ := hr
  rw [hd] at hd'
  simp only [List.cons.injEq, XEvent.start.injEq, List.append_cancel_right_eq] at hd'
  obtain ⟨⟨-, rfl, -⟩, rfl⟩ := hd'
  rcases h with ⟨e, he⟩ | ⟨z, hz, hp⟩
  · have := (he []).symm.trans (hr [])
    cases this
  · have := (hz []).symm.trans (hr [])
    cases this
    exact hp

theorem Tells.ne_nil {w : List WEvent} {tag : String} {r : XElem α} {P : α → Prop}
    (h : Tells ns w tag r P) : w ≠ [] := by
  obtain ⟨a, b, hd, -⟩ := h
  rintro rfl
  cases hd

theorem reads_trimmed {tag attrs s} :
    Reads ns (writeElem tag attrs [.chars s]) tag readSimple (xmlTrim s) := by
  by_cases hs : xmlTrim s = ""
  · refine ⟨attrs, [], ?_, fun rest => ?_⟩
    · simp [writeElem, deliver, hs]
    · rw [hs]; rfl
  · refine ⟨attrs, [.chars (xmlTrim s)], ?_, fun rest => ?_⟩
    · simp [writeElem, deliver, hs]
    · simp [readSimple, readClose, bind, Except.bind]

theorem tells_text {tag attrs s} :
    Tells ns (writeElem tag attrs [.chars s]) tag readSimple (fun y => y = s → Trimmed s) :=
  reads_trimmed.tells id

theorem tells_simple {tag s} :
    Tells ns (writeSimple tag s) tag readSimple (fun y => y = s → Trimmed s) :=
  tells_text (attrs := [])

theorem tells_map {w : List WEvent} {tag : String} {r : XElem α} {P : α → Prop} {f : α → β}
    {Q : β → Prop} (h : Tells ns w tag r P) (hq : ∀ y, P y → Q (f y)) :
    Tells ns w tag (r.map f) Q := by
  obtain ⟨a, b, hd, h⟩ := h
  refine ⟨a, b, hd, ?_⟩
  rcases h with ⟨e, he⟩ | ⟨y, hy, hp⟩
  · exact .inl ⟨e, fun rest => by simp only [XElem.map]; rw [he]; rfl⟩
  · exact .inr ⟨f y, fun rest => by simp only [XElem.map]; rw [hy]; rfl, hq y hp⟩

/-- A value of an enumeration. -/
theorem tells_enum {tag} {display : α → String} {new : String → α} {x : α} {C : Prop}
    (h : new (xmlTrim (display x)) = x → C) :
    Tells ns (writeSimple tag (display x)) tag (readSimple.map new) (fun y => y = x → C) :=
  (reads_map (reads_trimmed (attrs := []))).tells h

theorem tells_inner {tag attrs s} :
    Tells ns (writeElem tag attrs [.chars s]) tag readInner (fun y => y = s → Trimmed s ∧ s ≠ "") := by
  by_cases hs : xmlTrim s = ""
  · refine ⟨attrs, [], ?_, .inl ⟨.unexpected tag, fun rest => ?_⟩⟩
    · simp [writeElem, deliver, hs]
    · simp [readInner, readText, bind, Except.bind]
  · refine ⟨attrs, [.chars (xmlTrim s)], ?_, .inr ⟨xmlTrim s, fun rest => ?_, ?_⟩⟩
    · simp [writeElem, deliver, hs]
    · simp [readInner, readText, readClose, bind, Except.bind]
    · intro h
      refine ⟨h, fun e => hs ?_⟩
      rw [h, e]

theorem tells_bool {tag b} :
    Tells ns (writeSimple tag (boolStr b)) tag readBool (fun y => y = b → True) := reads_bool.only

theorem tells_ref {tag r} :
    Tells ns (writeRef tag r) tag readRef (fun y => y = r → True) := reads_ref.only

theorem tells_always {tag : String} {o : Option String} :
    Tells ns (writeSimple tag (o.getD "")) tag readOptional
      (fun y => y = o → ∀ s, o = some s → Trimmed s ∧ s ≠ "") := by
  by_cases hs : xmlTrim (o.getD "") = ""
  · refine ⟨[], [], ?_, .inr ⟨none, fun rest => ?_, ?_⟩⟩
    · simp [writeSimple, deliver, hs]
    · simp [readOptional]
    · intro h s e
      rw [← h] at e
      cases e
  · refine ⟨[], [.chars (xmlTrim (o.getD ""))], ?_, .inr ⟨some (xmlTrim (o.getD "")), fun rest => ?_, ?_⟩⟩
    · simp [writeSimple, deliver, hs]
    · simp [readOptional, readClose, bind, Except.bind]
    · rintro h s rfl
      refine ⟨Option.some.inj h, ?_⟩
      rintro rfl
      exact hs (Option.some.inj h)

theorem parseU32_bound {s : String} {n : Nat} (h : parseU32 s = some n) : n < 2 ^ 32 := by
  have key : ∀ ds : List Char, (if (ds.isEmpty || !ds.all Char.isDigit) = true then none
      else if Nat.ofDigitChars 10 ds 0 < 2 ^ 32 then some (Nat.ofDigitChars 10 ds 0) else none) = some n →
      n < 2 ^ 32 := by
    intro ds h
    split at h
    · cases h
    · split at h
      · cases h; assumption
      · cases h
  unfold parseU32 at h
  exact key _ h

theorem tells_u32 {tag n} :
    Tells ns (writeSimple tag (showNat n)) tag readU32 (fun y => y = n → n < 2 ^ 32) := by
  obtain ⟨a, b, hd, hr⟩ := reads_text (ns := ns) (tag := tag) (attrs := []) (showNat_trimmed n)
  refine ⟨[], [.chars (showNat n)], ?_, ?_⟩
  · have h' : xmlTrim (showNat n) = showNat n := showNat_trimmed n
    simp [writeSimple, deliver, h', showNat_ne]
  · cases hp : parseU32 (trim (showNat n)) with
    | none => exact .inl ⟨_, fun rest => by
        simp only [readU32, readText, List.cons_append, List.nil_append, bind, Except.bind, hp]; rfl⟩
    | some m => exact .inr ⟨m, fun rest => by
        simp [readU32, readText, readClose, bind, Except.bind, hp], fun e => e ▸ parseU32_bound hp⟩

theorem tells_score [F32Format] {tag} {x : F32} :
    Tells ns (writeSimple tag (F32Format.display x)) tag readScore
      (fun y => y = x → F32Format.parse (F32Format.display x) = some x) := by
  have ht : Trimmed (F32Format.display x) :=
    xmlTrim_none fun c hc => xmlSpace_of_not_whitespace (F32Format.no_space x c hc)
  obtain ⟨a, b, hd, hr⟩ := reads_simple (ns := ns) (tag := tag) ht
  refine ⟨a, b, hd, ?_⟩
  cases hp : F32Format.parse (F32Format.display x) with
  | none => exact .inl ⟨_, fun rest => by
      simp only [readScore]; rw [hr]; simp only [bind, Except.bind, parseF32, hp]; rfl⟩
  | some y => exact .inr ⟨y, fun rest => by
      simp only [readScore]; rw [hr]; simp only [bind, Except.bind, parseF32, hp],
      fun e => by rw [e]⟩

theorem tells_with {tag : String} {w : List WEvent} {attrs : List (String × String)}
    {pre : XName → List (String × String) → Except XErr ρ} {p : ρ} {r : XElem α} {P : α → Prop}
    {fin : ρ → α → β} {Q : β → Prop} (h : Tells ns (writeElem tag attrs w) tag r P)
    (hp : pre ⟨tag, ns, none⟩ attrs = .ok p) (hf : ∀ x, P x → Q (fin p x)) :
    Tells ns (writeElem tag attrs w) tag (readWith pre r fin) Q := by
  obtain ⟨a, b, hd, h⟩ := h
  have ha : a = attrs := by
    simp only [writeElem, deliver, List.cons.injEq, XEvent.start.injEq] at hd
    exact hd.1.2.1.symm
  subst ha
  refine ⟨a, b, hd, ?_⟩
  rcases h with ⟨e, he⟩ | ⟨y, hy, hP⟩
  · exact .inl ⟨e, fun rest => by simp only [readWith, hp, bind, Except.bind]; rw [he]⟩
  · exact .inr ⟨fin p y, fun rest => by simp only [readWith, hp, bind, Except.bind]; rw [hy],
      hf y hP⟩

theorem tells_struct {tag : String} {attrs : List (String × String)} {body : List WEvent}
    {pre : XName → List (String × String) → Except XErr ρ} {init : σ} {p : ρ}
    {fin : XName → ρ → σ → Except XErr α} {x : α} {C : Prop} (hb : WellFormed true body)
    (hp : pre ⟨tag, ns, none⟩ attrs = .ok p)
    (hs : Turns ns mode ⟨tag, ns, none⟩ arms body init
      (fun st => fin ⟨tag, ns, none⟩ p st = .ok x → C)) :
    Tells ns (writeElem tag attrs body) tag (readStruct mode pre init arms fin)
      (fun y => y = x → C) := by
  refine ⟨attrs, deliver ns [] body, deliver_elem hb ns, ?_⟩
  simp only [readStruct, hp, bind, Except.bind]
  rcases hs with ⟨e, he⟩ | ⟨st, hg, hq⟩
  · exact .inl ⟨e, fun rest => by rw [show readFields _ _ _ _ _ = _ from he _ ends_self _]⟩
  · have hg := hg.goes
    cases hf : fin ⟨tag, ns, none⟩ p st with
    | error e => exact .inl ⟨e, fun rest => by rw [hg, readFields_stop]; simp only [hf]⟩
    | ok y => exact .inr ⟨y, fun rest => by rw [hg, readFields_stop]; simp only [hf],
        fun e => hq (by rw [hf, e])⟩

/-! ## The loop -/

theorem Turns.nil {st : σ} {Q : σ → Prop} (h : Q st) : Turns ns mode el arms [] st Q :=
  .inr ⟨st, Moves.nil, h⟩

theorem Turns.imp {w : List WEvent} {st : σ} {P Q : σ → Prop} (h : Turns ns mode el arms w st P)
    (hpq : ∀ s, P s → Q s) : Turns ns mode el arms w st Q := by
  rcases h with h | ⟨s, hg, hp⟩
  · exact .inl h
  · exact .inr ⟨s, hg, hpq s hp⟩

theorem Turns.then {a b : List WEvent} {st : σ} {P Q : σ → Prop} (ha : WellFormed true a)
    (h1 : Turns ns mode el arms a st P) (h2 : ∀ s, P s → Turns ns mode el arms b s Q) :
    Turns ns mode el arms (a ++ b) st Q := by
  rcases h1 with ⟨e, he⟩ | ⟨s, hg, hp⟩
  · exact .inl ⟨e, fun isEnd hi rest => by rw [deliver_append ha, List.append_assoc, he isEnd hi]⟩
  · rcases h2 s hp with ⟨e, he⟩ | ⟨s', hg', hq⟩
    · exact .inl ⟨e, fun isEnd hi rest => by
        rw [deliver_append ha, List.append_assoc, hg isEnd hi, he isEnd hi]⟩
    · exact .inr ⟨s', hg.append hg' ha, hq⟩

theorem Turns.one {w : List WEvent} {tag : String} {r : XElem α} {set : α → σ → σ} {st : σ}
    {P : α → Prop} (h : Tells ns w tag r P) (hm : (tag, arm r set) ∈ arms)
    (hn : (arms.map (·.1)).Nodup) :
    Turns ns mode el arms w st (fun s => ∃ y, s = set y st ∧ P y) := by
  obtain ⟨attrs, body, hd, h⟩ := h
  rcases h with ⟨e, he⟩ | ⟨y, hr, hp⟩
  · refine .inl ⟨e, fun isEnd hi rest => ?_⟩
    rw [hd]
    simp only [List.cons_append, List.append_assoc, List.nil_append]
    rw [readTo_start, lookup_of_mem hn hm]
    simp only [arm]
    rw [he]
    rfl
  · refine .inr ⟨_, fun isEnd hi rest => ?_, y, rfl, hp⟩
    rw [hd]
    simp only [List.cons_append, List.append_assoc, List.nil_append]
    rw [readTo_start, lookup_of_mem hn hm]
    simp only [arm]
    rw [hr]
    simp only [bind, Except.bind]
    rw [if_pos (by simp; omega)]

theorem Turns.once {w : List WEvent} {tag : String} {r : XElem α} {isSet : σ → Bool}
    {set : α → σ → σ} {st : σ} {P : α → Prop} (h : Tells ns w tag r P)
    (hm : (tag, armOnce r isSet set) ∈ arms) (hn : (arms.map (·.1)).Nodup) (hs : isSet st = false) :
    Turns ns mode el arms w st (fun s => ∃ y, s = set y st ∧ P y) := by
  obtain ⟨attrs, body, hd, h⟩ := h
  rcases h with ⟨e, he⟩ | ⟨y, hr, hp⟩
  · refine .inl ⟨e, fun isEnd hi rest => ?_⟩
    rw [hd]
    simp only [List.cons_append, List.append_assoc, List.nil_append]
    rw [readTo_start, lookup_of_mem hn hm]
    simp only [armOnce, hs, arm]
    rw [if_neg (by simp), he]
    rfl
  · refine .inr ⟨_, fun isEnd hi rest => ?_, y, rfl, hp⟩
    rw [hd]
    simp only [List.cons_append, List.append_assoc, List.nil_append]
    rw [readTo_start, lookup_of_mem hn hm]
    simp only [armOnce, hs, arm]
    rw [if_neg (by simp), hr]
    simp only [bind, Except.bind]
    rw [if_pos (by simp; omega)]

/-- A required field; the new state is given by `nx`. -/
theorem Turns.req {w : List WEvent} {tag : String} {r : XElem α} {set : α → σ → σ} {st : σ}
    {P : α → Prop} (nx : α → σ) (hm : (tag, arm r set) ∈ arms)
    (hn : (arms.map (·.1)).Nodup) (hset : ∀ y, set y st = nx y) (h : Tells ns w tag r P) :
    Turns ns mode el arms w st (fun s => ∃ y, s = nx y ∧ P y) :=
  (Turns.one h hm hn).imp fun _ ⟨y, e, hp⟩ => ⟨y, e.trans (hset y), hp⟩

/-- Nothing, or an element. -/
def Part (ns : Option String) (w : List WEvent) (tag : String) (r : XElem α) (P : α → Prop) : Prop :=
  w = [] ∨ Tells ns w tag r P

theorem Tells.part {w : List WEvent} {tag : String} {r : XElem α} {P : α → Prop}
    (h : Tells ns w tag r P) : Part ns w tag r P := .inr h

theorem part_if {b : Bool} {w : List WEvent} {tag : String} {r : XElem α} {x : α} {C : Prop}
    (h : Tells ns w tag r (fun y => y = x → C)) :
    Part ns (if b = true then w else []) tag r (fun y => y = x → C ∧ b = true) := by
  cases b with
  | true => exact .inr (h.imp fun y hy e => ⟨hy e, rfl⟩)
  | false => exact .inl rfl

/-- An optional field that is read back changed by `a`; the new state is given by `nx`. -/
theorem Turns.opt_at {w : α → List WEvent} {tag : String} {r : XElem β} {x : Option α} {a : α → β}
    {set : β → σ → σ} {st : σ} {C : α → Prop} (nx : Option β → σ)
    (hm : (tag, arm r set) ∈ arms) (hn : (arms.map (·.1)).Nodup)
    (hset : ∀ y, set y st = nx (some y)) (hnone : nx none = st)
    (h : ∀ y, x = some y → Part ns (w y) tag r (fun z => z = a y → C y)) :
    Turns ns mode el arms (writeOpt w x) st
      (fun s => ∃ o, s = nx o ∧ (o = x.map a → ∀ y, x = some y → C y)) := by
  cases x with
  | none => exact Turns.nil ⟨none, hnone.symm, fun _ y e => nomatch e⟩
  | some y =>
    rcases h y rfl with h | h
    · simp only [writeOpt, h]
      exact Turns.nil ⟨none, hnone.symm, fun e => nomatch e⟩
    · refine (Turns.one h hm hn).imp ?_
      rintro _ ⟨z, rfl, hz⟩
      refine ⟨some z, hset z, fun e y' e' => ?_⟩
      cases e'
      exact hz (Option.some.inj e)

/-- An optional field. -/
theorem Turns.opt {w : α → List WEvent} {tag : String} {r : XElem α} {x : Option α}
    {set : α → σ → σ} {st : σ} {C : α → Prop} (nx : Option α → σ)
    (hm : (tag, arm r set) ∈ arms) (hn : (arms.map (·.1)).Nodup)
    (hset : ∀ y, set y st = nx (some y)) (hnone : nx none = st)
    (h : ∀ y, x = some y → Part ns (w y) tag r (fun z => z = y → C y)) :
    Turns ns mode el arms (writeOpt w x) st
      (fun s => ∃ o, s = nx o ∧ (o = x → ∀ y, x = some y → C y)) := by
  have := Turns.opt_at (mode := mode) (el := el) (a := id) nx hm hn hset hnone h
  rwa [Option.map_id] at this

/-- Elements of a list written one after the other. -/
theorem Turns.flatMap {w : α → List WEvent} {tag : String} {r : XElem β} {a : α → β}
    {set : β → σ → σ} {C : α → Prop} (hm : (tag, arm r set) ∈ arms) (hn : (arms.map (·.1)).Nodup) :
    ∀ {l : List α} {st : σ},
    (∀ y ∈ l, Part ns (w y) tag r (fun z => z = a y → C y)) → (∀ y ∈ l, WellFormed true (w y)) →
    Turns ns mode el arms (l.flatMap w) st (fun s => ∃ zs : List β,
      s = zs.foldl (fun s y => set y s) st ∧ zs.length ≤ l.length ∧ (zs = l.map a → ∀ y ∈ l, C y))
  | [], st, _, _ => Turns.nil ⟨[], rfl, Nat.le_refl _, fun _ _ h => nomatch h⟩
  | y :: l, st, h, hw => by
    rw [List.flatMap_cons]
    have ih := fun s : σ => Turns.flatMap hm hn (l := l) (st := s)
      (fun z hz => h z (.tail _ hz)) (fun z hz => hw z (.tail _ hz))
    rcases h y (.head _) with hy | hy
    · rw [hy, List.nil_append]
      refine (ih st).imp ?_
      rintro _ ⟨zs, rfl, hl, hc⟩
      refine ⟨zs, rfl, Nat.le_succ_of_le hl, fun e => ?_⟩
      rw [e] at hl
      simp at hl
      omega
    · refine Turns.then (hw y (.head _)) (Turns.one hy hm hn) ?_
      rintro _ ⟨z, rfl, hz⟩
      refine (ih _).imp ?_
      rintro _ ⟨zs, rfl, hl, hc⟩
      refine ⟨z :: zs, rfl, Nat.succ_le_succ hl, fun e => ?_⟩
      rw [List.map_cons, List.cons.injEq] at e
      intro y' hy'
      cases hy' with
      | head => exact hz e.1
      | tail _ h' => exact hc e.2 y' h'

theorem tells_listWith {tag inner : String} {w : α → List WEvent} {r : XElem β} {a : α → β}
    {l : List α} {C : α → Prop} (h : ∀ y ∈ l, Part ns (w y) inner r (fun z => z = a y → C y))
    (hw : ∀ y ∈ l, WellFormed true (w y)) :
    Tells ns (writeList tag w l) tag (readListWith mode inner r)
      (fun zs => zs = l.map a → ∀ y ∈ l, C y) := by
  refine ⟨[], deliver ns [] (l.flatMap w), deliver_elem (flatMap_wf hw) ns, ?_⟩
  simp only [readListWith]
  rcases Turns.flatMap (mode := mode) (el := ⟨tag, ns, none⟩) (st := [])
    (arms := [(inner, arm r fun x l => l ++ [x])]) (.head _) (by simp) h hw with ⟨e, he⟩ | ⟨st, hg, zs, rfl, -, hc⟩
  · exact .inl ⟨e, fun rest => he _ ends_self _⟩
  · exact .inr ⟨zs, fun rest => by rw [hg.goes, readFields_stop, foldl_snoc, List.nil_append], hc⟩

theorem tells_list_at {tag inner : String} {w : α → List WEvent} {r : XElem β} {a : α → β}
    {l : List α} {C : α → Prop} (h : ∀ y ∈ l, Part ns (w y) inner r (fun z => z = a y → C y))
    (hw : ∀ y ∈ l, WellFormed true (w y)) :
    Tells ns (writeList tag w l) tag (readList inner r) (fun zs => zs = l.map a → ∀ y ∈ l, C y) :=
  tells_listWith h hw

theorem tells_listLax_at {tag inner : String} {w : α → List WEvent} {r : XElem β} {a : α → β}
    {l : List α} {C : α → Prop} (h : ∀ y ∈ l, Part ns (w y) inner r (fun z => z = a y → C y))
    (hw : ∀ y ∈ l, WellFormed true (w y)) :
    Tells ns (writeList tag w l) tag (readListLax inner r) (fun zs => zs = l.map a → ∀ y ∈ l, C y) :=
  tells_listWith h hw

theorem tells_list {tag inner : String} {w : α → List WEvent} {r : XElem α}
    {l : List α} {C : α → Prop} (h : ∀ y ∈ l, Part ns (w y) inner r (fun z => z = y → C y))
    (hw : ∀ y ∈ l, WellFormed true (w y)) :
    Tells ns (writeList tag w l) tag (readList inner r) (fun zs => zs = l → ∀ y ∈ l, C y) := by
  have := tells_list_at (tag := tag) (a := id) h hw
  rwa [List.map_id] at this

theorem tells_listLax {tag inner : String} {w : α → List WEvent} {r : XElem α}
    {l : List α} {C : α → Prop} (h : ∀ y ∈ l, Part ns (w y) inner r (fun z => z = y → C y))
    (hw : ∀ y ∈ l, WellFormed true (w y)) :
    Tells ns (writeList tag w l) tag (readListLax inner r) (fun zs => zs = l → ∀ y ∈ l, C y) := by
  have := tells_listLax_at (tag := tag) (a := id) h hw
  rwa [List.map_id] at this

theorem tells_listIgn {tag inner : String} {w : α → List WEvent} {r : XElem α}
    {l : List α} {C : α → Prop} (h : ∀ y ∈ l, Part ns (w y) inner r (fun z => z = y → C y))
    (hw : ∀ y ∈ l, WellFormed true (w y)) :
    Tells ns (writeList tag w l) tag (readListWith .ignore inner r) (fun zs => zs = l → ∀ y ∈ l, C y) := by
  have := tells_listWith (ns := ns) (mode := .ignore) (tag := tag) (a := id) h hw
  rwa [List.map_id] at this

/-- Elements written one after the other, which the reader pushes to an optional vector. -/
theorem Turns.inline {w : α → List WEvent} {tag : String} {r : XElem α} {x : Option (List α)}
    {set : α → σ → σ} {st : σ} {C : α → Prop} (nx : Option (List α) → σ)
    (hm : (tag, arm r set) ∈ arms) (hn : (arms.map (·.1)).Nodup)
    (hset0 : ∀ y, set y st = nx (some [y]))
    (hset : ∀ l y, set y (nx (some l)) = nx (some (l ++ [y])))
    (hnone : nx none = st)
    (h : ∀ l, x = some l → ∀ y ∈ l, Part ns (w y) tag r (fun z => z = y → C y))
    (hw : ∀ l : List α, ∀ y : α, WellFormed true (w y)) :
    Turns ns mode el arms (writeOpt (fun l => l.flatMap w) x) st
      (fun s => ∃ o, s = nx o ∧ (o = x → x ≠ some [] ∧ ∀ l, x = some l → ∀ y ∈ l, C y)) := by
  cases x with
  | none => exact Turns.nil ⟨none, hnone.symm, fun _ => ⟨nofun, fun y e => nomatch e⟩⟩
  | some l =>
    refine (Turns.flatMap (mode := mode) (el := el) (a := id) (st := st) hm hn (h l rfl)
      (fun y _ => hw l y)).imp ?_
    rintro _ ⟨zs, rfl, hl, hc⟩
    rw [List.map_id] at hc
    cases zs with
    | nil => exact ⟨none, hnone.symm, fun e => nomatch e⟩
    | cons z zs =>
      refine ⟨some (z :: zs), ?_, fun e => ?_⟩
      · rw [List.foldl_cons, hset0]
        exact foldl_pushes (st := st) (setO := fun o _ => nx o) hset zs [z]
      · cases e
        refine ⟨nofun, fun l' e' => ?_⟩
        cases e'
        exact hc rfl

/-- Elements written one after the other, which the reader pushes to a vector. -/
theorem Turns.inlineReq {w : α → List WEvent} {tag : String} {r : XElem β} {x : List α} {a : α → β}
    {set : β → σ → σ} {st : σ} {C : α → Prop} (nx : List β → σ)
    (hm : (tag, arm r set) ∈ arms) (hn : (arms.map (·.1)).Nodup)
    (hset : ∀ l y, set y (nx l) = nx (l ++ [y]))
    (hnone : nx [] = st)
    (h : ∀ y ∈ x, Part ns (w y) tag r (fun z => z = a y → C y)) (hw : ∀ y : α, WellFormed true (w y)) :
    Turns ns mode el arms (x.flatMap w) st
      (fun s => ∃ l, s = nx l ∧ (l = x.map a → ∀ y ∈ x, C y)) := by
  refine (Turns.flatMap (mode := mode) (el := el) (a := a) (st := st) hm hn h (fun y _ => hw y)).imp ?_
  rintro _ ⟨zs, rfl, hl, hc⟩
  refine ⟨zs, ?_, hc⟩
  have : ∀ (l acc : List β), l.foldl (fun s y => set y s) (nx acc) = nx (acc ++ l) := by
    intro l
    induction l with
    | nil => simp
    | cons y l ih => intro acc; rw [List.foldl_cons, hset, ih]; simp
  rw [← hnone, this, List.nil_append]

/-- Elements of a list written one after the other, which the reader appends to a list. -/
theorem Turns.each {arms : List (String × Arm (List β))} {w : α → List WEvent} {a : α → β}
    {C : α → Prop} : ∀ {l : List α} {st : List β},
    (∀ y ∈ l, ∀ st, Turns ns mode el arms (w y) st (fun s => ∃ z, s = st ++ [z] ∧ (z = a y → C y))) →
    (∀ y ∈ l, WellFormed true (w y)) →
    Turns ns mode el arms (l.flatMap w) st
      (fun s => ∃ zs, s = st ++ zs ∧ (zs = l.map a → ∀ y ∈ l, C y))
  | [], st, _, _ => Turns.nil ⟨[], by simp, fun _ _ h => nomatch h⟩
  | y :: l, st, h, hw => by
    rw [List.flatMap_cons]
    refine Turns.then (hw y (.head _)) (h y (.head _) st) ?_
    rintro _ ⟨z, rfl, hz⟩
    refine (Turns.each (fun z hz => h z (.tail _ hz)) (fun z hz => hw z (.tail _ hz))).imp ?_
    rintro _ ⟨zs, rfl, hc⟩
    refine ⟨z :: zs, by simp, fun e => ?_⟩
    rw [List.map_cons, List.cons.injEq] at e
    intro y' hy'
    cases hy' with
    | head => exact hz e.1
    | tail _ h' => exact hc e.2 y' h'

/-- A loop that drops what it does not know goes over unknown elements. -/
theorem Turns.same {w : List WEvent} {st : σ} (h : Moves ns mode el arms w st st) :
    Turns ns mode el arms w st (fun s => s = st) := .inr ⟨st, h, rfl⟩

/-! ## States given by an update -/

theorem Turns.optS {w : α → List WEvent} {tag : String} {r : XElem α} {x : Option α}
    {set : α → σ → σ} {st : σ} {C : α → Prop} (setO : Option α → σ → σ)
    (hm : (tag, arm r set) ∈ arms) (hn : (arms.map (·.1)).Nodup)
    (hset : ∀ y, set y st = setO (some y) st) (hnone : setO none st = st)
    (h : ∀ y, x = some y → Part ns (w y) tag r (fun z => z = y → C y)) :
    Turns ns mode el arms (writeOpt w x) st
      (fun s => ∃ o, s = setO o st ∧ (o = x → ∀ y, x = some y → C y)) :=
  Turns.opt (fun o => setO o st) hm hn hset hnone h

theorem Turns.optS_at {w : α → List WEvent} {tag : String} {r : XElem β} {x : Option α} {a : α → β}
    {set : β → σ → σ} {st : σ} {C : α → Prop} (setO : Option β → σ → σ)
    (hm : (tag, arm r set) ∈ arms) (hn : (arms.map (·.1)).Nodup)
    (hset : ∀ y, set y st = setO (some y) st) (hnone : setO none st = st)
    (h : ∀ y, x = some y → Part ns (w y) tag r (fun z => z = a y → C y)) :
    Turns ns mode el arms (writeOpt w x) st
      (fun s => ∃ o, s = setO o st ∧ (o = x.map a → ∀ y, x = some y → C y)) :=
  Turns.opt_at (fun o => setO o st) hm hn hset hnone h

theorem Turns.inlineS {w : α → List WEvent} {tag : String} {r : XElem α} {x : Option (List α)}
    {set : α → σ → σ} {st : σ} {C : α → Prop} (setO : Option (List α) → σ → σ)
    (hm : (tag, arm r set) ∈ arms) (hn : (arms.map (·.1)).Nodup)
    (hset0 : ∀ y, set y st = setO (some [y]) st)
    (hset : ∀ l y, set y (setO (some l) st) = setO (some (l ++ [y])) st)
    (hnone : setO none st = st)
    (h : ∀ l, x = some l → ∀ y ∈ l, Part ns (w y) tag r (fun z => z = y → C y))
    (hw : ∀ l : List α, ∀ y : α, WellFormed true (w y)) :
    Turns ns mode el arms (writeOpt (fun l => l.flatMap w) x) st
      (fun s => ∃ o, s = setO o st ∧ (o = x → x ≠ some [] ∧ ∀ l, x = some l → ∀ y ∈ l, C y)) :=
  Turns.inline (fun o => setO o st) hm hn hset0 hset hnone h hw

theorem Turns.inlineReqS {w : α → List WEvent} {tag : String} {r : XElem α} {x : List α}
    {set : α → σ → σ} {st : σ} {C : α → Prop} (setO : List α → σ → σ)
    (hm : (tag, arm r set) ∈ arms) (hn : (arms.map (·.1)).Nodup)
    (hset : ∀ l y, set y (setO l st) = setO (l ++ [y]) st)
    (hnone : setO [] st = st)
    (h : ∀ y ∈ x, Part ns (w y) tag r (fun z => z = y → C y)) (hw : ∀ y : α, WellFormed true (w y)) :
    Turns ns mode el arms (x.flatMap w) st
      (fun s => ∃ l, s = setO l st ∧ (l = x → ∀ y ∈ x, C y)) := by
  have := Turns.inlineReq (ns := ns) (mode := mode) (el := el) (a := id) (fun o => setO o st) hm hn hset
    hnone h hw
  rwa [List.map_id] at this

/-- Elements that fail to be read, or yield a value with a property. -/
theorem tells_fields {tag : String} {attrs : List (String × String)} {body : List WEvent}
    {pre : XName → List (String × String) → Except XErr ρ} {init : σ} {p : ρ}
    {fin : XName → ρ → σ → Except XErr α} {P : α → Prop} (hb : WellFormed true body)
    (hp : pre ⟨tag, ns, none⟩ attrs = .ok p)
    (hs : Turns ns mode ⟨tag, ns, none⟩ arms body init
      (fun st => ∀ y, fin ⟨tag, ns, none⟩ p st = .ok y → P y)) :
    Tells ns (writeElem tag attrs body) tag (readStruct mode pre init arms fin) P := by
  refine ⟨attrs, deliver ns [] body, deliver_elem hb ns, ?_⟩
  simp only [readStruct, hp, bind, Except.bind]
  rcases hs with ⟨e, he⟩ | ⟨st, hg, hq⟩
  · exact .inl ⟨e, fun rest => by rw [show readFields _ _ _ _ _ = _ from he _ ends_self _]⟩
  · have hg := hg.goes
    cases hf : fin ⟨tag, ns, none⟩ p st with
    | error e => exact .inl ⟨e, fun rest => by rw [hg, readFields_stop]; simp only [hf]⟩
    | ok y => exact .inr ⟨y, fun rest => by rw [hg, readFields_stop]; simp only [hf], hq y hf⟩

/-- An unknown element fails where nothing unknown is allowed. -/
theorem Turns.unknown {tag : String} {attrs : List (String × String)} {body : List WEvent} {st : σ}
    {Q : σ → Prop} (hb : WellFormed true body) (hl : arms.lookup tag = none) :
    Turns ns .fail el arms (writeElem tag attrs body) st Q := by
  refine .inl ⟨.unexpected el.localName, fun isEnd hi rest => ?_⟩
  rw [deliver_elem hb ns, List.cons_append, readTo_start]
  simp only [hl]

/-- A loop that ignores what it does not know goes over an unknown element and over its content. -/
theorem Moves.ignored {tag : String} {attrs : List (String × String)} {body : List WEvent} {st : σ}
    (hb : WellFormed true body) (hl : arms.lookup tag = none) (hne : tag ≠ el.localName)
    (h : Moves ns .ignore el arms body st st) :
    Moves ns .ignore el arms (writeElem tag attrs body) st st := by
  intro isEnd hi rest
  rw [deliver_elem hb ns, List.cons_append, readTo_start]
  simp only [hl]
  rw [List.append_assoc, h isEnd hi, List.cons_append, List.nil_append]
  have he : ¬ isEnd ⟨tag, ns, none⟩ = true := fun e => hne (hi _ e)
  simp only [readTo, readLoop, if_neg he, List.length_cons, if_true]

theorem Moves.ignored_text {s : String} {st : σ} : Moves ns .ignore el arms [.chars s] st st := by
  intro isEnd hi rest
  simp only [deliver]
  split
  · rfl
  · simp only [readTo, readLoop, List.cons_append, List.nil_append, List.length_cons, if_true]

/-- An element that cannot be read. -/
theorem tells_error {tag : String} {w : List WEvent} {r : XElem α} {P : α → Prop}
    (h : OneElement true tag w) (hr : ∀ el attrs, ∃ e, ∀ evs, r el attrs evs = .error e) :
    Tells ns w tag r P := by
  obtain ⟨attrs, body, -, hb, rfl⟩ := h
  obtain ⟨e, he⟩ := hr ⟨tag, ns, none⟩ attrs
  exact ⟨attrs, deliver ns [] body, deliver_elem hb ns, .inl ⟨e, fun rest => he _⟩⟩

/-- An element whose attributes are refused. -/
theorem tells_refused {tag : String} {attrs : List (String × String)} {body : List WEvent}
    {pre : XName → List (String × String) → Except XErr ρ} {init : σ} {e : XErr}
    {fin : XName → ρ → σ → Except XErr α} {P : α → Prop} (hb : WellFormed true body)
    (hp : pre ⟨tag, ns, none⟩ attrs = .error e) :
    Tells ns (writeElem tag attrs body) tag (readStruct mode pre init arms fin) P := by
  refine ⟨attrs, deliver ns [] body, deliver_elem hb ns, .inl ⟨e, fun rest => ?_⟩⟩
  simp only [readStruct, hp, bind, Except.bind]

/-! ## Enumerations -/

theorem stable_of {display : α → String} {new : String → α} (hd : ∀ t, display (new t) = t) {x : α}
    (h : new (xmlTrim (display x)) = x) : Stable display new x ∧ Trimmed (display x) := by
  have ht : Trimmed (display x) := by
    have := congrArg display h
    rwa [hd] at this
  refine ⟨?_, ht⟩
  have ht' : xmlTrim (display x) = display x := ht
  rwa [ht'] at h

theorem stable_map {display : α → String} {new : String → α} {x : Option α}
    (h : (x.map display).map new = x) : ∀ y, x = some y → Stable display new y := by
  rintro y rfl
  exact Option.some.inj h

end Cdx
