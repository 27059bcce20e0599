import Verif.Spec.XmlForeign
import Verif.Lemmas.Accepts.Bom
import Verif.Lemmas.Format.Lax

set_option linter.unusedSectionVars false
set_option linter.unusedSimpArgs false
set_option linter.unusedVariables false

/-!
# Foreign elements: the general part
-/

namespace Cdx.Foreign

open Cdx.Spec

variable {v : SpecVersion} {α β σ ρ : Type}

/-- A reader of elements of a type and with a tag gets the same with and without foreign elements. -/
def Blind (v : SpecVersion) (t : ElementType) (tag : String) (r : XElem α) : Prop :=
  LocalAt tag r ∧ ∀ (n : XName) attrs c c', n.localName = tag → TameContent tag c → XNode.TameAll c →
    WithForeign v t c c' → ∀ rest,
      r n attrs (XNode.eventsAll c' ++ .stop n :: rest) = r n attrs (XNode.eventsAll c ++ .stop n :: rest)

/-- The same for an arm of a loop. -/
def BlindArm (v : SpecVersion) (t : ElementType) (tag : String) (a : Arm σ) : Prop :=
  LocalArm tag a ∧ ∀ (n : XName) attrs c c' st, n.localName = tag → TameContent tag c → XNode.TameAll c →
    WithForeign v t c c' → ∀ rest,
      a n attrs st (XNode.eventsAll c' ++ .stop n :: rest) = a n attrs st (XNode.eventsAll c ++ .stop n :: rest)

theorem arm {t tag} {r : XElem α} {set : α → σ → σ} (h : Blind v t tag r) : BlindArm v t tag (Cdx.arm r set) := by
  refine ⟨arm_local h.1 set, fun n attrs c c' st h1 h2 h3 h4 rest => ?_⟩
  simp only [Cdx.arm]
  rw [h.2 n attrs c c' h1 h2 h3 h4 rest]

theorem arm_once {t tag} {r : XElem α} {isSet : σ → Bool} {set : α → σ → σ} (h : Blind v t tag r) :
    BlindArm v t tag (armOnce r isSet set) := by
  refine ⟨armOnce_local h.1 isSet set, fun n attrs c c' st h1 h2 h3 h4 rest => ?_⟩
  simp only [armOnce]
  cases isSet st
  · exact (arm h (set := set)).2 n attrs c c' st h1 h2 h3 h4 rest
  · rfl

theorem map {t tag} {r : XElem α} (h : Blind v t tag r) (f : α → β) : Blind v t tag (r.map f) := by
  refine ⟨map_local h.1 f, fun n attrs c c' h1 h2 h3 h4 rest => ?_⟩
  simp only [XElem.map]
  rw [h.2 n attrs c c' h1 h2 h3 h4 rest]

/-! ## Elements into which nothing can be put -/

theorem unchanged (S : List ElementType)
    (hS : (S.all fun t => !lenient.contains t && (t.items v).all fun p => S.contains p.2) = true) {t c c'}
    (h : WithForeign v t c c') : t ∈ S → c' = c := by
  have hS' : ∀ t ∈ S, t ∉ lenient ∧ ∀ p ∈ t.items v, p.2 ∈ S := by
    intro t ht
    have := List.all_eq_true.mp hS t ht
    simpa using this
  induction h with
  | nil => exact fun _ => rfl
  | same _ ih => exact fun ht => by rw [ih ht]
  | foreign hl _ _ ih => exact fun ht => absurd hl (hS' _ ht).1
  | inside hc _ _ ih1 ih2 =>
    intro ht
    rw [ih1 ((hS' _ ht).2 _ (mem_of_lookup hc)), ih2 ht]

theorem inert {tag} {r : XElem α} (S : List ElementType) {t} (hl : LocalAt tag r) (ht : t ∈ S)
    (hS : (S.all fun t => !lenient.contains t && (t.items v).all fun p => S.contains p.2) = true) :
    Blind v t tag r :=
  ⟨hl, fun n attrs c c' _ _ _ h rest => by rw [unchanged S hS h ht]⟩

theorem leaf {tag t} {r : XElem α} (hl : LocalAt tag r)
    (hS : ([t].all fun t => !lenient.contains t && (t.items v).all fun p => [t].contains p.2) = true) :
    Blind v t tag r := inert [t] hl (.head _) hS

theorem leaf_text {tag t type} {r : XElem α} (hl : LocalAt tag r) (ht : t.rule.content = .text type)
    (hc : lenient.contains t = false) : Blind v t tag r := by
  refine leaf hl ?_
  have : t.items v = [] := by simp [ElementType.items, ElementType.choices, ht]
  simpa [this] using hc

/-! ## Loops -/

/-- What the arms of a loop must be like in elements of some types: in `ignore` mode, of all types that
are read in the same loop. -/
def Covers (v : SpecVersion) (mode : Unknown) (arms : List (String × Arm σ)) (S : ElementType → Prop) : Prop :=
  ∀ t, S t → (t ∈ lenient → mode ≠ .fail) ∧ ∀ name t', t.child v name = some t' →
    (∃ act, arms.lookup name = some act ∧ BlindArm v t' name act) ∨
      (arms.lookup name = none ∧ (mode = .ignore → S t'))

theorem insideAll_names : ∀ l : List XNode, XNode.insideAll l = XNode.namesAll l
  | [] => by rw [XNode.insideAll, XNode.namesAll]
  | .elem n _ _ c :: l => by
    rw [XNode.insideAll, XNode.namesAll, XNode.names, insideAll_names c, insideAll_names l, List.cons_append]
  | .chars _ :: l => by rw [XNode.insideAll, XNode.namesAll, XNode.names, insideAll_names l, List.nil_append] <;> simp
  | .cdata _ :: l => by rw [XNode.insideAll, XNode.namesAll, XNode.names, insideAll_names l, List.nil_append] <;> simp
  | .other :: l => by rw [XNode.insideAll, XNode.namesAll, XNode.names, insideAll_names l, List.nil_append] <;> simp

theorem lookup_foreign {arms : List (String × Arm σ)} (hv : ∀ p ∈ arms, p.1 ∈ vocabulary) {name}
    (h : name ∉ vocabulary) : arms.lookup name = none := by
  rw [List.lookup_eq_none_iff]
  intro p hp
  simp only [bne_iff_ne, ne_eq, beq_eq_false_iff_ne]
  intro e
  exact h (e ▸ hv p hp)

theorem fields_same {mode el} {arms : List (String × Arm σ)} {S : ElementType → Prop}
    (hv : ∀ p ∈ arms, p.1 ∈ vocabulary) (hl : ∀ p ∈ arms, LocalArm p.1 p.2)
    (hel : mode = .ignore → el.localName ∈ vocabulary) (hS : Covers v mode arms S) {t c c'}
    (h : WithForeign v t c c') : S t → XNode.TameAll c → (mode = .ignore → el.localName ∉ XNode.namesAll c) →
    ∀ (st : σ) rest, readFields mode el arms st (XNode.eventsAll c' ++ rest) =
      readFields mode el arms st (XNode.eventsAll c ++ rest) := by
  induction h with
  | nil => exact fun _ _ _ _ _ => rfl
  | @same t x c c' _ ih =>
    intro ht h1 h2 st rest
    simp only [XNode.TameAll] at h1
    simp only [XNode.namesAll, List.mem_append, not_or] at h2
    simp only [XNode.eventsAll, List.append_assoc]
    rcases passes_events (mode := mode) (el := el) hl x st (fun h => (h2 h).1) h1.1 with ⟨e, he⟩ | ⟨s, hs⟩
    · rw [he, he]
    · rw [hs, hs, ih ht h1.2 fun h => (h2 h).2]
  | @foreign t n attrs ns content c c' hlen hnames _ ih =>
    intro ht h1 h2 st rest
    have hn : n.localName ∉ vocabulary := hnames _ (by simp [XNode.names])
    rw [XNode.eventsAll, List.append_assoc]
    cases mode with
    | fail => exact absurd rfl ((hS t ht).1 hlen)
    | skip =>
      rw [readFields_foreign (fun hm => ?_)]
      · exact ih ht h1 h2 st rest
      · obtain ⟨p, hp, e⟩ := List.mem_map.mp hm
        exact hn (e ▸ hv p hp)
    | ignore =>
      have := ignore_all (el := el) (arms := arms) (st := st) [.elem n attrs ns content] (XNode.eventsAll c' ++ rest)
        (by
          intro m hm
          rw [insideAll_names, XNode.namesAll, XNode.namesAll, List.append_nil] at hm
          exact ⟨lookup_foreign hv (hnames m hm), fun e => hnames m hm (e ▸ hel rfl)⟩)
      rw [XNode.eventsAll, XNode.eventsAll, List.append_nil] at this
      rw [this]
      exact ih ht h1 h2 st rest
  | @inside t t' n attrs ns k k' c c' hc _ _ ih1 ih2 =>
    rename_i hk _
    intro ht h1 h2 st rest
    simp only [XNode.TameAll, XNode.Tame] at h1
    simp only [XNode.namesAll, XNode.names, List.mem_append, List.mem_cons, not_or] at h2
    have hev : ∀ k rest, XNode.events (.elem n attrs ns k) ++ rest =
        .start n attrs ns :: (XNode.eventsAll k ++ .stop n :: rest) := by
      intro k rest
      simp [XNode.events]
    simp only [XNode.eventsAll, List.append_assoc]
    rw [hev, hev]
    rcases (hS t ht).2 _ _ hc with ⟨act, hlook, hb⟩ | ⟨hlook, hmode⟩
    · rw [readFields_start, readFields_start, hlook]
      simp only
      obtain ⟨o, ho⟩ := hb.1 n attrs st k rfl h1.1.1 h1.1.2
      rw [hb.2 n attrs k k' st rfl h1.1.1 h1.1.2 hk, ho, ho]
      cases o with
      | error e => rfl
      | ok s =>
        simp only [Except.map]
        rw [if_pos (by simp; omega), if_pos (by simp; omega)]
        exact ih2 ht h1.2 (fun h => (h2 h).2) s rest
    · cases mode with
      | fail => rw [readFields_start, readFields_start, hlook]
      | skip =>
        rw [readFields_start, readFields_start, hlook]
        simp only
        rw [skipElem_eventsAll, skipElem_eventsAll]
        simp only [skipElem, if_true]
        rw [if_pos (by simp; omega), if_pos (by simp; omega)]
        exact ih2 ht h1.2 (fun h => (h2 h).2) st rest
      | ignore =>
        rw [ignore_start hlook, ignore_start hlook, ih1 (hmode rfl) h1.1.2 (fun h => (h2 h).1.2)]
        rcases passes_eventsAll (mode := .ignore) (el := el) hl k st (fun h => (h2 h).1.2) h1.1.2 with ⟨e, he⟩ | ⟨s, hs⟩
        · rw [he, he]
        · have hne : n ≠ el := fun e => (h2 rfl).1.1 (by rw [e])
          rw [hs, hs, ignore_stop hne, ignore_stop hne]
          exact ih2 ht h1.2 (fun h => (h2 h).2) s rest

theorem ignoring_vocabulary : ∀ tag ∈ ignoring, tag ∈ vocabulary := by
  have : (ignoring.all fun tag => vocabulary.contains tag) = true := by decide +kernel
  intro tag h
  simpa using List.all_eq_true.mp this tag h

theorem struct_on {mode tag t} {pre : XName → List (String × String) → Except XErr ρ} {init : σ}
    {arms : List (String × Arm σ)} {fin : XName → ρ → σ → Except XErr α} (S : ElementType → Prop)
    (hv : ∀ p ∈ arms, p.1 ∈ vocabulary) (hl : ∀ p ∈ arms, LocalArm p.1 p.2) (hi : mode = .ignore → tag ∈ ignoring)
    (ht : S t) (hS : Covers v mode arms S) : Blind v t tag (readStruct mode pre init arms fin) := by
  refine ⟨readStruct_local hi hl, fun n attrs c c' h1 h2 h3 h4 rest => ?_⟩
  subst h1
  simp only [readStruct]
  cases pre n attrs with
  | error e => rfl
  | ok p =>
    simp only [bind, Except.bind]
    rw [fields_same hv hl (fun h => ignoring_vocabulary _ (hi h)) hS h4 ht h3 fun h => h2.1 (hi h)]

/-! ## Arms -/

/-- The child elements of a type of element in all versions. -/
def allItems (t : ElementType) : List (String × ElementType) :=
  match t.rule.content with
  | .text _ => []
  | .children l => l.flatten.flatMap (·.items)

theorem items_all {t : ElementType} {p} (h : p ∈ t.items v) : p ∈ allItems t := by
  simp only [ElementType.items, ElementType.choices] at h
  simp only [allItems]
  split at h
  · simp at h
  · rename_i l hl
    simp only [hl]
    simp only [List.mem_flatMap, List.mem_flatten, List.mem_map] at h ⊢
    obtain ⟨q, ⟨_, ⟨m, hm, rfl⟩, hq⟩, hp⟩ := h
    exact ⟨q, ⟨m, hm, (List.mem_filter.mp hq).1⟩, hp⟩

set_option maxHeartbeats 4000000 in
theorem items_vocabulary (t : ElementType) : ((allItems t).all fun p => vocabulary.contains p.1) = true := by
  cases t <;> decide +kernel

/-- Whether a name is in the table for some version, and has the given type, if any. -/
def known (v : SpecVersion) (t : ElementType) (name : String) (t' : ElementType) : Bool :=
  ((t.child .v1_3 name).isSome || (t.child .v1_5 name).isSome) && (t.child v name).all (· == t')

theorem child_vocabulary {t : ElementType} {name : String} (h : (t.child v name).isSome = true) :
    name ∈ vocabulary := by
  obtain ⟨t', ht⟩ := Option.isSome_iff_exists.mp h
  simpa using List.all_eq_true.mp (items_vocabulary t) _ (items_all (mem_of_lookup ht))

theorem known_vocabulary {t t' : ElementType} {name : String} (h : known v t name t' = true) :
    name ∈ vocabulary := by
  simp only [known, Bool.and_eq_true, Bool.or_eq_true] at h
  exact h.1.elim child_vocabulary child_vocabulary

/-- The arms of a reader of elements of a type. -/
inductive ArmsBlind (v : SpecVersion) (t : ElementType) : List (String × Arm σ) → Prop
  | nil : ArmsBlind v t []
  | cons {name act arms} (t' : ElementType) : known v t name t' = true → BlindArm v t' name act →
      ArmsBlind v t arms → ArmsBlind v t ((name, act) :: arms)
  | other {name act arms} : (vocabulary.contains name && (t.child v name).isNone) = true → LocalArm name act →
      ArmsBlind v t arms → ArmsBlind v t ((name, act) :: arms)

theorem ArmsBlind.append {t} {a b : List (String × Arm σ)} (h : ArmsBlind v t a) (h' : ArmsBlind v t b) :
    ArmsBlind v t (a ++ b) := by
  induction h with
  | nil => exact h'
  | cons t' ht ha _ ih => exact .cons t' ht ha ih
  | other ht ha _ ih => exact .other ht ha ih

theorem ArmsBlind.since14 {t} {a : List (String × Arm σ)} (h : ArmsBlind v t a) : ArmsBlind v t (since14 v a []) := by
  cases v
  · exact .nil
  · exact h
  · exact h

theorem ArmsBlind.since15 {t} {a : List (String × Arm σ)} (h : ArmsBlind v t a) : ArmsBlind v t (since15 v a []) := by
  cases v
  · exact .nil
  · exact .nil
  · exact h

theorem ArmsBlind.vocab {t} {a : List (String × Arm σ)} (h : ArmsBlind v t a) : ∀ p ∈ a, p.1 ∈ vocabulary := by
  induction h with
  | nil => exact fun _ h => nomatch h
  | cons t' ht ha _ ih =>
    intro p hp
    cases hp with
    | head => exact known_vocabulary ht
    | tail _ hp => exact ih p hp
  | other ht ha _ ih =>
    intro p hp
    cases hp with
    | head => simp only [Bool.and_eq_true] at ht; simpa using ht.1
    | tail _ hp => exact ih p hp

theorem ArmsBlind.locals {t} {a : List (String × Arm σ)} (h : ArmsBlind v t a) : ∀ p ∈ a, LocalArm p.1 p.2 := by
  induction h with
  | nil => exact armsNil
  | cons t' ht ha _ ih => exact armsCons ha.1 ih
  | other ht ha _ ih => exact armsCons ha ih

theorem ArmsBlind.lookup {t} {a : List (String × Arm σ)} (h : ArmsBlind v t a) (name : String) :
    a.lookup name = none ∨ ∃ act, a.lookup name = some act ∧
      ∀ t', t.child v name = some t' → BlindArm v t' name act := by
  induction h with
  | nil => exact .inl rfl
  | @cons k act arms t' ht ha _ ih =>
    by_cases hk : name = k
    · subst hk
      refine .inr ⟨act, by simp [List.lookup], fun t'' h => ?_⟩
      simp only [known, Bool.and_eq_true, h, Option.all_some, beq_iff_eq] at ht
      exact ht.2 ▸ ha
    · have hb : (name == k) = false := by simpa using hk
      simpa only [List.lookup_cons, hb] using ih
  | @other k act arms ht ha _ ih =>
    by_cases hk : name = k
    · subst hk
      refine .inr ⟨act, by simp [List.lookup], fun t'' h => ?_⟩
      simp [h] at ht
    · have hb : (name == k) = false := by simpa using hk
      simpa only [List.lookup_cons, hb] using ih

/-- The elements of a type are matched by the arms with given names. -/
theorem lookup_names {arms : List (String × Arm σ)} {names : List String} (hn : arms.map (·.1) = names) {name}
    (h : name ∈ names) : arms.lookup name ≠ none := by
  subst hn
  obtain ⟨p, hp, e⟩ := List.mem_map.mp h
  intro hnone
  rw [List.lookup_eq_none_iff] at hnone
  have := hnone p hp
  simp [e] at this

theorem struct_skip {tag t} {pre : XName → List (String × String) → Except XErr ρ} {init : σ}
    {arms : List (String × Arm σ)} {fin : XName → ρ → σ → Except XErr α} (h : ArmsBlind v t arms) :
    Blind v t tag (readStruct .skip pre init arms fin) := by
  refine struct_on (fun s => s = t) h.vocab h.locals nofun rfl ?_
  rintro _ rfl
  refine ⟨fun _ => nofun, fun name t' hc => ?_⟩
  rcases h.lookup name with hn | ⟨act, h1, h2⟩
  · exact .inr ⟨hn, nofun⟩
  · exact .inl ⟨act, h1, h2 t' hc⟩

theorem struct_fail {tag t} {pre : XName → List (String × String) → Except XErr ρ} {init : σ}
    {arms : List (String × Arm σ)} {fin : XName → ρ → σ → Except XErr α} (h : ArmsBlind v t arms)
    (hc : lenient.contains t = false) : Blind v t tag (readStruct .fail pre init arms fin) := by
  refine struct_on (fun s => s = t) h.vocab h.locals nofun rfl ?_
  rintro _ rfl
  refine ⟨fun hl => by simp [hl] at hc, fun name t' hc => ?_⟩
  rcases h.lookup name with hn | ⟨act, h1, h2⟩
  · exact .inr ⟨hn, nofun⟩
  · exact .inl ⟨act, h1, h2 t' hc⟩

theorem covers_ignore {t} {arms : List (String × Arm σ)} (h : ArmsBlind v t arms) (names : List String)
    (hn : arms.map (·.1) = names) (hi : ((t.items v).all fun p => names.contains p.1) = true) :
    ∀ name t', t.child v name = some t' → ∃ act, arms.lookup name = some act ∧ BlindArm v t' name act := by
  intro name t' hc
  rcases h.lookup name with hnone | ⟨act, h1, h2⟩
  · have := List.all_eq_true.mp hi _ (mem_of_lookup hc)
    exact absurd hnone (lookup_names hn (by simpa using this))
  · exact ⟨act, h1, h2 t' hc⟩

theorem struct_ignore {tag t} {pre : XName → List (String × String) → Except XErr ρ} {init : σ}
    {arms : List (String × Arm σ)} {fin : XName → ρ → σ → Except XErr α} (h : ArmsBlind v t arms)
    (hi : tag ∈ ignoring) (names : List String) (hn : arms.map (·.1) = names)
    (hm : ((t.items v).all fun p => names.contains p.1) = true) :
    Blind v t tag (readStruct .ignore pre init arms fin) := by
  refine struct_on (fun s => s = t) h.vocab h.locals (fun _ => hi) rfl ?_
  rintro _ rfl
  exact ⟨fun _ => nofun, fun name t' hc => .inl (covers_ignore h names hn hm name t' hc)⟩

theorem list_eq {mode inner} {r : XElem α} : readListWith mode inner r = readStruct mode (fun _ _ => .ok ()) ([] : List α)
    [(inner, Cdx.arm r fun x (l : List α) => l ++ [x])] fun _ _ l => .ok l := by
  funext n attrs evs
  simp only [readStruct, readListWith, bind, Except.bind]
  split <;> rename_i heq <;> simp [heq]

theorem list_skip {tag t t' inner} {r : XElem α} (hk : known v t inner t' = true) (h : Blind v t' inner r) :
    Blind v t tag (readListLax inner r) := by
  rw [readListLax, list_eq]
  exact struct_skip (.cons t' hk (arm h) .nil)

theorem list_fail {tag t t' inner} {r : XElem α} (hk : known v t inner t' = true) (h : Blind v t' inner r)
    (hc : lenient.contains t = false) : Blind v t tag (readList inner r) := by
  rw [readList, list_eq]
  exact struct_fail (.cons t' hk (arm h) .nil) hc

theorem list_ignore {tag t t' inner} {r : XElem α} (hk : known v t inner t' = true) (h : Blind v t' inner r)
    (hi : tag ∈ ignoring) (hm : ((t.items v).all fun p => [inner].contains p.1) = true) :
    Blind v t tag (readListWith .ignore inner r) := by
  rw [list_eq]
  exact struct_ignore (.cons t' hk (arm h) .nil) hi [inner] rfl hm

/-! ## The root -/

theorem loop_same {el : XName} {isEnd : XName → Bool} {arms : List (String × Arm σ)}
    (hv : ∀ p ∈ arms, p.1 ∈ vocabulary) (hl : ∀ p ∈ arms, LocalArm p.1 p.2) {S : ElementType → Prop}
    (hS : Covers v .skip arms S) {t c c'} (h : WithForeign v t c c') : S t → XNode.TameAll c →
    ∀ (st : σ) rest m m', (XNode.eventsAll c' ++ rest).length < m → (XNode.eventsAll c ++ rest).length < m' →
      readLoop .skip isEnd el arms m st (XNode.eventsAll c' ++ rest) =
        readLoop .skip isEnd el arms m' st (XNode.eventsAll c ++ rest) := by
  induction h with
  | nil => exact fun _ _ st rest m m' h h' => readLoop_fuel _ _ _ _ _ _ _ _ h h'
  | @same t x c c' _ ih =>
    intro ht h1 st rest m m' hm hm'
    simp only [XNode.TameAll] at h1
    have e : ∀ l, XNode.eventsAll (x :: l) ++ rest = XNode.eventsAll [x] ++ (XNode.eventsAll l ++ rest) := by
      intro l
      simp [XNode.eventsAll]
    rw [e] at hm hm' ⊢
    rw [e]
    rcases loop_passes (isEnd := isEnd) (el := el) hl [x] st (by simp [XNode.TameAll, h1.1]) with ⟨e, he⟩ | ⟨s, hs⟩
    · rw [he _ _ hm, he _ _ hm']
    · rw [hs _ _ hm, hs _ _ hm']
      exact ih ht h1.2 s rest _ _ (by omega) (by omega)
  | @foreign t n attrs ns content c c' hlen hnames _ ih =>
    intro ht h1 st rest m m' hm hm'
    have hev : XNode.eventsAll (.elem n attrs ns content :: c') ++ rest =
        .start n attrs ns :: (XNode.eventsAll content ++ .stop n :: (XNode.eventsAll c' ++ rest)) := by
      simp [XNode.eventsAll, XNode.events]
    rw [hev] at hm ⊢
    rw [readLoop_start _ _ _ _ _ _ _ _ (by simpa using hm), lookup_foreign hv (hnames _ (by simp [XNode.names]))]
    simp only
    rw [skipElem_eventsAll]
    simp only [skipElem, if_true]
    rw [if_pos (by simp; omega)]
    exact ih ht h1 st rest _ _ (by omega) hm'
  | @inside t t' n attrs ns k k' c c' hc hk _ ih1 ih2 =>
    intro ht h1 st rest m m' hm hm'
    simp only [XNode.TameAll, XNode.Tame] at h1
    have hev : ∀ k c, XNode.eventsAll (.elem n attrs ns k :: c) ++ rest =
        .start n attrs ns :: (XNode.eventsAll k ++ .stop n :: (XNode.eventsAll c ++ rest)) := by
      intro k c
      simp [XNode.eventsAll, XNode.events]
    rw [hev] at hm hm' ⊢
    rw [hev, readLoop_start _ _ _ _ _ _ _ _ (by simpa using hm), readLoop_start _ _ _ _ _ _ _ _ (by simpa using hm')]
    rcases (hS t ht).2 _ _ hc with ⟨act, hlook, hb⟩ | ⟨hlook, -⟩
    · rw [hlook]
      simp only
      obtain ⟨o, ho⟩ := hb.1 n attrs st k rfl h1.1.1 h1.1.2
      rw [hb.2 n attrs k k' st rfl h1.1.1 h1.1.2 hk, ho, ho]
      cases o with
      | error e => rfl
      | ok s =>
        simp only [Except.map]
        rw [if_pos (by simp; omega), if_pos (by simp; omega)]
        exact ih2 ht h1.2 s rest _ _ (by omega) (by omega)
    · rw [hlook]
      simp only
      rw [skipElem_eventsAll, skipElem_eventsAll]
      simp only [skipElem, if_true]
      rw [if_pos (by simp; omega), if_pos (by simp; omega)]
      exact ih2 ht h1.2 st rest _ _ (by omega) (by omega)

end Cdx.Foreign
