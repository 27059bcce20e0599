import Verif.Spec.XmlSchema

set_option linter.unusedVariables false

/-!
# Checking that an element conforms to the format

A check that can be evaluated. Elements that pass it conform.
-/

namespace Cdx

open Spec

/-- Without a sign. -/
def unsigned : List Char → List Char
  | '+' :: l => l
  | '-' :: l => l
  | l => l

theorem unsigned_sign (l : List Char) : ∃ sign, IsSign sign ∧ l = sign ++ unsigned l := by
  unfold unsigned
  split
  · exact ⟨['+'], .inr (.inl rfl), rfl⟩
  · exact ⟨['-'], .inr (.inr rfl), rfl⟩
  · exact ⟨[], .inl rfl, rfl⟩

/-- A text of a type, for decimal numbers without a sign. -/
def admits : TextType → String → Bool
  | .string, _ => true
  | .boolean, s => s == "true" || s == "false" || s == "1" || s == "0"
  | .integer, s => !(unsigned s.toList).isEmpty && (unsigned s.toList).all Char.isDigit
  | .decimal, s =>
    let whole := s.toList.takeWhile Char.isDigit
    let rest := s.toList.dropWhile Char.isDigit
    !whole.isEmpty && (rest.isEmpty || rest.head? == some '.' && rest.tail.all Char.isDigit)

theorem admits_sound {t : TextType} {s : String} (h : admits t s = true) : t.Admits s := by
  cases t with
  | string => trivial
  | boolean => simpa [admits, TextType.Admits, or_assoc] using h
  | integer =>
    simp only [admits, Bool.and_eq_true, Bool.not_eq_true', List.isEmpty_eq_false_iff, List.all_eq_true] at h
    obtain ⟨sign, hs, e⟩ := unsigned_sign s.toList
    exact ⟨sign, unsigned s.toList, hs, h.1, h.2, e⟩
  | decimal =>
    simp only [admits, Bool.and_eq_true, Bool.or_eq_true, Bool.not_eq_true', List.isEmpty_eq_false_iff,
      List.isEmpty_iff, List.all_eq_true, beq_iff_eq] at h
    obtain ⟨h1, h2⟩ := h
    have hw : AreDigits (s.toList.takeWhile Char.isDigit) := fun c hc => by
      have := List.all_takeWhile (l := s.toList) (p := Char.isDigit)
      exact List.all_eq_true.mp this c hc
    have e := List.takeWhile_append_dropWhile (l := s.toList) (p := Char.isDigit)
    rcases h2 with h2 | ⟨h2, h3⟩
    · rw [h2, List.append_nil] at e
      refine ⟨[], s.toList.takeWhile Char.isDigit, [], .inl rfl, hw, (fun c hc => absurd hc (by simp)), .inl ⟨h1, ?_⟩⟩
      rw [List.nil_append, e]
    · refine ⟨[], s.toList.takeWhile Char.isDigit, (s.toList.dropWhile Char.isDigit).tail, .inl rfl, hw, h3,
        .inr ⟨.inl h1, ?_⟩⟩
      cases hd : s.toList.dropWhile Char.isDigit with
      | nil => rw [hd] at h2; simp at h2
      | cons c l =>
        rw [hd] at h2 e
        simp only [List.head?_cons, Option.some.injEq] at h2
        subst h2
        rw [List.nil_append, List.tail_cons, e]

/-- Whether names follow a sequence: each part takes as many as it can. -/
def follows : List Particle → List String → Bool
  | [], names => names.isEmpty
  | p :: l, names =>
    let all := names.takeWhile fun n => (p.items.map (·.1)).contains n
    let piece := match p.most with | some m => all.take m | none => all
    decide (p.least ≤ piece.length) && follows l (names.drop piece.length)

theorem takeWhile_take {α : Type} (p : α → Bool) : ∀ (l : List α) (k : Nat), k ≤ (l.takeWhile p).length →
    (l.takeWhile p).take k = l.take k
  | [], k, h => by simp
  | a :: l, 0, h => by simp
  | a :: l, k + 1, h => by
    rw [List.takeWhile_cons] at h ⊢
    split
    · rename_i ha
      rw [if_pos ha, List.length_cons] at h
      rw [List.take_succ_cons, List.take_succ_cons, takeWhile_take p l k (by omega)]
    · rename_i ha
      rw [if_neg ha] at h
      simp at h

theorem follows_sound : ∀ {l : List Particle} {names : List String}, follows l names = true → Follows l names
  | [], names, h => by simpa [follows, Follows] using h
  | p :: l, names, h => by
    simp only [follows, Bool.and_eq_true, decide_eq_true_eq] at h
    obtain ⟨h1, h2⟩ := h
    have hall : ∀ n ∈ names.takeWhile (fun n => (p.items.map (·.1)).contains n), n ∈ p.items.map (·.1) := by
      intro n hn
      have := List.all_takeWhile (l := names) (p := fun n => (p.items.map (·.1)).contains n)
      simpa using List.all_eq_true.mp this n hn
    refine ⟨names.take _, names.drop _, (List.take_append_drop _ names).symm, ?_, ?_, ?_, follows_sound h2⟩
    · cases hm : p.most with
      | none =>
        simp only [hm] at h1 h2 ⊢
        rw [← takeWhile_take (fun n => (p.items.map (·.1)).contains n) _ _ (Nat.le_refl _), List.take_length]
        exact hall
      | some m =>
        simp only [hm] at h1 h2 ⊢
        rw [← takeWhile_take (fun n => (p.items.map (·.1)).contains n) _ _ (by simp; omega)]
        exact fun n hn => hall n (List.mem_of_mem_take hn)
    · refine Nat.le_trans h1 ?_
      rw [List.length_take, Nat.le_min]
      refine ⟨Nat.le_refl _, ?_⟩
      cases hm : p.most with
      | none => simpa [hm] using List.IsPrefix.length_le (List.takeWhile_prefix _)
      | some m =>
        simp only [hm, List.length_take]
        exact Nat.le_trans (Nat.min_le_right _ _) (List.IsPrefix.length_le (List.takeWhile_prefix _))
    · intro m hm
      simp only [hm, List.length_take]
      omega

/-- Whether the attributes and the names and texts in the content of an element conform. -/
def conformsHere (v : SpecVersion) (t : ElementType) (attrs : List (String × String)) (content : List XNode) :
    Bool :=
  ((t.attributes v).all fun a =>
    match attrs.lookup a.name with
    | some s => admits a.type s
    | none => !a.required) &&
  match t.rule.content with
  | .text type =>
    (content.filter isContent).all (fun x => (textOf x).isSome) &&
      admits type (String.join ((content.filter isContent).filterMap textOf))
  | .children _ =>
    (content.filter isContent).all (fun x => (nameOf x).isSome) &&
      (t.choices v).any fun l => follows l ((content.filter isContent).filterMap nameOf)

theorem map_of_all {α β : Type} (f : α → Option β) : ∀ {l : List α}, (l.all fun x => (f x).isSome) = true →
    l.map f = (l.filterMap f).map some
  | [], _ => rfl
  | a :: l, h => by
    simp only [List.all_cons, Bool.and_eq_true] at h
    obtain ⟨x, hx⟩ := Option.isSome_iff_exists.mp h.1
    simp [hx, map_of_all f h.2]

theorem conformsHere_sound {v t attrs content} (h : conformsHere v t attrs content = true) :
    LocallyConforms true v t attrs content := by
  simp only [conformsHere, Bool.and_eq_true, List.all_eq_true] at h
  obtain ⟨h1, h2⟩ := h
  refine ⟨fun a ha => ?_, ?_⟩
  · have := h1 a ha
    cases hl : attrs.lookup a.name with
    | none =>
      simp only [hl, Bool.not_eq_true'] at this
      exact ⟨fun h => absurd (this.symm.trans h) (by simp), fun s hs => absurd hs (by simp)⟩
    | some s =>
      simp only [hl] at this
      exact ⟨fun _ => ⟨s, rfl⟩, fun s' hs => by cases hs; exact admits_sound this⟩
  · unfold ContentConforms
    cases hc : t.rule.content with
    | text type =>
      simp only [hc, Bool.and_eq_true] at h2
      exact ⟨_, map_of_all _ h2.1, admits_sound h2.2⟩
    | children l =>
      simp only [hc, Bool.and_eq_true, List.any_eq_true] at h2
      obtain ⟨l', hl', h3⟩ := h2.2
      exact ⟨_, map_of_all _ h2.1, l', hl', follows_sound h3⟩

mutual
/-- Whether a check holds of an element and all elements in it. -/
def throughout (c : ElementType → List (String × String) → List XNode → Bool) (v : SpecVersion)
    (t : ElementType) : XNode → Bool
  | .elem _ attrs _ content => c t attrs content && throughoutAll c v t content
  | .chars _ => true
  | .cdata _ => true
  | .other => true
def throughoutAll (c : ElementType → List (String × String) → List XNode → Bool) (v : SpecVersion)
    (t : ElementType) : List XNode → Bool
  | [] => true
  | x :: l =>
    (match nameOf x with
    | some n => (match t.child v n with | some t' => throughout c v t' x | none => true)
    | none => true) && throughoutAll c v t l
end

mutual
theorem throughout_sound {c P v} (h : ∀ t attrs content, c t attrs content = true → P t attrs content) :
    ∀ (x : XNode) (t : ElementType), throughout c v t x = true → Throughout P v t x
  | .elem n attrs ns content, t, hx => by
    simp only [throughout, Bool.and_eq_true] at hx
    rw [Throughout]
    exact ⟨h _ _ _ hx.1, throughoutAll_sound h content t hx.2⟩
  | .chars _, _, _ => by simp [Throughout]
  | .cdata _, _, _ => by simp [Throughout]
  | .other, _, _ => by simp [Throughout]
theorem throughoutAll_sound {c P v} (h : ∀ t attrs content, c t attrs content = true → P t attrs content) :
    ∀ (l : List XNode) (t : ElementType), throughoutAll c v t l = true → ThroughoutAll P v t l
  | [], _, _ => by simp [ThroughoutAll]
  | x :: l, t, hx => by
    simp only [throughoutAll, Bool.and_eq_true] at hx
    rw [ThroughoutAll]
    refine ⟨fun n hn t' ht' => ?_, throughoutAll_sound h l t hx.2⟩
    have h1 := hx.1
    rw [Option.mem_def.mp hn] at h1
    simp only [Option.mem_def.mp ht'] at h1
    exact throughout_sound h x t' h1
end

/-- Whether an element conforms to a type. -/
def conformsXml (v : SpecVersion) (t : ElementType) (x : XNode) : Bool := throughout (conformsHere v) v t x

theorem conformsXml_sound {v t x} (h : conformsXml v t x = true) : ConformsXml v t x :=
  throughout_sound (fun _ _ _ => conformsHere_sound) x t h

/-- An integer without a sign that fits. -/
def fits (t : TextType) (s : String) : Bool :=
  t != .integer || s.toList.all Char.isDigit && decide (Nat.ofDigitChars 10 s.toList 0 < 2 ^ 32)

theorem fits_sound {t : TextType} {s : String} (h : fits t s = true) : t.Fits s := by
  intro ht digits hd hdig
  simp only [fits, ht, bne_self_eq_false, Bool.false_or, Bool.and_eq_true, List.all_eq_true,
    decide_eq_true_eq] at h
  obtain ⟨h1, h2⟩ := h
  have hne : ∀ c : Char, c.isDigit = false → s.toList ≠ c :: digits := fun c hc e => by
    have := h1 c (by rw [e]; exact .head _)
    rw [hc] at this
    exact nomatch this
  refine ⟨hne '-' (by decide), ?_⟩
  rcases hd with e | e | e
  · rw [← e]; exact h2
  · exact absurd e (hne '+' (by decide))
  · exact absurd e (hne '-' (by decide))

/-- Whether this library supports an element. -/
def supportedHere (v : SpecVersion) (t : ElementType) (attrs : List (String × String)) (content : List XNode) :
    Bool :=
  content.all isContent &&
  ((t.attributes v).all fun a => match attrs.lookup a.name with | some s => fits a.type s | none => true) &&
  (match t.rule.content with
    | .text type => decide (content.length ≤ 1) &&
      content.all fun x => match textOf x with | some s => fits type s | none => true
    | .children _ => true) &&
  (![ElementType.licenseId, .licenseName, .attachedText].contains t || !content.isEmpty) &&
  (t != .attachment || match content with | [.chars _] => true | _ => false) &&
  (t != .subDependency || content.isEmpty) &&
  (t != .input || content.all fun x => nameOf x != some "parameters") &&
  (t != .datasets || content.all fun x => nameOf x != some "ref")

theorem supportedHere_sound {v t attrs content} (h : supportedHere v t attrs content = true) :
    Supported v t attrs content := by
  simp only [supportedHere, Bool.and_eq_true] at h
  obtain ⟨⟨⟨⟨⟨⟨⟨h1, h2⟩, h3⟩, h4⟩, h5⟩, h6⟩, h7⟩, h8⟩ := h
  refine ⟨fun x hx => List.all_eq_true.mp h1 x hx, fun a ha s hs => ?_, fun type ht => ?_, fun ht => ?_,
    fun ht => ?_, fun ht => ?_, fun ht x hx => ?_, fun ht x hx => ?_⟩
  · have := List.all_eq_true.mp h2 a ha
    simp only [hs] at this
    exact fits_sound this
  · simp only [ht, Bool.and_eq_true, decide_eq_true_eq] at h3
    refine ⟨h3.1, fun x hx s hs => ?_⟩
    have := List.all_eq_true.mp h3.2 x hx
    simp only [Option.mem_def.mp hs] at this
    exact fits_sound this
  · have hc : [ElementType.licenseId, .licenseName, .attachedText].contains t = true :=
      List.contains_iff_mem.mpr ht
    rw [hc] at h4
    simpa using h4
  · subst ht
    match content, h5 with
    | [.chars s], _ => exact ⟨s, rfl⟩
    | [], h => simp at h
    | [.elem ..], h => simp at h
    | [.cdata _], h => simp at h
    | [.other], h => simp at h
    | _ :: _ :: _, h => simp at h
  · subst ht
    simpa using h6
  · subst ht
    have := List.all_eq_true.mp (by simpa using h7 : (content.all fun x => nameOf x != some "parameters") = true) x hx
    simpa using this
  · subst ht
    have := List.all_eq_true.mp (by simpa using h8 : (content.all fun x => nameOf x != some "ref") = true) x hx
    simpa using this

end Cdx
