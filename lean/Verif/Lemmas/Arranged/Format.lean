import Verif.Lemmas.Arranged

/-!
# Lemmas: from the elements as they are written to the elements of the format
-/

set_option linter.unusedSectionVars false
set_option linter.unusedSimpArgs false

namespace Cdx

open Spec

/-! ## Nesting of balanced content -/

theorem nestings_append {E : String → Element} {p : String} {l : List (List String)} {w : List WEvent}
    (h : Arranged E p l w) (st : List String) (r : List WEvent) :
    nestings st (w ++ r) = nestings st w ++ nestings st r := by
  induction h generalizing st r with
  | nil => rfl
  | chars _ ih => simpa [nestings] using ih st r
  | cdata _ ih => simpa [nestings] using ih st r
  | @elem parent before group after tag attrs body w hm ha hb hw ihb ihw =>
    simp only [List.cons_append, List.append_assoc, nestings]
    rw [ihb, ihb]
    simp only [nestings, List.tail_cons, List.cons_append, List.append_assoc]
    rw [ihw]

theorem attributeUses_append (w r : List WEvent) :
    attributeUses (w ++ r) = attributeUses w ++ attributeUses r := by
  induction w with
  | nil => rfl
  | cons e w ih => cases e <;> simp [attributeUses, ih]

/-! ## Groups within groups -/

/-- Whatever is in the order of the first groups is in the order of the second. -/
def covers : List (List String) → List (List String) → Bool
  | [], _ => true
  | g :: a, [] => g.isEmpty && covers a []
  | g :: a, h :: b => (g.all (h.contains ·) && covers a (h :: b)) || covers (g :: a) b
termination_by a b => a.length + b.length

theorem covers_cons {g : List String} {a b : List (List String)} (h : covers (g :: a) b = true)
    {t : String} (ht : t ∈ g) :
    ∃ pre k post, b = pre ++ k :: post ∧ t ∈ k ∧ covers (g :: a) (k :: post) = true := by
  induction b with
  | nil =>
    simp only [covers, Bool.and_eq_true, List.isEmpty_iff] at h
    rw [h.1] at ht
    cases ht
  | cons k b ih =>
    have h0 := h
    rw [covers] at h
    simp only [Bool.or_eq_true, Bool.and_eq_true, List.all_eq_true, List.contains_eq_mem,
      decide_eq_true_eq] at h
    rcases h with h | h
    · exact ⟨[], k, b, rfl, h.1 t ht, h0⟩
    · obtain ⟨pre, k', post, rfl, hk⟩ := ih h
      exact ⟨k :: pre, k', post, rfl, hk⟩

theorem covers_tail {g : List String} {a b : List (List String)} (h : covers (g :: a) b = true) :
    covers a b = true := by
  induction b with
  | nil =>
    simp only [covers, Bool.and_eq_true] at h
    exact h.2
  | cons k b ih =>
    rw [covers] at h
    simp only [Bool.or_eq_true, Bool.and_eq_true] at h
    rcases h with h | h
    · exact h.2
    · have := ih h
      cases a with
      | nil => simp [covers]
      | cons g' a => rw [covers]; simp [this]

theorem covers_drop {pre a b : List (List String)} (h : covers (pre ++ a) b = true) :
    covers a b = true := by
  induction pre with
  | nil => exact h
  | cons g pre ih => exact ih (covers_tail h)

theorem covers_more {a b : List (List String)} {k : List String} (h : covers a b = true) :
    covers a (k :: b) = true := by
  cases a with
  | nil => simp [covers]
  | cons g a => rw [covers]; simp [h]

/-- The groups without the child elements that are written in another way. -/
def without (p : String) (l : List (List String)) : List (List String) :=
  l.map fun g => g.filter fun t => !ownNestings.contains (p, t)

theorem covers_without (p : String) (l : List (List String)) : covers (without p l) l = true := by
  induction l with
  | nil => simp [without, covers]
  | cons g l ih =>
    rw [show without p (g :: l) = (g.filter fun t => !ownNestings.contains (p, t)) :: without p l from rfl,
      covers]
    simp only [Bool.or_eq_true, Bool.and_eq_true, List.all_eq_true]
    refine .inl ⟨fun t ht => ?_, covers_more ih⟩
    simpa using (List.mem_filter.mp ht).1

theorem lookup_key {β : Type} {l : List (String × β)} {k : String} {x : β} (h : l.lookup k = some x) :
    k ∈ l.map (·.1) := by
  induction l with
  | nil => cases h
  | cons e l ih =>
    obtain ⟨k', y⟩ := e
    rw [List.lookup_cons] at h
    split at h
    · rename_i he
      simp [eq_of_beq he]
    · simp [ih h]

theorem written_covers (v : SpecVersion) (tag : String) :
    covers (without tag (writtenElement v tag).children) (formatElement v tag).children = true := by
  cases hl : ownChildren.lookup tag with
  | none =>
    have : (writtenElement v tag).children = (formatElement v tag).children := by
      simp [writtenElement, formatElement, hl]
    rw [this]
    exact covers_without _ _
  | some x =>
    have hk := lookup_key hl
    clear hl
    have : ∀ t ∈ ownChildren.map (·.1),
        covers (without t (writtenElement v t).children) (formatElement v t).children = true := by
      cases v <;> decide +kernel
    exact this tag hk

theorem written_attributes (v : SpecVersion) (tag a : String)
    (h : a ∈ (writtenElement v tag).attributes) (hu : (tag, a) ∉ ownAttributeUses v) :
    a ∈ (formatElement v tag).attributes := by
  cases hl : ownAttributes.lookup tag with
  | none =>
    have : (writtenElement v tag).attributes = (formatElement v tag).attributes := by
      simp [writtenElement, formatElement, hl]
    rwa [← this]
  | some x =>
    have hk := lookup_key hl
    clear hl
    have : ∀ t ∈ ownAttributes.map (·.1), ∀ a ∈ (writtenElement v t).attributes,
        (t, a) ∈ ownAttributeUses v ∨ a ∈ (formatElement v t).attributes := by
      cases v <;> decide +kernel
    exact (this tag hk a h).resolve_left hu

theorem arranged_format {v : SpecVersion} {p : String} {l : List (List String)} {w : List WEvent}
    (h : Arranged (writtenElement v) p l w) :
    ∀ (st : List String) (l' : List (List String)), covers (without p l) l' = true →
      (∀ q ∈ nestings (p :: st) w, q ∉ ownNestings) →
      (∀ q ∈ attributeUses w, q ∉ ownAttributeUses v) → Arranged (formatElement v) p l' w := by
  induction h with
  | nil => intros; exact .nil
  | chars _ ih =>
    intro st l' hc hn hu
    exact .chars (ih st l' hc (by simpa [nestings] using hn) (by simpa [attributeUses] using hu))
  | cdata _ ih =>
    intro st l' hc hn hu
    exact .cdata (ih st l' hc (by simpa [nestings] using hn) (by simpa [attributeUses] using hu))
  | @elem p before group after tag attrs body w hm ha hb hw ihb ihw =>
    intro st l' hc hn hu
    simp only [nestings, List.headD_cons] at hn
    rw [nestings_append hb] at hn
    simp only [nestings, List.tail_cons, List.mem_cons, List.mem_append] at hn
    simp only [attributeUses, attributeUses_append, List.mem_append, List.mem_map] at hu
    have hc1 : covers (without p (group :: after)) l' = true := by
      have : without p (before ++ group :: after) = without p before ++ without p (group :: after) := by
        simp [without]
      rw [this] at hc
      exact covers_drop hc
    have hm' : tag ∈ group.filter fun t => !ownNestings.contains (p, t) := by
      refine List.mem_filter.mpr ⟨hm, ?_⟩
      have := hn (p, tag) (.inl rfl)
      simpa using this
    obtain ⟨pre, k, post, rfl, hk, hc2⟩ := covers_cons hc1 hm'
    refine Arranged.elem hk ?_ ?_ ?_
    · intro a h
      exact written_attributes v tag a.1 (ha a h) (hu _ (.inl ⟨a, h, rfl⟩))
    · exact ihb (p :: st) _ (written_covers v tag) (fun q h => hn q (.inr (.inl h)))
        (fun q h => hu q (.inr (.inl h)))
    · exact ihw st _ hc2 (fun q h => hn q (.inr (.inr h))) (fun q h => hu q (.inr (.inr h)))

/-! ## Deciding -/

/-- Checks the order of elements from left to right; each entry of the stack is what may still come
in an element that is open. -/
def inOrder (E : String → Element) : List (List (List String)) → List WEvent → Bool
  | _, [] => true
  | st, .chars _ :: w => inOrder E st w
  | st, .cdata _ :: w => inOrder E st w
  | st, .stop :: w => inOrder E st.tail w
  | st, .start tag attrs :: w =>
    let l := (st.headD []).dropWhile fun g => !g.contains tag
    !l.isEmpty && attrs.all (fun a => (E tag).attributes.contains a.1) &&
      inOrder E ((E tag).children :: l :: st.tail) w

theorem dropWhile_suffix {tag : String} {group : List String} {after : List (List String)}
    (hm : tag ∈ group) (pre : List (List String)) :
    ∃ pre', (pre ++ group :: after).dropWhile (fun g => !g.contains tag) = pre' ++ group :: after := by
  induction pre with
  | nil => exact ⟨[], by simp [List.dropWhile_cons, hm]⟩
  | cons g pre ih =>
    rw [List.cons_append, List.dropWhile_cons]
    split
    · exact ih
    · exact ⟨g :: pre, rfl⟩

theorem arranged_inOrder {E : String → Element} {p : String} {l : List (List String)} {w : List WEvent}
    (h : Arranged E p l w) : ∀ (pre : List (List String)) (st : List (List (List String))) (r : List WEvent),
      ∃ l1, inOrder E ((pre ++ l) :: st) (w ++ r) = inOrder E (l1 :: st) r := by
  induction h with
  | nil => intro pre st r; exact ⟨_, rfl⟩
  | chars _ ih => intro pre st r; simpa [inOrder] using ih pre st r
  | cdata _ ih => intro pre st r; simpa [inOrder] using ih pre st r
  | @elem p before group after tag attrs body w hm ha hb hw ihb ihw =>
    intro pre st r
    obtain ⟨pre', hp⟩ := dropWhile_suffix (after := after) hm (pre ++ before)
    rw [List.append_assoc] at hp
    have ha' : attrs.all (fun a => (E tag).attributes.contains a.1) = true := by
      simp only [List.all_eq_true, List.contains_eq_mem, decide_eq_true_eq]
      exact ha
    obtain ⟨l1, h1⟩ := ihb [] ((pre' ++ group :: after) :: st) (.stop :: (w ++ r))
    obtain ⟨l2, h2⟩ := ihw pre' st r
    refine ⟨l2, ?_⟩
    simp only [List.cons_append, List.append_assoc, inOrder, List.headD_cons, List.tail_cons, hp, ha']
    rw [List.nil_append] at h1
    rw [h1]
    simp only [inOrder, List.tail_cons, h2]
    simp

theorem arranged_document {E : String → Element} {w : List WEvent} (h : ArrangedDocument E w) :
    inOrder E [[["bom"]]] w = true := by
  obtain ⟨attrs, body, rfl, ha, hb⟩ := h
  obtain ⟨l1, h1⟩ := arranged_inOrder hb [] [[["bom"]]] [.stop]
  have ha' : attrs.all (fun a => (E "bom").attributes.contains a.1) = true := by
    simp only [List.all_eq_true, List.contains_eq_mem, decide_eq_true_eq]
    exact ha
  rw [List.nil_append] at h1
  simp only [inOrder, List.headD_cons, List.tail_cons, ha']
  rw [show ([["bom"]] : List (List String)).dropWhile (fun g => !g.contains "bom") = [["bom"]] by decide, h1]
  simp [inOrder]

end Cdx
