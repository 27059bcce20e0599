import Verif.Spec.XmlWritten

/-!
# Lemmas: a check that finds written documents that are not valid
-/

namespace Cdx.Conforming

open Spec

mutual
/-- A node without namespaces, and without what is no content. -/
def strip : XNode → List XNode
  | .elem n attrs _ content => [.elem ⟨n.localName, none, none⟩ attrs none (stripAll content)]
  | .chars s => [.chars s]
  | .cdata s => [.cdata s]
  | .other => []

def stripAll : List XNode → List XNode
  | [] => []
  | x :: l => strip x ++ stripAll l
end

/-- The nodes that are written with the given events. -/
def build : List WEvent → List XNode → List (String × List (String × String) × List XNode) → Option (List XNode)
  | [], cur, [] => some cur.reverse
  | [], _, _ :: _ => none
  | .start n a :: w, cur, st => build w [] ((n, a, cur) :: st)
  | .stop :: w, cur, (n, a, prev) :: st => build w (.elem ⟨n, none, none⟩ a none cur.reverse :: prev) st
  | .stop :: _, _, [] => none
  | .chars s :: w, cur, st => build w (.chars s :: cur) st
  | .cdata s :: w, cur, st => build w (.cdata s :: cur) st

mutual
theorem build_written : ∀ (x : XNode) (w cur st), build (written x ++ w) cur st = build w ((strip x).reverse ++ cur) st
  | .elem n attrs ns content, w, cur, st => by
    simp only [written, strip, List.cons_append, List.append_assoc, build, List.nil_append]
    rw [build_writtenAll content]
    simp [build]
  | .chars s, w, cur, st => by simp [written, strip, build]
  | .cdata s, w, cur, st => by simp [written, strip, build]
  | .other, w, cur, st => by simp [written, strip]

theorem build_writtenAll : ∀ (l : List XNode) (w cur st),
    build (writtenAll l ++ w) cur st = build w ((stripAll l).reverse ++ cur) st
  | [], w, cur, st => by simp [writtenAll, stripAll]
  | x :: l, w, cur, st => by
    simp only [writtenAll, stripAll, List.append_assoc]
    rw [build_written x, build_writtenAll l]
    simp
end

theorem build_root {x : XNode} {w} (h : written x = w) : build w [] [] = some (strip x) := by
  have := build_written x [] [] []
  rw [List.append_nil, h] at this
  simpa [build] using this

/-- Texts that may be of a type. -/
def mayAdmit : TextType → String → Bool
  | .string, _ => true
  | .boolean, s => s == "true" || s == "false" || s == "1" || s == "0"
  | _, s => s.toList.all fun c => c.isDigit || c == '+' || c == '-' || c == '.'

theorem mayAdmit_of {t : TextType} {s} (h : t.Admits s) : mayAdmit t s = true := by
  have sign : ∀ {l}, IsSign l → ∀ c ∈ l, (c.isDigit || c == '+' || c == '-' || c == '.') = true := by
    intro l h c hc
    rcases h with rfl | rfl | rfl <;> simp at hc <;> subst hc <;> decide
  have dig : ∀ {l}, AreDigits l → ∀ c ∈ l, (c.isDigit || c == '+' || c == '-' || c == '.') = true := by
    intro l h c hc
    rw [h c hc]; rfl
  cases t with
  | string => rfl
  | boolean => simpa [mayAdmit, TextType.Admits, or_assoc] using h
  | integer =>
    obtain ⟨a, b, ha, -, hb, e⟩ := h
    simp only [mayAdmit, e, List.all_eq_true]
    intro c hc
    rcases List.mem_append.mp hc with hc | hc
    · exact sign ha c hc
    · exact dig hb c hc
  | decimal =>
    obtain ⟨a, b, d, ha, hb, hd, h⟩ := h
    simp only [mayAdmit, List.all_eq_true]
    intro c hc
    rcases h with ⟨-, e⟩ | ⟨-, e⟩ <;> rw [e] at hc
    · rcases List.mem_append.mp hc with hc | hc
      · exact sign ha c hc
      · exact dig hb c hc
    · rcases List.mem_append.mp hc with hc | hc
      · rcases List.mem_append.mp hc with hc | hc
        · exact sign ha c hc
        · exact dig hb c hc
      · rcases List.mem_cons.mp hc with rfl | hc
        · decide
        · exact dig hd c hc

/-- Names that follow a sequence, with all ways to split them. -/
def mayFollow : List Particle → List String → Bool
  | [], names => names.isEmpty
  | p :: l, names => (List.range (names.length + 1)).any fun k =>
      (names.take k).all (fun n => (p.items.map (·.1)).contains n) && decide (p.least ≤ k) &&
        (match p.most with | some m => decide (k ≤ m) | none => true) && mayFollow l (names.drop k)

theorem mayFollow_of : ∀ {l : List Particle} {names : List String}, Follows l names → mayFollow l names = true
  | [], names, h => by
    have h : names = [] := h
    subst h; rfl
  | p :: l, names, h => by
    obtain ⟨piece, rest, rfl, hi, hl, hm, hr⟩ := h
    simp only [mayFollow, List.any_eq_true]
    refine ⟨piece.length, by simp only [List.mem_range, List.length_append]; omega, ?_⟩
    rw [List.take_left' rfl, List.drop_left' rfl, mayFollow_of hr]
    simp only [Bool.and_true, Bool.and_eq_true, decide_eq_true_eq, List.all_eq_true]
    refine ⟨⟨fun n hn => by simpa [List.contains_eq_mem] using hi n hn, hl⟩, ?_⟩
    cases h : p.most with
    | none => rfl
    | some m => simpa using hm m h

/-- An element may be valid. -/
def mayBeValid (v : SpecVersion) (t : ElementType) (attrs : List (String × String)) (content : List XNode) : Bool :=
  decide (attrs.map (·.1)).Nodup && attrs.all (fun a => ((t.attributes v).map (·.name)).contains a.1) &&
  (t.attributes v).all (fun a => !a.required || (attrs.lookup a.name).isSome) &&
  match t.rule.content with
  | .text type => content.all (fun x => (textOf x).isSome) && mayAdmit type (String.join (content.filterMap textOf))
  | .children _ => content.all (fun x => (nameOf x).isSome) &&
      (t.choices v).any fun l => mayFollow l (content.filterMap nameOf)

theorem filterMap_of_map {α β : Type} {f : α → Option β} : ∀ {l : List α} {r : List β}, l.map f = r.map some →
    l.filterMap f = r ∧ (l.all fun x => (f x).isSome) = true
  | [], [], _ => by simp
  | [], _ :: _, h => by simp at h
  | _ :: _, [], h => by simp at h
  | a :: l, b :: r, h => by
    simp only [List.map_cons, List.cons.injEq] at h
    obtain ⟨h1, h2⟩ := filterMap_of_map h.2
    simp [h.1, h1, h2]

theorem strip_map {β : Type} (f : XNode → Option β) (hf : ∀ n attrs ns content,
      f (.elem n attrs ns content) = f (.elem ⟨n.localName, none, none⟩ attrs none (stripAll content))) :
    ∀ l : List XNode, (l.filter isContent).map f = (stripAll l).map f
  | [] => by simp [stripAll]
  | x :: l => by
    have := strip_map f hf l
    cases x with
    | elem n attrs ns content =>
      rw [List.filter_cons_of_pos rfl, List.map_cons, this, hf n attrs ns content]
      simp only [stripAll, strip, List.singleton_append, List.map_cons]
    | chars s =>
      rw [List.filter_cons_of_pos rfl, List.map_cons, this]
      simp only [stripAll, strip, List.singleton_append, List.map_cons]
    | cdata s =>
      rw [List.filter_cons_of_pos rfl, List.map_cons, this]
      simp only [stripAll, strip, List.singleton_append, List.map_cons]
    | other => simpa [stripAll, strip, isContent] using this

theorem mayBeValid_of {v t attrs content} (h : ValidElement v t attrs content) : mayBeValid v t attrs (stripAll content) = true := by
  obtain ⟨⟨ha, hc⟩, hn, hl⟩ := h
  unfold mayBeValid
  simp only [Bool.and_eq_true]
  refine ⟨⟨⟨decide_eq_true hn, ?_⟩, ?_⟩, ?_⟩
  · rw [List.all_eq_true]
    intro a h
    simpa [List.contains_eq_mem] using hl a h
  · rw [List.all_eq_true]
    intro a h
    cases hr : a.required with
    | false => rfl
    | true =>
      obtain ⟨s, hs⟩ := (ha a h).1 hr
      rw [hs]; rfl
  · unfold ContentConforms at hc
    cases hr : t.rule.content with
    | text type =>
      rw [hr] at hc
      obtain ⟨texts, ht, had⟩ := hc
      rw [strip_map textOf (fun _ _ _ _ => rfl)] at ht
      obtain ⟨h1, h2⟩ := filterMap_of_map ht
      simp only [h1, h2, mayAdmit_of had, Bool.and_self]
    | children c =>
      rw [hr] at hc
      obtain ⟨names, ht, l, hl, hf⟩ := hc
      rw [strip_map nameOf (fun _ _ _ _ => rfl)] at ht
      obtain ⟨h1, h2⟩ := filterMap_of_map ht
      simp only [h1, h2, Bool.true_and, List.any_eq_true]
      exact ⟨l, hl, mayFollow_of hf⟩

mutual
/-- An element and those in it may be valid. -/
def mayPass (v : SpecVersion) (t : ElementType) : XNode → Bool
  | .elem _ attrs _ content => mayBeValid v t attrs content && mayPassAll v t content
  | .chars _ => true
  | .cdata _ => true
  | .other => true

def mayPassAll (v : SpecVersion) (t : ElementType) : List XNode → Bool
  | [] => true
  | x :: l => (match nameOf x with
      | some n => match t.child v n with
        | some t' => mayPass v t' x
        | none => true
      | none => true) && mayPassAll v t l
end

mutual
theorem mayPass_of : ∀ (x : XNode) (v t), Throughout (ValidElement v) v t x → ∀ y ∈ strip x, mayPass v t y = true
  | .elem n attrs ns content, v, t, h, y, hy => by
    rw [strip, List.mem_singleton] at hy
    subst hy
    rw [Throughout] at h
    rw [mayPass, mayBeValid_of h.1, mayPassAll_of content v t h.2]
    rfl
  | .chars s, v, t, h, y, hy => by
    rw [strip, List.mem_singleton] at hy
    subst hy; rfl
  | .cdata s, v, t, h, y, hy => by
    rw [strip, List.mem_singleton] at hy
    subst hy; rfl
  | .other, v, t, h, y, hy => by
    rw [strip] at hy
    cases hy

theorem mayPassAll_of : ∀ (l : List XNode) (v t), ThroughoutAll (ValidElement v) v t l → mayPassAll v t (stripAll l) = true
  | [], v, t, h => by simp [stripAll, mayPassAll]
  | x :: l, v, t, h => by
    rw [ThroughoutAll] at h
    have h2 := mayPassAll_of l v t h.2
    have h1 := fun n hn t' ht' => mayPass_of x v t' (h.1 n hn t' ht')
    cases x with
    | elem n attrs ns content =>
      simp only [stripAll, strip, List.singleton_append, mayPassAll, nameOf, h2, Bool.and_true]
      cases hc : t.child v n.localName with
      | none => rfl
      | some t' => exact h1 _ rfl t' hc _ (by simp [strip])
    | chars s => simp [stripAll, strip, mayPassAll, nameOf, h2]
    | cdata s => simp [stripAll, strip, mayPassAll, nameOf, h2]
    | other => simpa [stripAll, strip] using h2
end

/-- The check on what is written. -/
def mayPassWritten (v : SpecVersion) (w : List WEvent) : Bool :=
  match build w [] [] with
  | some l => l.all (mayPass v .bom)
  | none => true

theorem not_valid {v : SpecVersion} {w} (h : mayPassWritten v w = false) :
    ∀ root, written root = w → ¬ Throughout (ValidElement v) v .bom root := by
  intro root hw ht
  unfold mayPassWritten at h
  rw [build_root hw] at h
  have : (strip root).all (mayPass v .bom) = true := List.all_eq_true.mpr (mayPass_of root v _ ht)
  dsimp only at h
  rw [this] at h
  cases h

end Cdx.Conforming
