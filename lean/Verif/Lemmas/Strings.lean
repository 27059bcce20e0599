import Verif.Model.Strings

/-!
# Lemmas about the string functions
-/

set_option linter.unusedSectionVars false
set_option linter.unusedSimpArgs false

namespace Cdx

theorem dropWhile_cons {p : α → Bool} {l : List α} {c : α} {r : List α}
    (h : l.dropWhile p = c :: r) : p c = false ∧ l = l.takeWhile p ++ c :: r := by
  have h1 := (List.takeWhile_append_dropWhile (p := p) (l := l)).symm
  rw [h] at h1
  refine ⟨?_, h1⟩
  have := List.head_dropWhile_not (p := p) (l := l) (by rw [h]; simp)
  simpa [h] using this

theorem mem_takeWhile_imp {p : α → Bool} {l : List α} {c : α} (h : c ∈ l.takeWhile p) :
    p c = true := by
  induction l with
  | nil => simp at h
  | cons a l ih =>
    rw [List.takeWhile_cons] at h
    split at h
    · rcases List.mem_cons.1 h with rfl | h
      · assumption
      · exact ih h
    · simp at h

theorem splitOnceChars_eq {c : Char} {s a b : List Char} (h : splitOnceChars c s = some (a, b)) :
    s = a ++ c :: b ∧ c ∉ a := by
  unfold splitOnceChars at h
  split at h
  · cases h
  · next d rest hd =>
    cases h
    obtain ⟨h1, h2⟩ := dropWhile_cons hd
    have : d = c := by simpa using h1
    subst this
    refine ⟨h2, fun hm => ?_⟩
    have := mem_takeWhile_imp hm
    simp at this

theorem takeWhile_append_cons {p : α → Bool} {a : List α} {c : α} {b : List α}
    (ha : ∀ x ∈ a, p x = true) (hc : p c = false) :
    (a ++ c :: b).takeWhile p = a ∧ (a ++ c :: b).dropWhile p = c :: b := by
  induction a with
  | nil => simp [hc]
  | cons x a ih =>
    have hx := ha x List.mem_cons_self
    have := ih (fun y hy => ha y (List.mem_cons_of_mem _ hy))
    simp [List.takeWhile_cons, List.dropWhile_cons, hx, this]

theorem takeWhile_all {p : α → Bool} {a : List α} (ha : ∀ x ∈ a, p x = true) :
    a.takeWhile p = a ∧ a.dropWhile p = [] := by
  induction a with
  | nil => simp
  | cons x a ih =>
    have hx := ha x List.mem_cons_self
    have := ih (fun y hy => ha y (List.mem_cons_of_mem _ hy))
    simp [List.takeWhile_cons, List.dropWhile_cons, hx, this]

theorem splitOnceChars_append {c : Char} {a b : List Char} (h : c ∉ a) :
    splitOnceChars c (a ++ c :: b) = some (a, b) := by
  unfold splitOnceChars
  obtain ⟨h1, h2⟩ := takeWhile_append_cons (p := fun x => decide (x ≠ c)) (a := a) (c := c) (b := b)
    (fun x hx => by simp; rintro rfl; exact h hx) (by simp)
  rw [h1, h2]

theorem split_first {c : α} {a : List α} [DecidableEq α] (h : c ∈ a) :
    ∃ x y, a = x ++ c :: y ∧ c ∉ x := by
  induction a with
  | nil => simp at h
  | cons d a ih =>
    by_cases e : c = d
    · subst e; exact ⟨[], a, rfl, by simp⟩
    · rcases List.mem_cons.1 h with h | h
      · exact absurd h e
      · obtain ⟨x, y, rfl, hx⟩ := ih h
        exact ⟨d :: x, y, rfl, by simp [e, hx]⟩

theorem splitOnceChars_none {c : Char} {a : List Char} :
    splitOnceChars c a = none ↔ c ∉ a := by
  constructor
  · intro h hm
    obtain ⟨x, y, e, hx⟩ := split_first hm
    rw [e, splitOnceChars_append hx] at h; cases h
  · intro h
    unfold splitOnceChars
    rw [(takeWhile_all (p := fun x => decide (x ≠ c)) (a := a)
      (fun x hx => by simp; rintro rfl; exact h hx)).2]

theorem stripPrefixChars_iff {p l r : List Char} : stripPrefixChars p l = some r ↔ l = p ++ r := by
  induction p generalizing l with
  | nil => simp [stripPrefixChars, eq_comm]
  | cons c p ih =>
    cases l with
    | nil => simp [stripPrefixChars]
    | cons d l =>
      simp only [stripPrefixChars]
      split
      · next e => subst e; rw [ih]; simp
      · next e =>
        constructor
        · intro h; cases h
        · intro h; simp at h; exact absurd h.1.symm e

theorem startsWith_iff {s p : String} : startsWith s p = true ↔ ∃ r, s = p ++ r := by
  unfold startsWith
  rw [Option.isSome_iff_exists]
  constructor
  · rintro ⟨r, h⟩
    refine ⟨String.ofList r, ?_⟩
    apply String.toList_inj.1
    rw [stripPrefixChars_iff.1 h]; simp
  · rintro ⟨r, rfl⟩
    exact ⟨r.toList, stripPrefixChars_iff.2 (by simp)⟩

end Cdx
