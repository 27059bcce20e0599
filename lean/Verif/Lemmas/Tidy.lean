import Verif.Lemmas.Written

/-!
# Lemmas: texts without outer white space
-/

set_option linter.unusedSectionVars false
set_option linter.unusedSimpArgs false

namespace Cdx

open Spec

/-- `NoOuterSpace` on characters. -/
def TidyChars (l : List Char) : Prop :=
  ∀ c : Char, (l.head? = some c ∨ l.getLast? = some c) → xmlSpace c = false

theorem xmlSpace_false_iff (c : Char) : xmlSpace c = false ↔ c ≠ ' ' ∧ c ≠ '\t' ∧ c ≠ '\n' ∧ c ≠ '\r' := by
  unfold xmlSpace
  simp only [Bool.or_eq_false_iff, beq_eq_false_iff_ne, ne_eq]
  constructor
  · rintro ⟨⟨⟨a, b⟩, c⟩, d⟩; exact ⟨a, c, b, d⟩
  · rintro ⟨a, b, c, d⟩; exact ⟨⟨⟨a, c⟩, b⟩, d⟩

theorem noOuterSpace_iff {s : String} : NoOuterSpace s ↔ TidyChars s.toList := by
  unfold NoOuterSpace TidyChars
  constructor <;> intro h c hc
  · exact (xmlSpace_false_iff c).mpr (h c hc)
  · exact (xmlSpace_false_iff c).mp (h c hc)

theorem dropWhile_eq_self {p : Char → Bool} {l : List Char} (h : ∀ c, l.head? = some c → p c = false) :
    l.dropWhile p = l := by
  cases l with
  | nil => rfl
  | cons a l => simp [List.dropWhile_cons, h a rfl]

theorem TidyChars.trimmed {s : String} (h : TidyChars s.toList) : Trimmed s := by
  unfold Trimmed xmlTrim
  rw [dropWhile_eq_self (fun c hc => h c (.inl hc)),
    dropWhile_eq_self (fun c hc => h c (.inr (by rw [List.head?_reverse] at hc; exact hc))),
    List.reverse_reverse, String.ofList_toList]

theorem Spec.NoOuterSpace.trimmed {s : String} (h : NoOuterSpace s) : Trimmed s :=
  (noOuterSpace_iff.mp h).trimmed

theorem replaceCrLf_head {c : Char} {l : List Char} (h : c ≠ '\r') :
    (replaceCrLf (c :: l)).head? = some c := by
  cases l with
  | nil => rfl
  | cons d l => simp [replaceCrLf, h]

theorem replaceCrLf_ne_nil {l : List Char} (h : l ≠ []) : replaceCrLf l ≠ [] := by
  match l, h with
  | [c], _ => simp [replaceCrLf]
  | c :: d :: l, _ => unfold replaceCrLf; split <;> simp

theorem getLast?_cons_ne {α : Type} {a : α} {l : List α} (h : l ≠ []) :
    (a :: l).getLast? = l.getLast? := by
  cases l with
  | nil => exact absurd rfl h
  | cons b l => rfl

theorem replaceCrLf_last {c : Char} : ∀ {l : List Char}, l.getLast? = some c → c ≠ '\n' →
    (replaceCrLf l).getLast? = some c
  | [], h, _ => by cases h
  | [d], h, _ => h
  | d :: e :: l, h, hc => by
    have h' : (e :: l).getLast? = some c := h
    unfold replaceCrLf
    split
    · rename_i he
      have hl : l ≠ [] := by
        rintro rfl
        simp only [List.getLast?_singleton, Option.some.injEq] at h'
        exact hc (h' ▸ he.2)
      rw [getLast?_cons_ne (replaceCrLf_ne_nil hl)]
      rw [getLast?_cons_ne hl] at h'
      exact replaceCrLf_last h' hc
    · rw [getLast?_cons_ne (replaceCrLf_ne_nil (by simp))]
      exact replaceCrLf_last h' hc

theorem isCrLfTab_of {c : Char} (h : xmlSpace c = false) : isCrLfTab c = false := by
  obtain ⟨_, h2, h3, h4⟩ := (xmlSpace_false_iff c).mp h
  unfold isCrLfTab
  simp [h2, h3, h4]

theorem TidyChars.normalized {l : List Char} (h : TidyChars l) :
    TidyChars (replaceCrLfTab (replaceCrLf l)) := by
  by_cases hl : l = []
  · subst hl; intro c hc; simp [replaceCrLf, replaceCrLfTab] at hc
  · obtain ⟨a, l', rfl⟩ := List.exists_cons_of_ne_nil hl
    have ha := h a (.inl rfl)
    obtain ⟨z, hz⟩ : ∃ z, (a :: l').getLast? = some z := by
      cases e : (a :: l').getLast? with
      | none => simp at e
      | some z => exact ⟨z, rfl⟩
    have hzs := h z (.inr hz)
    have h1 := replaceCrLf_head (l := l') ((xmlSpace_false_iff a).mp ha).2.2.2
    have h2 := replaceCrLf_last hz ((xmlSpace_false_iff z).mp hzs).2.2.1
    intro c hc
    unfold replaceCrLfTab at hc
    rw [List.head?_map, List.getLast?_map, h1, h2] at hc
    simp only [Option.map_some, isCrLfTab_of ha, isCrLfTab_of hzs, Bool.false_eq_true, if_false,
      Option.some.injEq] at hc
    rcases hc with rfl | rfl
    · exact ha
    · exact hzs

theorem normalized_trimmed {s : String} (h : TidyChars s.toList) : Trimmed (normalizedString s) := by
  refine TidyChars.trimmed ?_
  unfold normalizedString
  rw [String.toList_ofList]
  exact h.normalized

theorem normalized_ne_empty {s : String} (h : s ≠ "") : normalizedString s ≠ "" := by
  unfold normalizedString
  intro e
  have e' := congrArg String.toList e
  rw [String.toList_ofList] at e'
  have : s.toList ≠ [] := fun h' => h (by rw [← String.ofList_toList (s := s), h'])
  have := replaceCrLf_ne_nil this
  unfold replaceCrLfTab at e'
  exact this (List.map_eq_nil_iff.mp e')

theorem isWhitespace_of {c : Char} (h : isWhitespace c = false) : xmlSpace c = false := by
  rw [xmlSpace_false_iff]
  refine ⟨?_, ?_, ?_, ?_⟩ <;> rintro rfl <;> revert h <;> decide

theorem head?_dropWhile_not {p : Char → Bool} {l : List Char} {c : Char}
    (h : (l.dropWhile p).head? = some c) : p c = false := by
  induction l with
  | nil => cases h
  | cons a l ih =>
    rw [List.dropWhile_cons] at h
    split at h
    · exact ih h
    · simp only [List.head?_cons, Option.some.injEq] at h
      subst h
      simpa using ‹¬ p a = true›

theorem getLast?_dropWhile {p : Char → Bool} {l : List Char} {c : Char}
    (h : (l.dropWhile p).getLast? = some c) : l.getLast? = some c := by
  induction l with
  | nil => exact h
  | cons a l ih =>
    rw [List.dropWhile_cons] at h
    split at h
    · have := ih h
      rw [getLast?_cons_ne]
      · exact this
      · rintro rfl; cases this
    · exact h

theorem trimChars_tidy (l : List Char) : TidyChars (trimChars l) := by
  intro c hc
  unfold trimChars trimStartChars at hc
  rw [List.head?_reverse, List.getLast?_reverse] at hc
  rcases hc with hc | hc
  · have := getLast?_dropWhile hc
    rw [List.getLast?_reverse] at this
    exact isWhitespace_of (head?_dropWhile_not this)
  · exact isWhitespace_of (head?_dropWhile_not hc)

theorem trim_tidy (s : String) : TidyChars (trim s).toList := by
  unfold trim
  rw [String.toList_ofList]
  exact trimChars_tidy _

theorem TidyChars.of_all {l : List Char} (h : ∀ c ∈ l, xmlSpace c = false) : TidyChars l := by
  intro c hc
  rcases hc with hc | hc
  · exact h c (List.mem_of_head? hc)
  · exact h c (List.mem_of_getLast? hc)

theorem hexDigit_notSpace : ∀ n, n < 16 → xmlSpace (hexDigit n) = false := by decide

theorem b64Char_notSpace : ∀ n, n < 64 → xmlSpace (b64Char n) = false := by decide

theorem hexBytes_tidy (bs : List UInt8) : TidyChars (hexBytes bs) := by
  refine .of_all ?_
  intro c hc
  unfold hexBytes at hc
  obtain ⟨b, _, hc⟩ := List.mem_flatMap.mp hc
  have := b.toNat_lt
  simp only [List.mem_cons, List.not_mem_nil, or_false] at hc
  rcases hc with rfl | rfl
  · exact hexDigit_notSpace _ (by omega)
  · exact hexDigit_notSpace _ (by omega)

theorem b64Encode_notSpace : ∀ (bs : List UInt8), ∀ c ∈ b64Encode bs, xmlSpace c = false
  | [] => by intro c hc; cases hc
  | [a] => by
    intro c hc
    have := a.toNat_lt
    simp only [b64Encode, List.mem_cons, List.not_mem_nil, or_false] at hc
    rcases hc with rfl | rfl | rfl | rfl
    · exact b64Char_notSpace _ (by omega)
    · exact b64Char_notSpace _ (by omega)
    · rfl
    · rfl
  | [a, b] => by
    intro c hc
    have := a.toNat_lt
    have := b.toNat_lt
    simp only [b64Encode, List.mem_cons, List.not_mem_nil, or_false] at hc
    rcases hc with rfl | rfl | rfl | rfl
    · exact b64Char_notSpace _ (by omega)
    · exact b64Char_notSpace _ (by omega)
    · exact b64Char_notSpace _ (by omega)
    · rfl
  | a :: b :: d :: l => by
    intro c hc
    have := a.toNat_lt
    have := b.toNat_lt
    have := d.toNat_lt
    simp only [b64Encode, List.mem_cons] at hc
    rcases hc with rfl | rfl | rfl | rfl | hc
    · exact b64Char_notSpace _ (by omega)
    · exact b64Char_notSpace _ (by omega)
    · exact b64Char_notSpace _ (by omega)
    · exact b64Char_notSpace _ (by omega)
    · exact b64Encode_notSpace l c hc

theorem b64Encode_ne_nil : ∀ {bs : List UInt8}, bs ≠ [] → b64Encode bs ≠ []
  | [], h => absurd rfl h
  | [_], _ => by simp [b64Encode]
  | [_, _], _ => by simp [b64Encode]
  | _ :: _ :: _ :: _, _ => by simp [b64Encode]

theorem utf8Bytes_ne_nil {s : String} (h : s ≠ "") : utf8Bytes s ≠ [] := by
  intro e
  apply h
  unfold utf8Bytes at e
  have h1 : s.toUTF8.size = 0 := by
    rw [ByteArray.size, ← Array.length_toList, e]; rfl
  have h2 : s.utf8ByteSize = 0 := h1
  exact String.utf8ByteSize_eq_zero_iff.mp h2

/-! ## Joined and replaced texts -/

theorem intercalate_tidy {sep : List Char} : ∀ {ls : List (List Char)},
    (∀ l ∈ ls, l ≠ [] ∧ TidyChars l) → ls ≠ [] →
    TidyChars (List.intercalate sep ls) ∧ List.intercalate sep ls ≠ []
  | [], _, h => absurd rfl h
  | [a], h, _ => by
    rw [show List.intercalate sep [a] = a by simp [List.intercalate, List.intersperse]]
    exact ⟨(h a List.mem_cons_self).2, (h a List.mem_cons_self).1⟩
  | a :: b :: l, h, _ => by
    obtain ⟨ih1, ih2⟩ := intercalate_tidy (sep := sep) (fun x hx => h x (List.mem_cons_of_mem a hx))
      (by simp : b :: l ≠ [])
    obtain ⟨ha1, ha2⟩ := h a List.mem_cons_self
    have e : List.intercalate sep (a :: b :: l) = a ++ (sep ++ List.intercalate sep (b :: l)) := by
      simp [List.intercalate, List.intersperse]
    rw [e]
    refine ⟨?_, by simp [ha1]⟩
    intro c hc
    rcases hc with hc | hc
    · obtain ⟨x, a', rfl⟩ := List.exists_cons_of_ne_nil ha1
      exact ha2 c (.inl hc)
    · rw [← List.append_assoc, List.getLast?_append] at hc
      cases hl : (List.intercalate sep (b :: l)).getLast? with
      | none => exact absurd (List.getLast?_eq_none_iff.mp hl) ih2
      | some z =>
        rw [hl] at hc
        simp only [Option.some_or, Option.some.injEq] at hc
        subst hc
        exact ih1 z (.inr hl)

theorem join_tidy {sep : String} {l : List String} (h : ∀ a ∈ l, a ≠ "" ∧ NoOuterSpace a) :
    TidyChars (joinStr sep l).toList := by
  unfold joinStr
  rw [String.toList_ofList]
  by_cases hl : l = []
  · subst hl; intro c hc; simp [List.intercalate, List.intersperse] at hc
  · refine (intercalate_tidy ?_ (by simpa using hl)).1
    intro x hx
    obtain ⟨a, ha, rfl⟩ := List.mem_map.mp hx
    obtain ⟨h1, h2⟩ := h a ha
    exact ⟨fun e => h1 (by rw [← String.ofList_toList (s := a), e]), noOuterSpace_iff.mp h2⟩

theorem replaceSlash_tidy {l : List Char} (h : TidyChars l) (h1 : l.head? ≠ some '/')
    (h2 : l.getLast? ≠ some '/') : TidyChars (replaceSlash l) := by
  by_cases hl : l = []
  · subst hl; intro c hc; simp [replaceSlash] at hc
  · intro c hc
    rcases hc with hc | hc
    · obtain ⟨a, l', rfl⟩ := List.exists_cons_of_ne_nil hl
      have ha : a ≠ '/' := fun e => h1 (by rw [e]; rfl)
      simp only [replaceSlash, List.flatMap_cons, ha, if_false, List.singleton_append,
        List.head?_cons, Option.some.injEq] at hc
      subst hc
      exact h _ (.inl rfl)
    · obtain ⟨l', a, rfl⟩ : ∃ l' a, l = l' ++ [a] := ⟨_, _, (List.dropLast_concat_getLast hl).symm⟩
      have ha : a ≠ '/' := fun e => h2 (by rw [e]; simp)
      simp only [replaceSlash, List.flatMap_append, List.flatMap_cons, List.flatMap_nil, ha, if_false,
        List.append_nil, List.getLast?_append, List.getLast?_singleton, Option.some_or,
        Option.some.injEq] at hc
      subst hc
      exact h _ (.inr (by simp))

end Cdx
