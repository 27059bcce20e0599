import Verif.Model.Regex

/-!
# Regular expression matching decides the language
-/

namespace Cdx

/-- The language of a regular expression, by the usual set-theoretic clauses. -/
def Re.Lang : Re → List Char → Prop
  | .zero, _ => False
  | .eps, l => l = []
  | .cls p, l => ∃ c, l = [c] ∧ p c = true
  | .alt a b, l => a.Lang l ∨ b.Lang l
  | .seq a b, l => ∃ x y, l = x ++ y ∧ a.Lang x ∧ b.Lang y
  | .star a, l => ∃ ls : List (List Char), l = ls.flatten ∧ ∀ x ∈ ls, a.Lang x

theorem Re.nullable_iff (r : Re) : r.nullable = true ↔ r.Lang [] := by
  induction r with
  | zero => simp [nullable, Lang]
  | eps => simp [nullable, Lang]
  | cls p => simp [nullable, Lang]
  | alt a b iha ihb => simp [nullable, Lang, iha, ihb]
  | seq a b iha ihb =>
    simp only [nullable, Bool.and_eq_true, iha, ihb, Lang]
    constructor
    · intro ⟨h1, h2⟩; exact ⟨[], [], rfl, h1, h2⟩
    · rintro ⟨x, y, h, h1, h2⟩
      have hh := List.append_eq_nil_iff.mp h.symm
      rw [hh.1] at h1; rw [hh.2] at h2
      exact ⟨h1, h2⟩
  | star a _ => simp only [nullable, Lang, true_iff]; exact ⟨[], rfl, by simp⟩

theorem star_cons {P : List Char → Prop} {c : Char} {l : List Char} :
    (∃ ls : List (List Char), c :: l = ls.flatten ∧ ∀ x ∈ ls, P x) ↔
      ∃ x y, l = x ++ y ∧ P (c :: x) ∧
        ∃ ls : List (List Char), y = ls.flatten ∧ ∀ x ∈ ls, P x := by
  constructor
  · rintro ⟨ls, h, hp⟩
    induction ls with
    | nil => simp at h
    | cons a ls ih =>
      cases a with
      | nil => exact ih (by simpa using h) (fun x hx => hp x (by simp [hx]))
      | cons d a =>
        simp only [List.flatten_cons, List.cons_append, List.cons.injEq] at h
        obtain ⟨rfl, h⟩ := h
        exact ⟨a, ls.flatten, h, hp _ (by simp), ls, rfl, fun x hx => hp x (by simp [hx])⟩
  · rintro ⟨x, y, rfl, hx, ls, rfl, hp⟩
    refine ⟨(c :: x) :: ls, by simp, ?_⟩
    intro z hz
    rcases List.mem_cons.mp hz with rfl | hz
    · exact hx
    · exact hp z hz

theorem Re.deriv_iff (c : Char) (r : Re) (l : List Char) :
    (r.deriv c).Lang l ↔ r.Lang (c :: l) := by
  induction r generalizing l with
  | zero => simp [deriv, Lang]
  | eps => simp [deriv, Lang]
  | cls p =>
    by_cases h : p c = true
    · simp only [deriv, h, if_true, Lang, List.cons.injEq]
      constructor
      · rintro rfl; exact ⟨c, ⟨rfl, rfl⟩, h⟩
      · rintro ⟨_, ⟨rfl, h⟩, _⟩; exact h
    · simp only [deriv, h, Lang, List.cons.injEq]
      constructor
      · intro hf; exact absurd hf (by simp [Lang])
      · rintro ⟨_, ⟨rfl, _⟩, h'⟩; exact absurd h' h
  | alt a b iha ihb => simp [deriv, Lang, iha, ihb]
  | seq a b iha ihb =>
    have hsplit : (∃ x y, c :: l = x ++ y ∧ a.Lang x ∧ b.Lang y) ↔
        (a.Lang [] ∧ b.Lang (c :: l)) ∨ ∃ x y, l = x ++ y ∧ a.Lang (c :: x) ∧ b.Lang y := by
      constructor
      · rintro ⟨x, y, h, hx, hy⟩
        cases x with
        | nil => exact .inl ⟨hx, by simpa [h] using hy⟩
        | cons d x =>
          simp only [List.cons_append, List.cons.injEq] at h
          obtain ⟨rfl, h⟩ := h
          exact .inr ⟨x, y, h, hx, hy⟩
      · rintro (⟨h1, h2⟩ | ⟨x, y, rfl, hx, hy⟩)
        · exact ⟨[], c :: l, rfl, h1, h2⟩
        · exact ⟨c :: x, y, rfl, hx, hy⟩
    by_cases hn : a.nullable = true
    · simp only [deriv, hn, if_true, Lang, iha, ihb, hsplit]
      have := (a.nullable_iff).mp hn
      grind
    · simp only [deriv, hn, Lang, hsplit]
      have : ¬ a.Lang [] := fun h => hn ((a.nullable_iff).mpr h)
      simp [this, Lang, iha]
  | star a ih =>
    simp only [deriv, Lang, star_cons, ih]

/-- The matcher decides the language. -/
theorem Re.matches_iff (r : Re) (l : List Char) : r.matches l = true ↔ r.Lang l := by
  induction l generalizing r with
  | nil => simp [Re.matches, r.nullable_iff]
  | cons c l ih => simp [Re.matches, ih, r.deriv_iff]

theorem Re.lang_chr (c : Char) (l : List Char) : (Re.chr c).Lang l ↔ l = [c] := by
  simp [Re.chr, Lang]

theorem Re.lang_lit (s : String) (l : List Char) : (Re.lit s).Lang l ↔ l = s.toList := by
  unfold Re.lit
  induction s.toList generalizing l with
  | nil => simp [Lang]
  | cons c cs ih =>
    simp only [List.foldr_cons, Lang, ih, Re.lang_chr]
    constructor
    · rintro ⟨x, y, rfl, rfl, rfl⟩; rfl
    · rintro rfl; exact ⟨[c], cs, rfl, rfl, rfl⟩

theorem Re.lang_rep_cls (p : Char → Bool) (n : Nat) (l : List Char) :
    (Re.rep n (.cls p)).Lang l ↔ l.length = n ∧ ∀ c ∈ l, p c = true := by
  induction n generalizing l with
  | zero => simp [Re.rep, Lang]; rintro rfl; simp
  | succ n ih =>
    simp only [Re.rep, Lang, ih]
    constructor
    · rintro ⟨_, y, rfl, ⟨c, rfl, hc⟩, rfl, hy⟩
      simp only [List.cons_append, List.nil_append, List.length_cons, true_and]
      intro d hd
      rcases List.mem_cons.mp hd with rfl | hd
      · exact hc
      · exact hy d hd
    · rintro ⟨h, hp⟩
      cases l with
      | nil => simp at h
      | cons c l =>
        exact ⟨[c], l, rfl, ⟨c, rfl, hp c (by simp)⟩, by simpa using h,
          fun d hd => hp d (by simp [hd])⟩

theorem Re.lang_star_cls (p : Char → Bool) (l : List Char) :
    (Re.star (.cls p)).Lang l ↔ ∀ c ∈ l, p c = true := by
  simp only [Lang]
  constructor
  · rintro ⟨ls, rfl, h⟩ c hc
    obtain ⟨x, hx, hcx⟩ := List.mem_flatten.mp hc
    obtain ⟨d, rfl, hd⟩ := h x hx
    rw [List.mem_singleton.mp hcx]; exact hd
  · intro h
    refine ⟨l.map fun c => [c], ?_, ?_⟩
    · induction l with
      | nil => rfl
      | cons c l ih =>
        simp only [List.map_cons, List.flatten_cons, List.cons_append, List.nil_append]
        rw [← ih (fun d hd => h d (by simp [hd]))]
    · intro x hx
      obtain ⟨c, hc, rfl⟩ := List.mem_map.mp hx
      exact ⟨c, rfl, h c hc⟩

theorem Re.lang_plus_cls (p : Char → Bool) (l : List Char) :
    (Re.plus (.cls p)).Lang l ↔ l ≠ [] ∧ ∀ c ∈ l, p c = true := by
  simp only [Re.plus, Lang]
  have := Re.lang_star_cls p
  simp only [Lang] at this
  simp only [this]
  constructor
  · rintro ⟨_, y, rfl, ⟨c, rfl, hc⟩, hy⟩
    refine ⟨by simp, ?_⟩
    intro d hd
    rcases List.mem_cons.mp hd with rfl | hd
    · exact hc
    · exact hy d hd
  · rintro ⟨h, hp⟩
    cases l with
    | nil => exact absurd rfl h
    | cons c l => exact ⟨[c], l, rfl, ⟨c, rfl, hp c (by simp)⟩, fun d hd => hp d (by simp [hd])⟩

theorem Re.lang_opt (r : Re) (l : List Char) : (Re.opt r).Lang l ↔ r.Lang l ∨ l = [] := by
  simp [Re.opt, Lang]

theorem Re.lang_cat_nil (l : List Char) : (Re.cat []).Lang l ↔ l = [] := by simp [Re.cat, Lang]

theorem Re.lang_cat_one (r : Re) (l : List Char) : (Re.cat [r]).Lang l ↔ r.Lang l := by
  simp [Re.cat]

theorem Re.lang_cat_cons (r r' : Re) (rs : List Re) (l : List Char) :
    (Re.cat (r :: r' :: rs)).Lang l ↔
      ∃ x y, l = x ++ y ∧ r.Lang x ∧ (Re.cat (r' :: rs)).Lang y := by
  simp [Re.cat, Lang]

/-- What a branch finds: its language somewhere in the haystack, at the start if it is anchored
there and up to the end if it is anchored there. -/
theorem Branch.full_iff (b : Branch) (l : List Char) : b.full.Lang l ↔
    ∃ pre mid post, l = pre ++ mid ++ post ∧ b.re.Lang mid ∧
      (b.anchoredStart = true → pre = []) ∧ (b.anchoredEnd = true → post = []) := by
  have hany (x : List Char) : (Re.star (.cls fun _ => true)).Lang x := by
    rw [Re.lang_star_cls]; simp
  obtain ⟨s, r, e⟩ := b
  simp only [Branch.full, Re.Lang]
  constructor
  · rintro ⟨pre, y, rfl, hpre, mid, post, rfl, hm, hpost⟩
    refine ⟨pre, mid, post, by simp, hm, ?_, ?_⟩
    · rintro rfl; simpa [Re.Lang] using hpre
    · rintro rfl; simpa [Re.Lang] using hpost
  · rintro ⟨pre, mid, post, rfl, hm, hs, he⟩
    refine ⟨pre, mid ++ post, by simp, ?_, mid, post, rfl, hm, ?_⟩
    · cases s
      · exact hany _
      · simp [Re.Lang, hs rfl]
    · cases e
      · exact hany _
      · simp [Re.Lang, he rfl]

theorem Pattern.isMatch_iff (p : Pattern) (s : String) : p.isMatch s = true ↔
    ∃ b ∈ p, ∃ pre mid post, s.toList = pre ++ mid ++ post ∧ b.re.Lang mid ∧
      (b.anchoredStart = true → pre = []) ∧ (b.anchoredEnd = true → post = []) := by
  simp only [Pattern.isMatch, List.any_eq_true, Re.matches_iff, Branch.full_iff]

/-- A pattern of one branch anchored on both sides matches exactly its language. -/
theorem Pattern.isMatch_anchored (r : Re) (s : String) :
    Pattern.isMatch [⟨true, r, true⟩] s = true ↔ r.Lang s.toList := by
  rw [Pattern.isMatch_iff]
  constructor
  · rintro ⟨b, hb, pre, mid, post, h, hm, hs, he⟩
    simp only [List.mem_singleton] at hb
    subst hb
    rw [h, hs rfl, he rfl]; simpa using hm
  · intro h
    exact ⟨_, List.mem_singleton.mpr rfl, [], s.toList, [], by simp, h, fun _ => rfl, fun _ => rfl⟩

end Cdx
