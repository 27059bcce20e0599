import Verif.Lemmas.Schema

/-!
# Evaluating JSON schemas

`Schema.eval` computes whether a schema accepts or rejects a value. It answers `none` when it does not
know: when its fuel ends, or when the answer depends on the meaning of a format. `eval_sound` says
that its other answers are right.
-/

namespace Cdx

open Spec

set_option linter.unusedVariables false

/-- All answers are yes. -/
def allAnswers (l : List (Option Bool)) : Option Bool :=
  if l.any (· == some false) then some false else if l.all (· == some true) then some true else none

theorem allAnswers_true {l : List (Option Bool)} (h : allAnswers l = some true) : ∀ x ∈ l, x = some true := by
  unfold allAnswers at h
  split at h
  · cases h
  · split at h
    · rename_i h'
      simpa using h'
    · cases h

theorem allAnswers_false {l : List (Option Bool)} (h : allAnswers l = some false) : some false ∈ l := by
  unfold allAnswers at h
  split at h
  · rename_i h'
    simpa using h'
  · split at h <;> cases h

/-- Whether two values are the same. -/
def sameEval : Nat → Json → Json → Option Bool
  | 0, _, _ => none
  | _ + 1, .null, .null => some true
  | _ + 1, .bool a, .bool b => some (a == b)
  | _ + 1, .nat a, .nat b => some (a == b)
  | _ + 1, .float a, .float b => some (decide (numberOf a = numberOf b))
  | _ + 1, .nat a, .float b => some (decide ((a : ℚ) = numberOf b))
  | _ + 1, .float a, .nat b => some (decide ((b : ℚ) = numberOf a))
  | _ + 1, .other, .other => some true
  | _ + 1, .str a, .str b => some (a == b)
  | _ + 1, .arr [], .arr [] => some true
  | n + 1, .arr (x :: l), .arr (y :: m) => allAnswers [sameEval n x y, sameEval n (.arr l) (.arr m)]
  | n + 1, .obj o, .obj p =>
    if (o.all fun k => p.any (·.1 == k.1)) && (p.all fun k => o.any (·.1 == k.1)) then
      allAnswers (o.flatMap fun e => (p.filter (·.1 == e.1)).map fun f => sameEval n e.2 f.2)
    else some false
  | _ + 1, _, _ => some false

theorem sameEval_sound (n : Nat) : ∀ x y : Json,
    (sameEval n x y = some true → Same x y) ∧ (sameEval n x y = some false → ¬ Same x y) := by
  induction n with
  | zero => intro x y; exact ⟨fun h => (by cases h), fun h => (by cases h)⟩
  | succ n ih =>
    intro x y
    unfold sameEval
    split
    · cases ‹_ + 1 = 0›
    · exact ⟨fun _ => .null, nofun⟩
    · refine ⟨fun h => ?_, fun h hs => ?_⟩
      · have := (by simpa using h : _ = _); subst this; exact .bool _
      · cases hs; simp at h
    · refine ⟨fun h => ?_, fun h hs => ?_⟩
      · have := (by simpa using h : _ = _); subst this; exact .nat _
      · cases hs; simp at h
    · refine ⟨fun h => .float (by simpa using h), fun h hs => ?_⟩
      cases hs with
      | float e => simp [e] at h
    · refine ⟨fun h => .natFloat (by simpa using h), fun h hs => ?_⟩
      cases hs with
      | natFloat e => simp [e] at h
    · refine ⟨fun h => .floatNat (by simpa using h), fun h hs => ?_⟩
      cases hs with
      | floatNat e => simp [e] at h
    · exact ⟨fun _ => .other, nofun⟩
    · refine ⟨fun h => ?_, fun h hs => ?_⟩
      · have := (by simpa using h : _ = _); subst this; exact .str _
      · cases hs; simp at h
    · exact ⟨fun _ => .nil, nofun⟩
    · rename_i m x l y m' e
      cases e
      refine ⟨fun h => ?_, fun h hs => ?_⟩
      · have := allAnswers_true h
        simp only [List.mem_cons, List.not_mem_nil, or_false, forall_eq_or_imp, forall_eq] at this
        exact .cons ((ih _ _).1 this.1) ((ih _ _).1 this.2)
      · have := allAnswers_false h
        simp only [List.mem_cons, List.not_mem_nil, or_false] at this
        cases hs with
        | cons h1 h2 =>
          rcases this with e | e
          · exact (ih _ _).2 e.symm h1
          · exact (ih _ _).2 e.symm h2
    · rename_i m o p e
      cases e
      split
      · rename_i hk
        simp only [Bool.and_eq_true, List.all_eq_true, List.any_eq_true, beq_iff_eq, Prod.exists,
          Prod.forall] at hk
        refine ⟨fun h => ?_, fun h hs => ?_⟩
        · have := allAnswers_true h
          refine .obj (fun k => ⟨?_, ?_⟩) ?_
          · rintro ⟨x, hx⟩
            obtain ⟨k', y, hy, rfl⟩ := hk.1 k x hx
            exact ⟨y, hy⟩
          · rintro ⟨x, hx⟩
            obtain ⟨k', y, hy, rfl⟩ := hk.2 k x hx
            exact ⟨y, hy⟩
          · intro k x y hx hy
            refine (ih _ _).1 (this _ ?_)
            exact List.mem_flatMap.mpr ⟨(k, x), hx, List.mem_map.mpr
              ⟨(k, y), List.mem_filter.mpr ⟨hy, by simp⟩, rfl⟩⟩
        · have := allAnswers_false h
          obtain ⟨⟨k, x⟩, hx, h'⟩ := List.mem_flatMap.mp this
          obtain ⟨⟨k', y⟩, hy, h'⟩ := List.mem_map.mp h'
          obtain ⟨hy', e⟩ := List.mem_filter.mp hy
          have e : k' = k := by simpa using e
          subst e
          cases hs with
          | obj h1 h2 => exact (ih _ _).2 h' (h2 _ _ _ hx hy')
      · rename_i hk
        refine ⟨nofun, fun _ hs => hk ?_⟩
        cases hs with
        | obj h1 h2 =>
          simp only [Bool.and_eq_true, List.all_eq_true, List.any_eq_true, beq_iff_eq, Prod.exists,
            Prod.forall]
          refine ⟨fun k x hx => ?_, fun k x hx => ?_⟩
          · obtain ⟨y, hy⟩ := (h1 k).1 ⟨x, hx⟩
            exact ⟨k, y, hy, rfl⟩
          · obtain ⟨y, hy⟩ := (h1 k).2 ⟨x, hx⟩
            exact ⟨k, y, hy, rfl⟩
    · refine ⟨nofun, fun _ hs => ?_⟩
      cases hs <;> simp_all
      rename_i hn
      exact hn _ _ _ _ rfl rfl rfl rfl

/-- No two values of a list are the same. -/
def differEval (n : Nat) : List Json → Option Bool
  | [] => some true
  | x :: l => allAnswers [allAnswers (l.map fun y => (sameEval n x y).map (!·)), differEval n l]

theorem differEval_sound (n : Nat) (l : List Json) :
    (differEval n l = some true → l.Pairwise fun x y => ¬ Same x y) ∧
    (differEval n l = some false → ¬ l.Pairwise fun x y => ¬ Same x y) := by
  induction l with
  | nil => exact ⟨fun _ => .nil, nofun⟩
  | cons x l ih =>
    unfold differEval
    refine ⟨fun h => ?_, fun h hp => ?_⟩
    · have := allAnswers_true h
      simp only [List.mem_cons, List.not_mem_nil, or_false, forall_eq_or_imp, forall_eq] at this
      refine .cons (fun y hy => ?_) (ih.1 this.2)
      have := allAnswers_true this.1 _ (List.mem_map_of_mem hy)
      simp only [Option.map_eq_some_iff, Bool.not_eq_true', exists_eq_right] at this
      exact (sameEval_sound n x y).2 this
    · have := allAnswers_false h
      simp only [List.mem_cons, List.not_mem_nil, or_false] at this
      cases hp with
      | cons h1 h2 =>
        rcases this with e | e
        · obtain ⟨y, hy, e⟩ := List.mem_map.mp (allAnswers_false e.symm)
          simp only [Option.map_eq_some_iff, Bool.not_eq_false', exists_eq_right] at e
          exact h1 y hy ((sameEval_sound n x y).1 e)
        · exact ih.2 e.symm h2

/-- Whether a value has a type. -/
def typeEval : JsonType → Json → Bool
  | .object, .obj _ => true
  | .array, .arr _ => true
  | .string, .str _ => true
  | .boolean, .bool _ => true
  | .integer, .nat _ => true
  | .integer, .float x => (numberOf x).den == 1
  | .number, .nat _ => true
  | .number, .float _ => true
  | .number, .other => true
  | _, _ => false

theorem typeEval_iff (t : JsonType) (j : Json) : typeEval t j = true ↔ HasType t j := by
  cases t <;> cases j <;> simp [typeEval, HasType]

/-- Whether a keyword accepts a value. `known` answers for the formats. -/
def keywordEval (known : String → String → Option Bool) (n : Nat) : Keyword → Json → Option Bool
  | .type t, j => some (typeEval t j)
  | .enum l, .str s => some (l.contains s)
  | .enum _, _ => some false
  | .pattern p, .str s => some (p.isMatch s)
  | .format f, .str s => known f s
  | .required l, .obj o => some (l.all fun k => o.any (·.1 == k))
  | .closed l, .obj o => some (o.all fun e => l.contains e.1)
  | .uniqueItems, .arr l => differEval n l
  | .minItems m, .arr l => some (decide (m ≤ l.length))
  | .maxItems m, .arr l => some (decide (l.length ≤ m))
  | .minLength m, .str s => some (decide (m ≤ s.length))
  | .maxLength m, .str s => some (decide (s.length ≤ m))
  | .minimum m, .nat k => some (decide (m ≤ k))
  | .minimum m, .float x => some (decide ((m : ℚ) ≤ numberOf x))
  | .maximum m, .nat k => some (decide (k ≤ m))
  | .maximum m, .float x => some (decide (numberOf x ≤ (m : ℚ)))
  | _, _ => some true

/-- The answers for the formats are right. -/
def Known (F : Formats) (known : String → String → Option Bool) : Prop :=
  ∀ f s, (known f s = some true → F f s) ∧ (known f s = some false → ¬ F f s)

theorem keywordEval_sound {F : Formats} {known : String → String → Option Bool} (hk : Known F known)
    (n : Nat) (c : Keyword) (j : Json) :
    (keywordEval known n c j = some true → c.Holds F j) ∧
      (keywordEval known n c j = some false → ¬ c.Holds F j) := by
  have key : ∀ {b : Bool} {p : Prop}, (b = true ↔ p) →
      (some b = some true → p) ∧ (some b = some false → ¬ p) := by
    intro b p h
    refine ⟨fun e => h.1 (Option.some.inj e), fun e hp => ?_⟩
    rw [h.2 hp] at e
    cases e
  unfold keywordEval
  split
  · exact key (typeEval_iff _ _)
  · refine key ?_
    simp [Keyword.Holds]
  · rename_i hn
    refine ⟨nofun, fun _ h => ?_⟩
    obtain ⟨s, -, rfl⟩ := h
    exact hn _ rfl
  · exact key Iff.rfl
  · exact hk _ _
  · refine key ?_
    simp only [List.all_eq_true, List.any_eq_true, beq_iff_eq, Prod.exists, Keyword.Holds]
    constructor
    · intro h k hk
      obtain ⟨k', x, hx, rfl⟩ := h k hk
      exact ⟨x, hx⟩
    · intro h k hk
      obtain ⟨x, hx⟩ := h k hk
      exact ⟨k, x, hx, rfl⟩
  · refine key ?_
    simp [Keyword.Holds]
  · exact differEval_sound n _
  · exact key (by simp [Keyword.Holds])
  · exact key (by simp [Keyword.Holds])
  · exact key (by simp [Keyword.Holds])
  · exact key (by simp [Keyword.Holds])
  · exact key (by simp [Keyword.Holds])
  · exact key (by simp [Keyword.Holds])
  · exact key (by simp [Keyword.Holds])
  · exact key (by simp [Keyword.Holds])
  · refine ⟨fun _ => ?_, nofun⟩
    unfold Keyword.Holds
    split <;> simp_all

/-- Exactly one answer is yes. -/
def oneAnswer : List (Option Bool) → Option Bool
  | [] => some false
  | some true :: l =>
    if l.any (· == some true) then some false else if l.all (· == some false) then some true else none
  | some false :: l => oneAnswer l
  | none :: l => if 2 ≤ (l.filter (· == some true)).length then some false else none

/-- Whether a schema accepts a value. -/
def Spec.Schema.eval (known : String → String → Option Bool) (defs : List (String × Schema)) : Nat → Schema → Json → Option Bool
  | 0, _, _ => none
  | n + 1, .kw c, j => keywordEval known n c j
  | n + 1, .properties l, .obj o =>
    allAnswers (l.flatMap fun p => (o.filter (·.1 == p.1)).map fun e => eval known defs n p.2 e.2)
  | _ + 1, .properties _, _ => some true
  | n + 1, .items s, .arr l => allAnswers (l.map (eval known defs n s))
  | _ + 1, .items _, _ => some true
  | n + 1, .itemAt i s, .arr l => match l[i]? with
    | some x => eval known defs n s x
    | none => some true
  | _ + 1, .itemAt _ _, _ => some true
  | n + 1, .allOf l, j => allAnswers (l.map fun s => eval known defs n s j)
  | n + 1, .anyOf l, j => (allAnswers (l.map fun s => (eval known defs n s j).map (!·))).map (!·)
  | n + 1, .oneOf l, j => oneAnswer (l.map fun s => eval known defs n s j)
  | n + 1, .ifThen s t, j => match eval known defs n s j with
    | some true => eval known defs n t j
    | some false => some true
    | none => none
  | n + 1, .ref name, j => match defs.lookup name with
    | some s => eval known defs n s j
    | none => none

theorem oneAnswer_true {l : List (Option Bool)} (h : oneAnswer l = some true) :
    ∃ a b, l = a ++ some true :: b ∧ (∀ x ∈ a, x = some false) ∧ ∀ x ∈ b, x = some false := by
  induction l with
  | nil => cases h
  | cons x l ih =>
    rcases x with _ | _ | _
    · unfold oneAnswer at h
      split at h <;> cases h
    · obtain ⟨a, b, rfl, ha, hb⟩ := ih h
      exact ⟨some false :: a, b, rfl, by simpa using ha, hb⟩
    · unfold oneAnswer at h
      split at h
      · cases h
      · split at h
        · rename_i h'
          exact ⟨[], l, rfl, nofun, by simpa using h'⟩
        · cases h

theorem two_of_filter {l : List (Option Bool)} (h : 2 ≤ (l.filter (· == some true)).length) :
    ∃ a b c, l = a ++ some true :: b ++ some true :: c := by
  induction l with
  | nil => simp at h
  | cons x l ih =>
    by_cases hx : x = some true
    · subst hx
      simp only [List.filter_cons, beq_self_eq_true, if_true, List.length_cons] at h
      have : 0 < (l.filter (· == some true)).length := by omega
      obtain ⟨y, hy⟩ := List.exists_mem_of_length_pos this
      obtain ⟨hy, e⟩ := List.mem_filter.mp hy
      have e : y = some true := by simpa using e
      subst e
      obtain ⟨b, c, rfl⟩ := List.append_of_mem hy
      exact ⟨[], b, c, rfl⟩
    · have : (x == some true) = false := by simpa using hx
      simp only [List.filter_cons, this, Bool.false_eq_true, if_false] at h
      obtain ⟨a, b, c, rfl⟩ := ih h
      exact ⟨x :: a, b, c, rfl⟩

theorem oneAnswer_false {l : List (Option Bool)} (h : oneAnswer l = some false) :
    (∀ x ∈ l, x = some false) ∨ ∃ a b c, l = a ++ some true :: b ++ some true :: c := by
  induction l with
  | nil => exact .inl nofun
  | cons x l ih =>
    rcases x with _ | _ | _
    · unfold oneAnswer at h
      split at h
      · obtain ⟨a, b, c, rfl⟩ := two_of_filter ‹_›
        exact .inr ⟨none :: a, b, c, rfl⟩
      · cases h
    · rcases ih h with h | ⟨a, b, c, rfl⟩
      · exact .inl (by simpa using h)
      · exact .inr ⟨some false :: a, b, c, rfl⟩
    · unfold oneAnswer at h
      split at h
      · rename_i h'
        simp only [List.any_eq_true, beq_iff_eq, exists_eq_right] at h'
        obtain ⟨b, c, rfl⟩ := List.append_of_mem h'
        exact .inr ⟨[], b, c, rfl⟩
      · split at h <;> cases h

theorem Spec.Schema.eval_sound (C : Context) {known : String → String → Option Bool}
    (hk : Known C.format known) (n : Nat) : ∀ (s : Schema) (j : Json),
    (s.eval known C.defs n j = some true → Valid C s j) ∧ (s.eval known C.defs n j = some false → Invalid C s j) := by
  induction n with
  | zero => intro s j; exact ⟨fun h => (by cases h), fun h => (by cases h)⟩
  | succ n ih =>
    intro s j
    cases s with
    | kw c =>
      exact ⟨fun h => .kw ((keywordEval_sound hk n c j).1 h),
        fun h => .kw ((keywordEval_sound hk n c j).2 h)⟩
    | properties l =>
      have other : (∀ o, j ≠ .obj o) → Valid C (.properties l) j := fun h =>
        .properties fun o e => absurd e (h o)
      cases j with
      | obj o =>
        refine ⟨fun h => .properties fun o' e k s x hs hx => ?_, fun h => ?_⟩
        · cases e
          refine (ih _ _).1 (allAnswers_true h _ ?_)
          exact List.mem_flatMap.mpr ⟨(k, s), hs, List.mem_map.mpr
            ⟨(k, x), List.mem_filter.mpr ⟨hx, by simp⟩, rfl⟩⟩
        · obtain ⟨⟨k, s⟩, hs, h'⟩ := List.mem_flatMap.mp (allAnswers_false h)
          obtain ⟨⟨k', y⟩, hy, h'⟩ := List.mem_map.mp h'
          obtain ⟨hy', e⟩ := List.mem_filter.mp hy
          have e : k' = k := by simpa using e
          subst e
          exact (.properties hs hy' ((ih _ _).2 h'))
      | _ => exact ⟨fun _ => other nofun, fun h => (by cases h)⟩
    | items s =>
      have other : (∀ o, j ≠ .arr o) → Valid C (.items s) j := fun h =>
        .items fun o e => absurd e (h o)
      cases j with
      | arr l =>
        refine ⟨fun h => .items fun o' e x hx => ?_, fun h => ?_⟩
        · cases e
          exact (ih _ _).1 (allAnswers_true h _ (List.mem_map_of_mem hx))
        · obtain ⟨x, hx, h'⟩ := List.mem_map.mp (allAnswers_false h)
          exact .items hx ((ih _ _).2 h')
      | _ => exact ⟨fun _ => other nofun, fun h => (by cases h)⟩
    | itemAt i s =>
      have other : (∀ o, j ≠ .arr o) → Valid C (.itemAt i s) j := fun h =>
        .itemAt fun o _ e => absurd e (h o)
      cases j with
      | arr l =>
        unfold Schema.eval
        split
        · rename_i x hx
          refine ⟨fun h => .itemAt fun o' y e hy => ?_, fun h => .itemAt hx ((ih _ _).2 h)⟩
          cases e
          rw [hx] at hy
          cases hy
          exact (ih _ _).1 h
        · rename_i hx
          refine ⟨fun _ => .itemAt fun o' y e hy => ?_, nofun⟩
          cases e
          rw [hx] at hy
          cases hy
      | _ => exact ⟨fun _ => other nofun, fun h => (by cases h)⟩
    | allOf l =>
      refine ⟨fun h => .allOf fun s hs => ?_, fun h => ?_⟩
      · exact (ih _ _).1 (allAnswers_true h _ (List.mem_map.mpr ⟨s, hs, rfl⟩))
      · obtain ⟨s, hs, h'⟩ := List.mem_map.mp (allAnswers_false h)
        exact .allOf hs ((ih _ _).2 h')
    | anyOf l =>
      unfold Schema.eval
      refine ⟨fun h => ?_, fun h => .anyOf fun s hs => ?_⟩
      · simp only [Option.map_eq_some_iff, Bool.not_eq_true', exists_eq_right] at h
        obtain ⟨s, hs, h'⟩ := List.mem_map.mp (allAnswers_false h)
        simp only [Option.map_eq_some_iff, Bool.not_eq_false', exists_eq_right] at h'
        exact .anyOf hs ((ih _ _).1 h')
      · simp only [Option.map_eq_some_iff, Bool.not_eq_false', exists_eq_right] at h
        have h' := allAnswers_true h _ (List.mem_map.mpr ⟨s, hs, rfl⟩)
        simp only [Option.map_eq_some_iff, Bool.not_eq_true', exists_eq_right] at h'
        exact (ih _ _).2 h'
    | oneOf l =>
      unfold Schema.eval
      refine ⟨fun h => ?_, fun h => ?_⟩
      · obtain ⟨a, b, e, ha, hb⟩ := oneAnswer_true h
        obtain ⟨l1, l2, rfl, rfl, e2⟩ := List.map_eq_append_iff.mp e
        obtain ⟨s, l3, rfl, e3, rfl⟩ := List.map_eq_cons_iff.mp e2
        refine .oneOf ((ih _ _).1 e3) (fun t ht => (ih _ _).2 (ha _ ?_)) fun t ht => (ih _ _).2 (hb _ ?_)
        · exact List.mem_map.mpr ⟨t, ht, rfl⟩
        · exact List.mem_map.mpr ⟨t, ht, rfl⟩
      · rcases oneAnswer_false h with h | ⟨a, b, c, e⟩
        · exact .oneOfNone fun s hs => (ih _ _).2 (h _ (List.mem_map.mpr ⟨s, hs, rfl⟩))
        · obtain ⟨l1, l2, rfl, e1, e2⟩ := List.map_eq_append_iff.mp e
          obtain ⟨t, l3, rfl, e3, rfl⟩ := List.map_eq_cons_iff.mp e2
          obtain ⟨l4, l5, rfl, rfl, e5⟩ := List.map_eq_append_iff.mp e1
          obtain ⟨s, l6, rfl, e6, rfl⟩ := List.map_eq_cons_iff.mp e5
          exact .oneOfTwo ((ih _ _).1 e6) ((ih _ _).1 e3)
    | ifThen s t =>
      unfold Schema.eval
      split
      · exact ⟨fun h => .then ((ih _ _).1 ‹_›) ((ih _ _).1 h), fun h => .ifThen ((ih _ _).1 ‹_›) ((ih _ _).2 h)⟩
      · exact ⟨fun h => .ifNot ((ih _ _).2 ‹_›), nofun⟩
      · exact ⟨nofun, nofun⟩
    | ref name =>
      unfold Schema.eval
      split
      · exact ⟨fun h => .ref ‹_› ((ih _ _).1 h), fun h => .ref ‹_› ((ih _ _).2 h)⟩
      · exact ⟨nofun, nofun⟩

end Cdx
