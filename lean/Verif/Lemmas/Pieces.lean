import Verif.Model.Cli
import Verif.Lemmas.Strings
import Verif.Spec.Strings

/-!
# Splitting into pieces
-/

set_option linter.unusedSimpArgs false

namespace Cdx

theorem splitChars_ne_nil {c : Char} {l : List Char} : splitChars c l ≠ [] := by
  induction l with
  | nil => simp [splitChars]
  | cons d l ih =>
    unfold splitChars
    split
    · simp
    · split <;> simp

/-- Splitting first at `a` and then at `b` and dropping empty pieces, one character at a time. -/
def pieces2 (a b : Char) (l : List Char) : List (List Char) :=
  (splitChars a l).flatMap fun s => (splitChars b s).filter fun f => !f.isEmpty

/-- The unfinished first piece followed by the finished ones. -/
def headTail (a b : Char) (l : List Char) : List Char × List (List Char) :=
  match l with
  | [] => ([], [])
  | c :: l =>
    let (h, t) := headTail a b l
    if c = a ∨ c = b then ([], (if h.isEmpty then t else h :: t)) else (c :: h, t)

theorem splitChars_cons_ne {c d : Char} {l : List Char} (h : d ≠ c) :
    ∃ p ps, splitChars c l = p :: ps ∧ splitChars c (d :: l) = (d :: p) :: ps := by
  cases hs : splitChars c l with
  | nil => exact absurd hs splitChars_ne_nil
  | cons p ps => exact ⟨p, ps, rfl, by simp [splitChars, h, hs]⟩

theorem pieces2_headTail (a b : Char) (l : List Char) :
    ∃ p ps q qs, splitChars a l = p :: ps ∧ splitChars b p = q :: qs ∧
      headTail a b l = (q, qs.filter (fun f => !f.isEmpty) ++
        ps.flatMap fun s => (splitChars b s).filter fun f => !f.isEmpty) := by
  induction l with
  | nil => exact ⟨[], [], [], [], rfl, rfl, rfl⟩
  | cons c l ih =>
    obtain ⟨p, ps, q, qs, h1, h2, h3⟩ := ih
    by_cases ha : c = a
    · refine ⟨[], p :: ps, [], [], by simp [splitChars, ha, h1], rfl, ?_⟩
      simp only [headTail, h3, ha, true_or, if_true, List.filter_nil, List.nil_append,
        List.flatMap_cons, h2]
      cases q <;> simp
    · obtain ⟨p', ps', e1, e2⟩ := splitChars_cons_ne (l := l) ha
      rw [h1] at e1
      cases e1
      by_cases hb : c = b
      · refine ⟨c :: p, ps, [], q :: qs, e2, by simp [splitChars, hb, h2], ?_⟩
        simp only [headTail, h3, hb, or_true, if_true]
        cases q <;> simp
      · obtain ⟨q', qs', f1, f2⟩ := splitChars_cons_ne (l := p) hb
        rw [h2] at f1
        cases f1
        exact ⟨c :: p, ps, c :: q, qs, e2, f2, by simp [headTail, h3, ha, hb]⟩

theorem pieces2_eq (a b : Char) (l : List Char) :
    pieces2 a b l = (if (headTail a b l).1.isEmpty then (headTail a b l).2
      else (headTail a b l).1 :: (headTail a b l).2) := by
  obtain ⟨p, ps, q, qs, h1, h2, h3⟩ := pieces2_headTail a b l
  unfold pieces2
  rw [h1, h3, List.flatMap_cons, h2]
  cases q <;> simp

theorem pieces_cons_sep {sep : Char → Prop} {c : Char} {l : List Char} {ws : List (List Char)}
    (hc : sep c) (h : Spec.Pieces sep l ws) : Spec.Pieces sep (c :: l) ws := by
  cases h with
  | done h => exact .done (by intro d hd; rcases List.mem_cons.1 hd with rfl | hd <;> first | exact hc | exact h _ hd)
  | @piece pre w rest ws h1 h2 h3 h4 h5 =>
    exact .piece (pre := c :: pre)
      (by intro d hd; rcases List.mem_cons.1 hd with rfl | hd <;> first | exact hc | exact h1 _ hd) h2 h3 h4 h5

theorem headTail_spec (a b : Char) (l : List Char) :
    ∃ rest, l = (headTail a b l).1 ++ rest ∧ (∀ c ∈ (headTail a b l).1, ¬ (c = a ∨ c = b)) ∧
      (∀ c, rest.head? = some c → c = a ∨ c = b) ∧
      Spec.Pieces (fun c => c = a ∨ c = b) rest (headTail a b l).2 := by
  induction l with
  | nil => exact ⟨[], rfl, by simp [headTail], by simp, .done (by simp)⟩
  | cons c l ih =>
    obtain ⟨rest, h1, h2, h3, h4⟩ := ih
    by_cases hc : c = a ∨ c = b
    · refine ⟨c :: l, ?_⟩
      simp only [headTail, if_pos hc, List.nil_append, List.not_mem_nil, false_implies,
        implies_true, List.head?_cons, Option.some.injEq, true_and]
      refine ⟨by rintro _ rfl; exact hc, ?_⟩
      split
      · next he =>
        simp only [List.isEmpty_iff] at he
        rw [he, List.nil_append] at h1
        subst h1
        exact pieces_cons_sep hc h4
      · next he =>
        have : c :: l = [c] ++ (headTail a b l).1 ++ rest := by
          rw [List.append_assoc, ← h1]; rfl
        rw [this]
        exact .piece (by simpa using hc) (by simpa using he) h2 h3 h4
    · refine ⟨rest, ?_⟩
      simp only [headTail, if_neg hc]
      refine ⟨by rw [List.cons_append, ← h1], ?_, h3, h4⟩
      intro d hd
      rcases List.mem_cons.1 hd with rfl | hd
      · exact hc
      · exact h2 _ hd

theorem pieces2_pieces (a b : Char) (l : List Char) :
    Spec.Pieces (fun c => c = a ∨ c = b) l (pieces2 a b l) := by
  rw [pieces2_eq]
  obtain ⟨rest, h1, h2, h3, h4⟩ := headTail_spec a b l
  split
  · next he =>
    simp only [List.isEmpty_iff] at he
    rw [he, List.nil_append] at h1
    subst h1; exact h4
  · next he =>
    have : l = [] ++ (headTail a b l).1 ++ rest := by rw [List.nil_append]; exact h1
    rw [this]
    have e : headTail a b ([] ++ (headTail a b l).1 ++ rest) = headTail a b l := by rw [← this]
    rw [e]
    exact .piece (by simp) (by simpa using he) h2 h3 h4

theorem splitFeatures_pieces (args : List String) :
    Spec.AllPieces (fun c => c = ',' ∨ c = ' ') args (splitFeatures args) := by
  induction args with
  | nil => exact .nil
  | cons s ss ih =>
    have : splitFeatures (s :: ss) = (pieces2 ',' ' ' s.toList).map String.ofList ++ splitFeatures ss := by
      simp [splitFeatures, pieces2, splitStr, List.map_flatMap, List.flatMap_map, List.filter_map,
        Function.comp_def]
    rw [this]
    exact .cons (pieces2_pieces _ _ _) ih

theorem span_unique {P : Char → Prop} {pre w rest pre' w' rest' : List Char}
    (e : pre ++ w ++ rest = pre' ++ w' ++ rest')
    (h1 : ∀ c ∈ pre, P c) (h2 : w ≠ []) (h3 : ∀ c ∈ w, ¬ P c) (h4 : ∀ c, rest.head? = some c → P c)
    (h1' : ∀ c ∈ pre', P c) (h2' : w' ≠ []) (h3' : ∀ c ∈ w', ¬ P c)
    (h4' : ∀ c, rest'.head? = some c → P c) : pre = pre' ∧ w = w' ∧ rest = rest' := by
  have key : ∀ {Q : Char → Prop} {x y x' y' : List Char}, x ++ y = x' ++ y' → (∀ c ∈ x, Q c) →
      (∀ c ∈ x', Q c) → (∀ c, y.head? = some c → ¬ Q c) → (∀ c, y'.head? = some c → ¬ Q c) →
      x = x' ∧ y = y' := by
    intro Q x
    induction x with
    | nil =>
      intro y x' y' e _ hx' hy _
      cases x' with
      | nil => exact ⟨rfl, e⟩
      | cons c x' =>
        simp only [List.nil_append] at e
        subst e
        exact absurd (hx' c List.mem_cons_self) (hy c rfl)
    | cons c x ih =>
      intro y x' y' e hx hx' hy hy'
      cases x' with
      | nil =>
        simp only [List.nil_append] at e
        subst e
        exact absurd (hx c List.mem_cons_self) (hy' c rfl)
      | cons d x' =>
        simp only [List.cons_append, List.cons.injEq] at e
        obtain ⟨rfl, e⟩ := e
        obtain ⟨rfl, rfl⟩ := ih e (fun c hc => hx c (List.mem_cons_of_mem _ hc))
          (fun c hc => hx' c (List.mem_cons_of_mem _ hc)) hy hy'
        exact ⟨rfl, rfl⟩
  rw [List.append_assoc, List.append_assoc] at e
  obtain ⟨rfl, e2⟩ := key e h1 h1'
    (by intro c hc; cases w with
        | nil => exact absurd rfl h2
        | cons d w => cases hc; exact h3 _ List.mem_cons_self)
    (by intro c hc; cases w' with
        | nil => exact absurd rfl h2'
        | cons d w => cases hc; exact h3' _ List.mem_cons_self)
  obtain ⟨rfl, rfl⟩ := key (Q := fun c => ¬ P c) e2 h3 h3' (fun c hc hn => hn (h4 c hc)) (fun c hc hn => hn (h4' c hc))
  exact ⟨rfl, rfl, rfl⟩

theorem pieces_unique {sep : Char → Prop} {l : List Char} {ws vs : List (List Char)}
    (h1 : Spec.Pieces sep l ws) (h2 : Spec.Pieces sep l vs) : ws = vs := by
  induction h1 generalizing vs with
  | done h =>
    cases h2 with
    | done _ => rfl
    | @piece pre w rest ws a b c d e =>
      exfalso
      cases w with
      | nil => exact b rfl
      | cons x w => exact c x List.mem_cons_self (h x (by simp))
  | @piece pre w rest ws a b c d e ih =>
    generalize hl : pre ++ w ++ rest = l at h2
    cases h2 with
    | done h =>
      exfalso
      cases w with
      | nil => exact b rfl
      | cons x w => exact c x List.mem_cons_self (h x (by simp [← hl]))
    | @piece pre' w' rest' ws' a' b' c' d' e' =>
      obtain ⟨rfl, rfl, rfl⟩ := span_unique hl a b c d a' b' c' d'
      rw [ih e']

theorem allPieces_unique {sep : Char → Prop} {args ws vs : List String}
    (h1 : Spec.AllPieces sep args ws) (h2 : Spec.AllPieces sep args vs) : ws = vs := by
  induction h1 generalizing vs with
  | nil => cases h2; rfl
  | cons hp _ ih =>
    cases h2 with
    | cons hp' h' => rw [pieces_unique hp hp', ih h']

theorem pieces_mem {sep : Char → Prop} {l : List Char} {ws : List (List Char)}
    (h : Spec.Pieces sep l ws) : ∀ w ∈ ws, w ≠ [] ∧ ∀ c ∈ w, ¬ sep c := by
  induction h with
  | done _ => simp
  | piece _ h2 h3 _ _ ih =>
    intro v hv
    rcases List.mem_cons.1 hv with rfl | hv
    · exact ⟨h2, h3⟩
    · exact ih v hv

theorem allPieces_mem {sep : Char → Prop} {args ws : List String}
    (h : Spec.AllPieces sep args ws) : ∀ w ∈ ws, w ≠ "" ∧ ∀ c ∈ w.toList, ¬ sep c := by
  induction h with
  | nil => simp
  | cons hp _ ih =>
    intro w hw
    rcases List.mem_append.1 hw with hw | hw
    · obtain ⟨x, hx, rfl⟩ := List.mem_map.1 hw
      obtain ⟨h1, h2⟩ := pieces_mem hp x hx
      refine ⟨?_, by simpa using h2⟩
      intro e
      apply h1
      have := congrArg String.toList e
      simpa using this
    · exact ih w hw

end Cdx
