import Verif.Lemmas.Foreign.Bom

set_option linter.unusedSectionVars false
set_option linter.unusedVariables false

/-!
# Foreign elements: documents that conform to the format are tame
-/

namespace Cdx.Foreign

open Cdx.Spec

variable {v : SpecVersion}

/-- The types of elements that can be in elements of some types, up to a depth. -/
def reach (v : SpecVersion) : Nat → List ElementType → List ElementType
  | 0, S => S
  | n + 1, S => reach v n (S ++ (S.flatMap fun t => (t.items v).map (·.2)).filter fun t => !S.contains t).eraseDups

/-- An element with a name and type has no element of the same name in it, if it needs to. -/
def apart (v : SpecVersion) (q : String × ElementType) : Bool :=
  q.1 != "signature" && (!ignoring.contains q.1 ||
    ((reach v 12 [q.2]).contains q.2 && (reach v 12 [q.2]).all fun t => (t.items v).all fun p =>
      (reach v 12 [q.2]).contains p.2 && ![q.1].contains p.1))

set_option maxHeartbeats 4000000 in
theorem items_apart (v : SpecVersion) (t : ElementType) : ((t.items v).all (apart v)) = true := by
  cases v <;> cases t <;> decide +kernel

theorem tameAll : ∀ (content : List XNode) (t : ElementType),
    (∀ x ∈ content, ∀ n, nameOf x = some n → n ∈ (t.items v).map (·.1)) →
    ThroughoutAll (OkAt v) v t content → XNode.TameAll content
  | [], _, _, _ => trivial
  | .chars s :: l, t, hm, h => by
    rw [ThroughoutAll] at h
    exact ⟨trivial, tameAll l t (fun x hx => hm x (.tail _ hx)) h.2⟩
  | .cdata s :: l, t, hm, h => by
    rw [ThroughoutAll] at h
    exact ⟨trivial, tameAll l t (fun x hx => hm x (.tail _ hx)) h.2⟩
  | .other :: l, t, hm, h => by
    rw [ThroughoutAll] at h
    exact ⟨trivial, tameAll l t (fun x hx => hm x (.tail _ hx)) h.2⟩
  | .elem m attrs ns c :: l, t, hm, h => by
    rw [ThroughoutAll] at h
    obtain ⟨t', ht'⟩ := lookup_isSome (hm _ (.head _) m.localName rfl)
    have h2 := h.1 m.localName rfl t' ht'
    rw [Throughout] at h2
    have ha := List.all_eq_true.mp (items_apart v t) _ (mem_of_lookup ht')
    simp only [apart, Bool.and_eq_true, Bool.or_eq_true, bne_iff_ne, ne_eq] at ha
    simp only [XNode.TameAll, XNode.Tame]
    refine ⟨⟨⟨fun hi => ?_, fun hs => absurd hs ha.1⟩, tameAll c t' h2.1.items h2.2⟩,
      tameAll l t (fun x hx => hm x (.tail _ hx)) h.2⟩
    rcases ha.2 with hn | ⟨h3, h4⟩
    · simp [hi] at hn
    · intro hin
      have := inside_names (v := v) (reach v 12 [t']) [m.localName] h4 c t' (by simpa using h3) h2.1.items h2.2
        m.localName (by rw [insideAll_names]; exact hin)
      exact this (by simp)

theorem tame_root {n attrs ns c} (h : Throughout (OkAt v) v .bom (.elem n attrs ns c)) : XNode.TameAll c := by
  rw [Throughout] at h
  exact tameAll c .bom h.1.items h.2

end Cdx.Foreign
