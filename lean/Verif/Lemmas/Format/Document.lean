import Verif.Lemmas.Format.Bom

set_option linter.unusedSectionVars false

/-!
# Lemmas on whole documents
-/

namespace Cdx

theorem XNode.eventsAll_append : ∀ a b : List XNode,
    XNode.eventsAll (a ++ b) = XNode.eventsAll a ++ XNode.eventsAll b
  | [], _ => rfl
  | x :: a, b => by simp [XNode.eventsAll, XNode.eventsAll_append a b]

/-- The events of well-formed output are those of a sequence of nodes. -/
theorem WellFormed.tree {loose : Bool} {w : List WEvent} (h : WellFormed loose w) (ns : Option String) :
    ∃ nodes, deliver ns [] w = XNode.eventsAll nodes := by
  induction h with
  | nil => exact ⟨[], rfl⟩
  | chars s =>
    by_cases hs : xmlTrim s = ""
    · exact ⟨[], by simp [deliver, hs, XNode.eventsAll]⟩
    · exact ⟨[.chars (xmlTrim s)], by simp [deliver, hs, XNode.eventsAll, XNode.events]⟩
  | cdata s =>
    simp only [deliver]
    split
    · exact ⟨[.other], rfl⟩
    · exact ⟨[.cdata s], rfl⟩
  | elem tag attrs hk hb ih =>
    obtain ⟨nodes, hn⟩ := ih
    refine ⟨[.elem ⟨tag, ns, none⟩ attrs ns nodes], ?_⟩
    have := deliver_elem (tag := tag) (attrs := attrs) hb ns
    unfold writeElem at this
    rw [this, hn]
    simp [XNode.eventsAll, XNode.events]
  | append ha hb iha ihb =>
    obtain ⟨na, ha'⟩ := iha
    obtain ⟨nb, hb'⟩ := ihb
    refine ⟨na ++ nb, ?_⟩
    rw [deliver_append ha, ha', hb', XNode.eventsAll_append]

/-- A loop that succeeds with a stricter test of the end tag gives the same with a weaker one. -/
theorem readLoop_mono {σ : Type} {mode : Unknown} {p q : XName → Bool} {el : XName}
    {arms : List (String × Arm σ)} (hm : mode ≠ .ignore) (hpq : ∀ n, p n = true → q n = true) :
    ∀ {fuel : Nat} {st : σ} {evs : List XEvent} {r : σ × List XEvent},
    readLoop mode p el arms fuel st evs = .ok r → readLoop mode q el arms fuel st evs = .ok r
  | 0, _, _, _, h => by simp [readLoop] at h
  | fuel + 1, st, [], _, h => by simp [readLoop] at h
  | fuel + 1, st, .start n attrs ns :: l, r, h => by
    unfold readLoop at h ⊢
    dsimp only at h ⊢
    split
    · rename_i act ha
      rw [ha] at h
      dsimp only at h
      split
      · rename_i st' l' hact
        rw [hact] at h
        dsimp only at h
        split
        · rename_i hle
          rw [if_pos hle] at h
          exact readLoop_mono hm hpq h
        · rename_i hle
          rw [if_neg hle] at h
          cases h
      · rename_i e hact
        rw [hact] at h
        cases h
    · rename_i ha
      rw [ha] at h
      dsimp only at h
      cases mode with
      | fail => cases h
      | ignore => exact absurd rfl hm
      | skip =>
        dsimp only at h ⊢
        split
        · rename_i l' hs
          rw [hs] at h
          dsimp only at h
          split
          · rename_i hle
            rw [if_pos hle] at h
            exact readLoop_mono hm hpq h
          · rename_i hle
            rw [if_neg hle] at h
            cases h
        · rename_i e hs
          rw [hs] at h
          cases h
  | fuel + 1, st, .stop n :: l, r, h => by
    unfold readLoop at h ⊢
    dsimp only at h ⊢
    cases hp : p n with
    | true =>
      rw [if_pos (hpq n hp)]
      rw [if_pos hp] at h
      exact h
    | false =>
      rw [if_neg (by rw [hp]; exact Bool.false_ne_true), if_neg hm] at h
      cases h
  | fuel + 1, st, .chars s :: l, r, h => by
    unfold readLoop at h; dsimp only at h; rw [if_neg hm] at h; cases h
  | fuel + 1, st, .cdata s :: l, r, h => by
    unfold readLoop at h; dsimp only at h; rw [if_neg hm] at h; cases h
  | fuel + 1, st, .other :: l, r, h => by
    unfold readLoop at h; dsimp only at h; rw [if_neg hm] at h; cases h
  | fuel + 1, st, .startDocument :: l, r, h => by
    unfold readLoop at h; dsimp only at h; rw [if_neg hm] at h; cases h
  | fuel + 1, st, .endDocument :: l, r, h => by
    unfold readLoop at h; dsimp only at h; rw [if_neg hm] at h; cases h

variable [F32Format] [ReadLimit]

/-- The root reader agrees with the structure reader where that succeeds. -/
theorem Bom.readDocument_of_readXml {v : SpecVersion} {n : XName} {attrs : List (String × String)}
    {l : List XEvent} {x : Bom} {rest : List XEvent} (hn : n.localName = "bom")
    (h : Bom.readXml v n attrs l = .ok (x, .endDocument :: rest)) :
    Bom.readDocument v (.startDocument :: .start n attrs (some v.namespace) :: l) = .ok x := by
  simp only [Bom.readXml, readStruct, bind, Except.bind] at h
  simp only [Bom.readDocument, hn, if_true, bind, Except.bind, Bom.readBody]
  cases hv : Bom.versionOfAttrs attrs with
  | error e => rw [hv] at h; cases h
  | ok version =>
    rw [hv] at h
    dsimp only at h ⊢
    cases hf : readFields .skip n (Bom.arms v) {} l with
    | error e => rw [hf] at h; cases h
    | ok r =>
      obtain ⟨vars, l'⟩ := r
      rw [hf] at h
      simp only [Except.ok.injEq, Prod.mk.injEq] at h
      obtain ⟨hx, rfl⟩ := h
      have hl := readLoop_mono (q := fun n => n.localName = "bom") (by simp : Unknown.skip ≠ .ignore)
        (by intro m hm; simp only [decide_eq_true_eq] at hm ⊢; rw [hm, hn]) hf
      rw [hl]
      dsimp only
      rw [← hx]

/-- Writing and reading a document. -/
theorem Bom.document_reads {v : SpecVersion} {x : Bom} (h : Bom.XmlOk v x) :
    Bom.readDocument v (document v.namespace (Bom.writeXml v x)) = .ok (x.at v) := by
  obtain ⟨attrs, body, hd, hr⟩ := Bom.xml_reads v (ns := some v.namespace) h
  rw [document, hd]
  simp only [List.cons_append, List.append_assoc, List.nil_append]
  exact Bom.readDocument_of_readXml rfl (hr [.endDocument])

end Cdx
