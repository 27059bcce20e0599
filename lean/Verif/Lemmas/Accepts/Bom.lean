import Verif.Lemmas.Accepts.Formulation

set_option linter.unusedSectionVars false
set_option linter.unusedVariables false

/-!
# Reading elements that conform to the format: documents

Generated by a script from the arms of the readers and the table of the format.
-/

namespace Cdx

open Spec

variable {v : SpecVersion} {d : Nat} [F32Format] [ReadLimit]

theorem Bom.version_takes {attrs} (h : AttrsOk v .bom attrs) : ∃ n, Bom.versionOfAttrs attrs = .ok n := by
  unfold Bom.versionOfAttrs
  cases hl : optAttr attrs "version" with
  | none => exact ⟨1, rfl⟩
  | some s =>
    have hm : has "version" .integer ∈ ElementType.bom.attributes v := by
      cases v <;> simp [ElementType.attributes, ElementType.rule, minor]
    obtain ⟨x, hx⟩ := integer_parse ((h.1 _ hm).2 s hl) (h.2 _ hm s hl)
    exact ⟨x, by simp [parseU32Attr, hx]⟩

theorem Bom.takesParts (H : DecimalsParse) (hd : d ≤ ReadLimit.limit) :
    Takes v d (readStruct .skip (fun _ attrs => Bom.versionOfAttrs attrs) ({} : Bom.Vars) (Bom.arms v)
      fun _ n vars => .ok (n, vars)) .bom :=
  takes_struct (["metadata", "components", "services", "externalReferences", "dependencies", "compositions"] ++ since14 v ["vulnerabilities", "signature"] [] ++ since15 v ["properties", "annotations", "formulation"] []) rfl (fun _ _ => True) (fun _ _ h => Bom.version_takes h)
    (armsTake_append (armsTake_append (armsTake_cons .metadata (by cases v <;> decide +kernel) (armTakes (Metadata.takes H hd) (fun _ _ => trivial) fun _ _ _ _ => trivial) <|
      armsTake_cons .components (by cases v <;> decide +kernel) (armTakes (takes_list (t' := .component) rfl (by cases v <;> rfl) (Component.takes H hd)) (fun _ _ => trivial) fun _ _ _ _ => trivial) <|
      armsTake_cons .services (by cases v <;> decide +kernel) (armTakes (takes_list (t' := .service) rfl (by cases v <;> rfl) (Service.takes H hd)) (fun _ _ => trivial) fun _ _ _ _ => trivial) <|
      armsTake_cons .externalReferences (by cases v <;> decide +kernel) (armTakes (takes_list (t' := .externalReference) rfl (by cases v <;> rfl) (ExternalReference.takes H)) (fun _ _ => trivial) fun _ _ _ _ => trivial) <|
      armsTake_cons .dependencies (by cases v <;> decide +kernel) (armTakes (takes_list (t' := .dependency) rfl (by cases v <;> rfl) (Dependency.takes H)) (fun _ _ => trivial) fun _ _ _ _ => trivial) <|
      armsTake_cons .compositions (by cases v <;> decide +kernel) (armTakes (takes_list (t' := .composition) rfl (by cases v <;> rfl) (Composition.takes H)) (fun _ _ => trivial) fun _ _ _ _ => trivial) <|
      armsTake_nil) <|
      armsTake_since14 <|
      armsTake_cons .vulnerabilities (by cases v <;> decide +kernel) (armTakes (takes_list (t' := .vulnerability) rfl (by cases v <;> rfl) (Vulnerability.takes H hd)) (fun _ _ => trivial) fun _ _ _ _ => trivial) <|
      armsTake_other (by cases v <;> decide +kernel) <|
      armsTake_nil) <|
      armsTake_since15 <|
      armsTake_cons .properties (by cases v <;> decide +kernel) (armTakes (takes_list (t' := .property) rfl (by cases v <;> rfl) (Property.takes H)) (fun _ _ => trivial) fun _ _ _ _ => trivial) <|
      armsTake_cons .annotations (by cases v <;> decide +kernel) (armTakes (takes_list (t' := .annotation) rfl (by cases v <;> rfl) (Annotation.takes H hd)) (fun _ _ => trivial) fun _ _ _ _ => trivial) <|
      armsTake_cons .formulation (by cases v <;> decide +kernel) (armTakes (takes_list (t' := .formula) rfl (by cases v <;> rfl) (Formula.takes H hd)) (fun _ _ => trivial) fun _ _ _ _ => trivial) <|
      armsTake_nil)
    (by cases v <;> rfl) (by cases v <;> decide +kernel)
    (fun _ _ _ _ => ⟨_, rfl⟩)

theorem loop_end {σ : Type} {el : XName} {arms : List (String × Arm σ)} {isEnd : XName → Bool} (he : isEnd el = true) :
    ∀ (fuel : Nat) (st : σ) (evs : List XEvent) (r : σ × List XEvent),
      readLoop .skip (fun n => n = el) el arms fuel st evs = .ok r → readLoop .skip isEnd el arms fuel st evs = .ok r
  | 0, st, evs, r, h => by simp [readLoop] at h
  | fuel + 1, st, evs, r, h => by
    cases evs with
    | nil => simp [readLoop] at h
    | cons e l =>
      cases e with
      | start n attrs ns =>
        simp only [readLoop] at h ⊢
        cases hl : arms.lookup n.localName with
        | some act =>
          rw [hl] at h
          cases ha : act n attrs st l with
          | error e => simp [ha] at h
          | ok p =>
            simp only [ha] at h ⊢
            split at h
            · rename_i hlen
              rw [if_pos hlen]
              exact loop_end he fuel _ _ r h
            · exact nomatch h
        | none =>
          rw [hl] at h
          cases hs : skipElem [n] l with
          | error e => simp [hs] at h
          | ok l' =>
            simp only [hs] at h ⊢
            split at h
            · rename_i hlen
              rw [if_pos hlen]
              exact loop_end he fuel _ _ r h
            · exact nomatch h
      | stop n =>
        simp only [readLoop] at h ⊢
        by_cases hn : n = el
        · subst hn
          simp only [decide_true, if_true] at h
          rw [he, if_pos rfl]
          exact h
        · simp [hn] at h
      | _ => simp [readLoop] at h

theorem Bom.takes (H : DecimalsParse) {root : XNode} (hr : IsRoot v root)
    (hc : Throughout (OkAt v) v .bom root) (hd : depth root ≤ ReadLimit.limit) :
    ∃ b, Bom.parseXmlWith v (documentOf root) = .ok b := by
  obtain ⟨n, attrs, content, rfl, hn⟩ := hr
  rw [depth] at hd
  obtain ⟨⟨version, vars⟩, e⟩ := Bom.takesParts (v := v) H (Nat.le_refl _) n attrs _ content hc (by omega)
  replace e := e [.endDocument]
  rw [Throughout] at hc
  obtain ⟨k, hk⟩ := Bom.version_takes hc.1.attrs
  simp only [readStruct, hk, bind, Except.bind] at e
  split at e
  · exact nomatch e
  rename_i p hp
  obtain ⟨st, l⟩ := p
  simp only [Except.ok.injEq, Prod.mk.injEq] at e
  have hl : l = [.endDocument] := e.2
  subst hl
  have hb : Bom.readBody v n (XNode.eventsAll content ++ .stop n :: [.endDocument]) = .ok (st, [.endDocument]) :=
    loop_end (by simpa using hn) _ _ _ _ hp
  simp [Bom.parseXmlWith, documentOf, XNode.events, Bom.readDocument, hn, hk, hb, bind, Except.bind]

end Cdx
