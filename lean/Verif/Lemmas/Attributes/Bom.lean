import Verif.Lemmas.Attributes.Readers

set_option linter.unusedSectionVars false
set_option linter.unusedSimpArgs false
set_option linter.unusedVariables false

/-!
# Reading whole documents that differ only in attributes and prefixes
-/

namespace Cdx.Attributes

open Spec

section

variable {R : XName → XName → Prop} [Correspondence R] {v : SpecVersion} [F32Format] [ReadLimit]

theorem bom_arms : BlindArms R (Bom.arms v) := by unfold Bom.arms; blind_arms

theorem bom_version {a a' : List (String × String)} (h : SameAttributes "bom" a a') :
    Bom.versionOfAttrs a = Bom.versionOfAttrs a' := by
  unfold Bom.versionOfAttrs optAttr
  rw [h "version" (by decide +kernel)]

theorem bom_body {n n' : XName} {l l' : List XEvent} (hn : R n n') (h : SameEvents R l l') :
    SameOut R (Bom.readBody v n l) (Bom.readBody v n' l') := by
  unfold Bom.readBody
  rw [same_length h]
  exact loop_blind hn (fun h1 => by simp only [Correspondence.localName h1]) bom_arms _ _ h

theorem bom_same {evs evs' : List XEvent} (h : SameEvents R evs evs') :
    Bom.parseXmlWith v evs = Bom.parseXmlWith v evs' := by
  unfold Bom.parseXmlWith
  cases h with
  | nil => rfl
  | cons h0 h =>
    cases h0 with
    | startDocument =>
      cases h with
      | nil => rfl
      | cons h1 h =>
        cases h1 with
        | @start n n' a a' ns hn ha =>
          unfold Bom.readDocument
          dsimp only
          rw [← Correspondence.localName hn]
          by_cases hb : n.localName = "bom"
          · rw [if_pos hb, if_pos hb]
            rw [hb] at ha
            by_cases hs : ns = some v.namespace
            · rw [if_pos hs, if_pos hs, bom_version ha]
              have hser : optAttr a "serialNumber" = optAttr a' "serialNumber" := ha _ (by decide +kernel)
              rw [hser]
              cases Bom.versionOfAttrs a' with
              | error e => rfl
              | ok version =>
                have := bom_body (v := v) hn h
                simp only [bind, Except.bind]
                revert this
                generalize Bom.readBody v n _ = x
                generalize Bom.readBody v n' _ = y
                intro this
                cases this with
                | error => rfl
                | ok hl =>
                  cases hl with
                  | nil => rfl
                  | cons he hl => cases he <;> rfl
            · rw [if_neg hs, if_neg hs]
          · rw [if_neg hb, if_neg hb]
        | _ => rfl
    | start => rfl
    | _ => rfl

end

instance eq_correspondence : Correspondence (Eq : XName → XName → Prop) where
  localName h := by rw [h]
  same h h' := by rw [h, h']
  display h h' := by rw [h, h']

/-- Names in a namespace without a prefix, and the same with a prefix. -/
inductive Prefixed (ns p : String) : XName → XName → Prop
  | mk (l : String) : Prefixed ns p ⟨l, some ns, none⟩ ⟨l, some ns, some p⟩

theorem display_plain {ns a b : String} :
    (XName.display ⟨a, some ns, none⟩ = XName.display ⟨b, some ns, none⟩) ↔ a = b := by
  unfold XName.display
  simp [String.ext_iff]

theorem display_prefixed {ns p a b : String} :
    (XName.display ⟨a, some ns, some p⟩ = XName.display ⟨b, some ns, some p⟩) ↔ a = b := by
  unfold XName.display
  simp [String.ext_iff]

instance prefixed_correspondence {ns p : String} : Correspondence (Prefixed ns p) where
  localName h := by cases h; rfl
  same h h' := by cases h; cases h'; simp
  display h h' := by cases h; cases h'; rw [display_plain, display_prefixed]

theorem sameAttributes_drop (tag : String) (a : List (String × String)) :
    SameAttributes tag a (a.filter fun p => (attributesOf tag).contains p.1) := by
  intro k hk
  induction a with
  | nil => rfl
  | cons p a ih =>
    obtain ⟨k', x⟩ := p
    rw [List.lookup_cons]
    by_cases hc : (attributesOf tag).contains k' = true
    · rw [List.filter_cons_of_pos (by simpa using hc), List.lookup_cons, ih]
    · rw [List.filter_cons_of_neg (by simpa using hc), ih]
      have : (k == k') = false := by
        apply Bool.eq_false_iff.mpr
        intro h
        rw [← eq_of_beq h] at hc
        exact hc (by simpa using hk)
      simp only [this]

theorem sameEvents_drop (evs : List XEvent) : SameEvents Eq evs (evs.map dropUnknown) := by
  induction evs with
  | nil => exact .nil
  | cons e l ih =>
    refine .cons ?_ ih
    cases e with
    | start n a ns => exact .start rfl (sameAttributes_drop _ _)
    | startDocument => exact .startDocument
    | stop n => exact .stop rfl
    | chars s => exact .chars
    | cdata s => exact .cdata
    | other => exact .other
    | endDocument => exact .endDocument

theorem sameEvent_self (e : XEvent) : SameEvent Eq e e := by
  cases e with
  | start n a ns => exact .start rfl fun _ _ => rfl
  | startDocument => exact .startDocument
  | stop n => exact .stop rfl
  | chars s => exact .chars
  | cdata s => exact .cdata
  | other => exact .other
  | endDocument => exact .endDocument

theorem lookup_iff {l : List (String × String)} (h : (l.map (·.1)).Nodup) (k x : String) :
    l.lookup k = some x ↔ (k, x) ∈ l := by
  induction l with
  | nil => simp
  | cons p l ih =>
    obtain ⟨k', y⟩ := p
    simp only [List.map_cons, List.nodup_cons] at h
    rw [List.lookup_cons]
    cases hk : k == k' with
    | true =>
      obtain rfl := eq_of_beq hk
      simp only [Option.some.injEq, List.mem_cons, Prod.mk.injEq, true_and]
      constructor
      · intro h; exact .inl h.symm
      · rintro (h | h')
        · exact h.symm
        · exact absurd (List.mem_map.mpr ⟨_, h', rfl⟩) h.1
    | false =>
      simp only [List.mem_cons, Prod.mk.injEq, ih h.2]
      constructor
      · exact .inr
      · rintro (⟨rfl, _⟩ | h)
        · simp at hk
        · exact h

theorem lookup_perm {a a' : List (String × String)} (h : a.Perm a') (hn : (a.map (·.1)).Nodup) (k : String) :
    a.lookup k = a'.lookup k := by
  have hn' : (a'.map (·.1)).Nodup := (h.map _).nodup_iff.mp hn
  apply Option.ext
  intro x
  rw [lookup_iff hn, lookup_iff hn', h.mem_iff]

theorem sameEvents_permuted {evs evs' : List XEvent} (h : PermutedEvents evs evs') :
    SameEvents Eq evs evs' := by
  induction h with
  | nil => exact .nil
  | cons he hl ih =>
    refine .cons ?_ ih
    cases he with
    | start hp hn => exact .start rfl fun k _ => lookup_perm hp hn k
    | same => exact sameEvent_self _

theorem sameEvents_prefix {ns p : String} {evs : List XEvent} (h : Unprefixed ns evs) :
    SameEvents (Prefixed ns p) evs (evs.map (withPrefix p)) := by
  induction evs with
  | nil => exact .nil
  | cons e l ih =>
    refine .cons ?_ (ih ⟨fun n a d hm => h.1 n a d (.tail _ hm), fun n hm => h.2 n (.tail _ hm)⟩)
    cases e with
    | start n a d =>
      obtain ⟨h1, h2⟩ := h.1 n a d (.head _)
      obtain ⟨l, ns', p'⟩ := n
      cases h1; cases h2
      exact .start (.mk _) fun _ _ => rfl
    | stop n =>
      obtain ⟨h1, h2⟩ := h.2 n (.head _)
      obtain ⟨l, ns', p'⟩ := n
      cases h1; cases h2
      exact .stop (.mk _)
    | startDocument => exact .startDocument
    | chars s => exact .chars
    | cdata s => exact .cdata
    | other => exact .other
    | endDocument => exact .endDocument

end Cdx.Attributes
