import Verif.Props.Exact
import Verif.Props.ExactXml
import Verif.Props.Elements
import Verif.Props.Dated
import Verif.Props.Versions
import Verif.Lemmas.Stays
import Verif.Spec.Stays

/-!
# C94: a valid BOM is still valid after it is written and read
-/

set_option linter.unusedSectionVars false

namespace Cdx.Props

open Cdx Spec

private theorem mentioned_at {v : SpecVersion} {b : Bom} {r : String} : Mentions (b.at v) r ↔ Mentions b r := by
  have hd : (b.at v).dependencies = b.dependencies := rfl
  have hc : (b.at v).compositions = b.compositions.map (List.map (Composition.at v)) := rfl
  unfold Mentions
  rw [hd, hc]
  refine or_congr Iff.rfl ?_
  cases b.compositions with
  | none => exact Iff.rfl
  | some l =>
    constructor
    · rintro ⟨c, m, h⟩
      obtain ⟨c', m', rfl⟩ := List.mem_map.1 m
      exact ⟨c', m', h⟩
    · rintro ⟨c, m, h⟩
      exact ⟨_, List.mem_map.2 ⟨c, m, rfl⟩, h⟩

private theorem bom_rule {E : VEnv} {v : SpecVersion} {b : Bom} : (Elem.bom b).rule E v ↔
    b.refs.Nodup ∧ ∀ r, Mentions b r → r ∈ b.refs := by
  refine and_congr Iff.rfl ⟨?_, fun h => ⟨fun d m => ⟨h _ (.inl ⟨d, m, .inl rfl⟩), fun r hr => h _ (.inl ⟨d, m, .inr hr⟩)⟩,
    fun c m => ⟨fun r hr => h _ (.inr ⟨c, m, .inl hr⟩), fun r hr => h _ (.inr ⟨c, m, .inr hr⟩)⟩⟩⟩
  rintro ⟨h1, h2⟩ r (⟨d, m, rfl | h⟩ | ⟨c, m, h | h⟩)
  · exact (h1 d m).1
  · exact (h1 d m).2 _ h
  · exact (h2 c m).1 _ h
  · exact (h2 c m).2 _ h

private theorem mem_vulnRefs {b : Bom} {r : String} :
    r ∈ b.vulnRefs ↔ ∃ x ∈ b.vulnerabilities.getD [], x.bomRef = some r := by
  simp [Bom.vulnRefs, List.mem_flatMap]

private theorem opt_no_bom {α : Type} {f : α → Elem} {c : Bom} (h : ∀ x, f x ≠ .bom c) (x : Option α) :
    Elem.bom c ∉ opt f x := fun m => by
  obtain ⟨y, _, e⟩ := List.mem_map.1 m
  exact h y e

private theorem many_no_bom {α : Type} {f : α → Elem} {c : Bom} (h : ∀ x, f x ≠ .bom c) (x : Option (List α)) :
    Elem.bom c ∉ many f x := fun m => by
  obtain ⟨y, _, e⟩ := List.mem_map.1 m
  exact h y e

private theorem map_no_bom {α : Type} {f : α → Elem} {c : Bom} (h : ∀ x, f x ≠ .bom c) (x : List α) :
    Elem.bom c ∉ x.map f := fun m => by
  obtain ⟨y, _, e⟩ := List.mem_map.1 m
  exact h y e

private theorem append_no_bom {a b : List Elem} {c : Bom} (ha : Elem.bom c ∉ a) (hb : Elem.bom c ∉ b) :
    Elem.bom c ∉ a ++ b := fun m => (List.mem_append.1 m).elim ha hb

private theorem one_no_bom {a : Elem} {c : Bom} (h : a ≠ .bom c) : Elem.bom c ∉ [a] := fun m =>
  h (List.mem_singleton.1 m).symm

local macro "no_bom" : tactic => `(tactic| first
  | ((with_reducible refine opt_no_bom ?_ _); intro _ h; exact (nomatch h))
  | ((with_reducible refine many_no_bom ?_ _); intro _ h; exact (nomatch h))
  | ((with_reducible refine map_no_bom ?_ _); intro _ h; exact (nomatch h))
  | ((with_reducible refine one_no_bom ?_); intro h; exact (nomatch h))
  | (intro h; exact (nomatch h)))

private theorem no_bom_inside (e : Elem) (c : Bom) : Elem.bom c ∉ e.checked := by
  cases e
  case licenseIdentifier x => cases x <;> unfold Elem.checked <;> no_bom
  case licenseContact x => cases x <;> unfold Elem.checked <;> no_bom
  case licenseChoice x => cases x <;> unfold Elem.checked <;> no_bom
  case signature x => cases x <;> unfold Elem.checked <;> no_bom
  case dataGovernanceResponsibleParty x => cases x <;> unfold Elem.checked <;> no_bom
  case dataset x => cases x <;> unfold Elem.checked <;> no_bom
  case serviceDataChoice x => cases x <;> unfold Elem.checked <;> no_bom
  case tools x =>
    cases x <;> unfold Elem.checked
    · no_bom
    · exact append_no_bom (by no_bom) (by no_bom)
  case annotator x => cases x <;> unfold Elem.checked <;> no_bom
  case resourceReference x => cases x <;> unfold Elem.checked <;> no_bom
  case input x =>
    rw [checked_input]
    refine append_no_bom (append_no_bom (append_no_bom ?_ ?_) ?_) ?_
    · cases x.required <;> unfold inputParts <;> no_bom
    all_goals no_bom
  case output x =>
    rw [checked_output]
    refine append_no_bom (append_no_bom (append_no_bom (append_no_bom ?_ ?_) ?_) ?_) ?_
    · cases x.required <;> unfold outputParts <;> no_bom
    all_goals no_bom
  all_goals
    unfold Elem.checked
    repeat' with_reducible apply append_no_bom
    all_goals no_bom

private theorem part_no_bom {c : Bom} {d x : Elem} (h : Inside Elem.checked d x) (hx : x = .bom c) :
    ∀ a : Elem, d ∉ a.checked := by
  induction h with
  | refl => exact fun a m => no_bom_inside a c (hx ▸ m)
  | step m _ ih => exact fun _ _ => ih hx _ m

private theorem only_bom {b c : Bom} (h : Inside Elem.checked (.bom b) (.bom c)) : c = b := by
  cases h with
  | refl => rfl
  | step m h => exact absurd m (part_no_bom h rfl _)

section
variable [F32Format] [ReadLimit] {E : VEnv} {v w : SpecVersion} {b : Bom}

private theorem ord_le (hw : w = v ∨ w = .v1_5 ∨ v = .v1_3) : v.ord ≤ w.ord := by
  cases v <;> cases w <;> first | decide | (rcases hw with h | h | h <;> cases h)

/-- C94: what a version has of a BOM that is valid in it is valid too, exactly if the version has
vulnerabilities or no dependency and no composition refers to one. -/
theorem C94_exact (h : b.validateVersion E v = .ok []) : (b.at v).validateVersion E v = .ok [] ↔
    (v = .v1_3 → ∀ r, Mentions b r → ∀ x ∈ b.vulnerabilities.getD [], x.bomRef ≠ some r) := by
  rw [C38_passes_iff_rules_partial] at h ⊢
  have hb := bom_rule.1 (h _ (.refl _))
  rw [Bom.refs_split, List.nodup_append] at hb
  have key : (Elem.bom (b.at v)).rule E v ↔
      (v = .v1_3 → ∀ r, Mentions b r → ∀ x ∈ b.vulnerabilities.getD [], x.bomRef ≠ some r) := by
    rw [bom_rule, Bom.refs_split, Bom.otherRefs_at, Bom.vulnRefs_at]
    by_cases hv : v = .v1_3
    · rw [if_pos hv, List.append_nil]
      constructor
      · rintro ⟨_, h'⟩ _ r hm x hx e
        exact hb.1.2.2 r (h' r (mentioned_at.2 hm)) r (mem_vulnRefs.2 ⟨x, hx, e⟩) rfl
      · refine fun h' => ⟨hb.1.1, fun r hm => ?_⟩
        have hm := mentioned_at.1 hm
        rcases List.mem_append.1 (hb.2 r hm) with m | m
        · exact m
        · obtain ⟨x, hx, e⟩ := mem_vulnRefs.1 m
          exact absurd e (h' hv r hm x hx)
    · rw [if_neg hv]
      refine ⟨fun _ e => absurd e hv, fun _ => ⟨List.nodup_append.2 hb.1, fun r hm => hb.2 r (mentioned_at.1 hm)⟩⟩
  rw [← key]
  refine ⟨fun h' => h' _ (.refl _), fun hk e he => ?_⟩
  obtain ⟨e₀, h₀, c⟩ := Cut.inside he (Cut.bom b)
  by_cases hx : ∃ c, e = .bom c
  · obtain ⟨c, rfl⟩ := hx
    cases only_bom he
    exact hk
  · exact c.rule (fun c e => hx ⟨c, e⟩) (h _ h₀)

/-- C94, for JSON: a valid BOM that JSON keeps is valid after it is written and read. Missing: in
version 1.3, a BOM in which a dependency or a composition refers to a vulnerability, see
`C94_refuted`. -/
theorem C94_json_partial (h : b.validateVersion E v = .ok []) (hk : Bom.JsonOk v b)
    (hr : v = .v1_3 → ∀ r, Mentions b r → ∀ x ∈ b.vulnerabilities.getD [], x.bomRef ≠ some r) :
    ∃ j c, b.outputJson v = .ok j ∧ Bom.parseJson j = .ok c ∧ c.validateVersion E v = .ok [] := by
  obtain ⟨j, h1, h2⟩ := C77_exact.2 hk
  exact ⟨j, _, h1, h2, (C94_exact h).2 hr⟩

/-- C94, for XML. -/
theorem C94_xml_partial (h : b.validateVersion E v = .ok []) (hk : Bom.XmlOk v b)
    (hr : v = .v1_3 → ∀ r, Mentions b r → ∀ x ∈ b.vulnerabilities.getD [], x.bomRef ≠ some r) :
    ∃ ns w c, b.outputXml v = .ok (ns, w) ∧ Bom.parseXmlWith v (document ns w) = .ok c ∧
      c.validateVersion E v = .ok [] := by
  obtain ⟨ns, w, h1, h2⟩ := C78_exact.2 hk
  exact ⟨ns, w, _, h1, h2, (C94_exact h).2 hr⟩

/-- C94: the condition is needed only for version 1.3. -/
theorem C94_later (hv : v ≠ .v1_3) (h : b.validateVersion E v = .ok []) :
    (b.at v).validateVersion E v = .ok [] ∧ (b.at v).validate E = .ok [] :=
  have := (C94_exact h).2 fun e => absurd e hv
  ⟨this, this⟩

/-- C94, for what was read from JSON: no condition on references. If it is valid in its version and is
written, in that version or a later one, and read again, it is valid in the version it was written in
exactly if, when that is 1.5, its lists of licenses follow the rule of 1.5. -/
theorem C94_read_json {j : Json} (hp : Bom.parseJson j = .ok b)
    (hw : w = b.specVersion ∨ w = .v1_5 ∨ b.specVersion = .v1_3)
    (h : b.validate E = .ok []) (hk : Bom.JsonOk w b) :
    ∃ j' c, b.outputJson w = .ok j' ∧ Bom.parseJson j' = .ok c ∧ c.specVersion = w ∧
      (c.validate E = .ok [] ↔
        (w = .v1_5 → ∀ x, Inside Elem.checked (.bom b) (.licenses x) → LicensesRule x)) := by
  obtain ⟨j', h1, h2⟩ := (C68_exact hp hw).2 hk
  exact ⟨j', _, h1, h2, rfl, C93_later (E := E) (ord_le hw) h⟩

/-- C94, for what was read from XML. -/
theorem C94_read_xml {evs : List XEvent} (hp : Bom.parseXmlWith v evs = .ok b)
    (hw : w = v ∨ w = .v1_5 ∨ v = .v1_3)
    (h : b.validateVersion E v = .ok []) (hk : Bom.XmlOk w b) :
    ∃ ns out c, b.outputXml w = .ok (ns, out) ∧ Bom.parseXmlWith w (document ns out) = .ok c ∧
      c.specVersion = w ∧
      (c.validate E = .ok [] ↔
        (w = .v1_5 → ∀ x, Inside Elem.checked (.bom b) (.licenses x) → LicensesRule x)) := by
  obtain ⟨ns, out, h1, h2⟩ := (C76_exact hp hw).2 hk
  exact ⟨ns, out, _, h1, h2, rfl, C93_later (E := E) (ord_le hw) h⟩

/-- C94: so a valid document that was read stays valid when it is written in its own version, even if
that is 1.3. -/
theorem C94_read_same {j : Json} (hp : Bom.parseJson j = .ok b) (h : b.validate E = .ok [])
    (hk : Bom.JsonOk b.specVersion b) :
    ∃ j' c, b.outputJson b.specVersion = .ok j' ∧ Bom.parseJson j' = .ok c ∧ c.validate E = .ok [] := by
  obtain ⟨j', h1, h2⟩ := (C68_exact hp (.inl rfl)).2 hk
  exact ⟨j', _, h1, h2, h⟩

end

/-- A BOM with a composition that refers to a vulnerability. -/
def mentionsVulnerability : Bom where
  version := 1
  specVersion := .v1_3
  vulnerabilities := some [{ bomRef := some "v" }]
  compositions := some [{ aggregate := .complete, assemblies := some ["v"] }]

section
attribute [local instance] Example.f32 Example.limit

/-- C94: the condition is needed. This BOM is valid in version 1.3, it is written and read, and what
is read is not valid. -/
theorem C94_refuted : mentionsVulnerability.validateVersion laxEnv .v1_3 = .ok [] ∧
    ∃ j c, mentionsVulnerability.outputJson .v1_3 = .ok j ∧ Bom.parseJson j = .ok c ∧
      c.validateVersion laxEnv .v1_3 ≠ .ok [] := by
  have hv : mentionsVulnerability.validateVersion laxEnv .v1_3 = .ok [] := by
    have : (match mentionsVulnerability.validateVersion laxEnv .v1_3 with
      | .ok [] => true
      | _ => false) = true := by decide +kernel
    split at this
    · assumption
    · cases this
  have hk : Bom.JsonOk .v1_3 mentionsVulnerability := by
    constructor <;> simp [mentionsVulnerability]
    exact ⟨rfl, by simp⟩
  obtain ⟨j, h1, h2⟩ := C77_exact.2 hk
  refine ⟨hv, j, _, h1, h2, fun h => ?_⟩
  exact (C94_exact hv).1 h rfl "v" (.inr ⟨_, List.mem_cons_self, .inl List.mem_cons_self⟩) _
    List.mem_cons_self rfl

/-- In version 1.4 it stays valid: the hypotheses of `C94_json_partial` are met. -/
example : mentionsVulnerability.validateVersion laxEnv .v1_4 = .ok [] ∧
    Bom.JsonOk .v1_4 mentionsVulnerability := by
  constructor
  · have : (match mentionsVulnerability.validateVersion laxEnv .v1_4 with
      | .ok [] => true
      | _ => false) = true := by decide +kernel
    split at this
    · assumption
    · cases this
  · constructor <;> simp [mentionsVulnerability]
    · exact ⟨rfl, by simp⟩
    · constructor <;> simp

/-- The hypotheses of `C94_read_json` are met: this document is written and read, what is read is valid
in version 1.4, and it can be written in version 1.5, in which it is not valid. -/
example : ∃ j b, Bom.parseJson j = .ok b ∧ b.specVersion = .v1_4 ∧ b.validate laxEnv = .ok [] ∧
    Bom.JsonOk .v1_4 b ∧ Bom.JsonOk .v1_5 b ∧ b.validateVersion laxEnv .v1_5 ≠ .ok [] := by
  have ok : ∀ v, Bom.JsonOk v mixedLicenses := by
    intro v
    constructor <;> simp [mixedLicenses]
    constructor <;> simp [twoLicenses]
    · exact rfl
    · intro c hc
      simp only [List.mem_cons, List.not_mem_nil, or_false] at hc
      rcases hc with rfl | rfl
      · trivial
      · constructor <;> simp
  obtain ⟨j, _, h⟩ := C77_exact.2 (ok .v1_4)
  exact ⟨j, _, h, rfl, C93_needed.1.1, ok _, ok _, C93_needed.1.2⟩

end

end Cdx.Props
