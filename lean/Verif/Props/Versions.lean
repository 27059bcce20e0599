import Verif.Props.Elements
import Verif.Spec.Versions

/-!
# C93: validity in several versions
-/

namespace Cdx.Props

open Spec

private theorem rule_later {E : VEnv} {v w : SpecVersion} (hle : v.ord ≤ w.ord) {e : Elem}
    (hl : ∀ x, e = .licenses x → w = .v1_5 → LicensesRule x) (h : e.rule E v) : e.rule E w := by
  have up : v = .v1_5 → w = .v1_5 := by
    rintro rfl
    cases w
    · exact absurd hle (by decide)
    · exact absurd hle (by decide)
    · rfl
  cases e
  case licenses x => exact fun e => (licenses_shape x).2 (hl x rfl e)
  case bomRefAttribute => exact up h
  case refUri x =>
    cases x
    · exact h
    · exact ⟨up h.1, h.2⟩
  case classification => exact h.imp id fun h => ⟨up h.1, h.2⟩
  case aggregateType => exact h.imp id fun h => h.imp id fun h => ⟨up h.1, h.2⟩
  case scoreMethod => exact h.imp id fun h => ⟨up h.1, h.2⟩
  case formula => exact ⟨up h.1, h.2⟩
  case tools => exact h.imp up id
  all_goals exact h

private theorem rule_earlier {E : VEnv} {v : SpecVersion} (hv : v ≠ .v1_5) {e : Elem}
    (h : e.rule E .v1_5) : e.rule E v ↔ ¬ Needs15 e := by
  cases e
  case licenses x => exact ⟨fun _ h => h, fun _ h => absurd h hv⟩
  case bomRefAttribute => exact ⟨fun h => absurd h hv, fun h => absurd trivial h⟩
  case refUri x =>
    cases x
    · exact ⟨fun _ h => h, fun _ => h⟩
    · exact ⟨fun h => absurd h.1 hv, fun h => absurd trivial h⟩
  case classification c =>
    refine ⟨fun h => h.elim (fun h h' => ?_) fun h => absurd h.1 hv, fun h' => h.imp id fun h => absurd h.2 h'⟩
    revert h h'
    cases c <;> simp [Needs15]
  case aggregateType a =>
    refine ⟨fun h => h.elim (fun h h' => ?_) fun h => h.elim (fun h h' => ?_) fun h => absurd h.1 hv,
      fun h' => h.imp id fun h => h.imp id fun h => absurd h.2 h'⟩
    · revert h h'
      cases a <;> simp [Needs15]
    · rw [h] at h'
      simp [Needs15] at h'
  case scoreMethod m =>
    refine ⟨fun h => h.elim (fun h h' => ?_) fun h => absurd h.1 hv, fun h' => h.imp id fun h => absurd h.2 h'⟩
    revert h h'
    cases m <;> simp [Needs15]
  case formula => exact ⟨fun h => absurd h.1 hv, fun h => absurd trivial h⟩
  case tools x =>
    cases x with
    | list l => exact ⟨fun _ h => h, fun _ => .inr ⟨l, rfl⟩⟩
    | object s c => exact ⟨fun h => h.elim (absurd · hv) (fun ⟨_, h⟩ => (nomatch h)), fun h => absurd trivial h⟩
  all_goals exact ⟨fun _ h => h, fun _ => h⟩

/-- C93: a BOM that is valid in a version is valid in a later one exactly if, when the later one is
1.5, its lists of licenses follow the rule of 1.5. -/
theorem C93_later {E : VEnv} {v w : SpecVersion} {b : Bom} (hle : v.ord ≤ w.ord)
    (h : b.validateVersion E v = .ok []) : b.validateVersion E w = .ok [] ↔
      (w = .v1_5 → ∀ x, Inside Elem.checked (.bom b) (.licenses x) → LicensesRule x) := by
  rw [C38_passes_iff_rules_partial] at h ⊢
  constructor
  · rintro hw rfl x hx
    exact (licenses_shape x).1 (hw _ hx rfl)
  · exact fun hl e he => rule_later hle (fun x e' hw => hl hw x (e' ▸ he)) (h e he)

/-- C93: a BOM that is valid in 1.5 is valid in an earlier version exactly if nothing in it came with
1.5. -/
theorem C93_earlier {E : VEnv} {v : SpecVersion} {b : Bom} (hv : v ≠ .v1_5)
    (h : b.validateVersion E .v1_5 = .ok []) : b.validateVersion E v = .ok [] ↔
      ∀ e, Inside Elem.checked (.bom b) e → ¬ Needs15 e := by
  rw [C38_passes_iff_rules_partial] at h ⊢
  exact forall_congr' fun e => forall_congr' fun he => rule_earlier hv (h e he)

/-- C93: versions 1.3 and 1.4 accept the same BOMs. -/
theorem C93_same (E : VEnv) (b : Bom) :
    b.validateVersion E .v1_3 = .ok [] ↔ b.validateVersion E .v1_4 = .ok [] := by
  rw [C38_passes_iff_rules_partial, C38_passes_iff_rules_partial]
  refine forall_congr' fun e => forall_congr' fun _ => ?_
  cases e
  case refUri x => cases x <;> simp [Elem.rule]
  case classification => simp [Elem.rule, ClassificationIn]
  case aggregateType => simp [Elem.rule, AggregateIn]
  case scoreMethod => simp [Elem.rule, ScoreMethodIn]
  case bomRefAttribute => simp [Elem.rule]
  case formula => simp [Elem.rule]
  case licenses => simp [Elem.rule]
  case tools => simp [Elem.rule]
  all_goals exact Iff.rfl

/-- A component with an expression beside a named license. -/
def twoLicenses : Component where
  componentType := .library
  name := "x"
  version := some "1"
  licenses := some [.expression { expression := "MIT" }, .license { licenseIdentifier := .name "n" }]

/-- A BOM with that component, and one with a component type of 1.5. -/
def mixedLicenses : Bom where
  version := 1
  specVersion := .v1_4
  components := some [twoLicenses]

@[inherit_doc mixedLicenses]
def newType : Bom where
  version := 1
  specVersion := .v1_5
  components := some [{ componentType := .platform, name := "x", version := some "1" }]

/-- C93: both conditions are needed. -/
theorem C93_needed :
    (mixedLicenses.validateVersion laxEnv .v1_4 = .ok [] ∧ mixedLicenses.validateVersion laxEnv .v1_5 ≠ .ok []) ∧
    (newType.validateVersion laxEnv .v1_5 = .ok [] ∧ newType.validateVersion laxEnv .v1_4 ≠ .ok []) := by
  have pass : ∀ {b : Bom} {v}, (match b.validateVersion laxEnv v with
      | .ok [] => true
      | _ => false) = true → b.validateVersion laxEnv v = .ok [] := by
    intro b v h
    split at h
    · assumption
    · cases h
  have fail : ∀ {b : Bom} {v}, (match b.validateVersion laxEnv v with
      | .ok [] => true
      | _ => false) = false → b.validateVersion laxEnv v ≠ .ok [] := by
    intro b v h e
    rw [e] at h
    cases h
  exact ⟨⟨pass (by decide +kernel), fail (by decide +kernel)⟩, pass (by decide +kernel),
    fail (by decide +kernel)⟩

end Cdx.Props
