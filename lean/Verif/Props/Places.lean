import Verif.Lemmas.PlacesAll
import Verif.Props.Elements

/-!
# Properties of validation reports: the places of the messages (C79)

Specification: `Spec/Places.lean` (`Noted`: the places at which a report has messages; `Leads`:
the places of the elements of a document; `Elem.fault`: the places of the violations of an
element; `Wrong`: the places of all violations in a document).
-/

namespace Cdx.Props

open Spec

/-! ## C79: a report has messages exactly at the places of the violations

The full statement

    ∀ E v b, ∃ r, b.validateVersion E v = .ok r ∧ ∀ p, Noted r p ↔ Wrong E v (.bom b) p

is false: the check for the date of the last update of a vulnerability analysis looks at the date
of the first issue. The theorems below show that this is the only exception. -/

/-- A date that is not the date of the first issue. -/
def firstIssued (t : DateTime) : Bom :=
  { version := 1, specVersion := .v1_5,
    vulnerabilities := some [{ vulnerabilityAnalysis := some { firstIssued := some t } }] }

/-- An environment that accepts nothing. -/
def strictEnv : VEnv where
  uriOk := fun _ => false
  dateTimeOk := fun _ => false
  purlErr := fun _ => some "no"
  spdxIdOk := fun _ => false
  spdxExprOk := fun _ => false

/-- The place at which the report of `firstIssued` has a message too many. -/
def lastUpdatedPlace : Place :=
  [.field "vulnerabilities", .field "inner", .item 0, .field "vulnerability_analysis",
    .field "last_updated"]

/-- The report of any document: messages exactly at the places of the violations, and at the
place of the date of the last update of a vulnerability analysis if the date of its first issue
is wrong. -/
theorem C79_report_places_partial (E : VEnv) (v : SpecVersion) (b : Bom) :
    ∃ r, b.validateVersion E v = .ok r ∧ ∀ p, Noted r p ↔
      Wrong E v (.bom b) p ∨
      ∃ q x t, Leads v (.bom b) q (.vulnerabilityAnalysis x) ∧ x.firstIssued = some t ∧
        E.dateTimeOk t = false ∧ p = q ++ [.field "last_updated"] := by
  obtain ⟨r, hr⟩ := total_outcome E v (.bom b)
  refine ⟨r, hr, fun p => ?_⟩
  have := Elem.all_places E v (.bom b) p
  rw [hr, tells_ok] at this
  rw [this]
  constructor
  · rintro ⟨q, e, s, hl, hf | hm, rfl⟩
    · exact .inl ⟨q, e, s, hl, hf, rfl⟩
    · obtain ⟨x, t, rfl, ht, hd, rfl⟩ := mislocated_iff.mp hm
      exact .inr ⟨q, x, t, hl, ht, hd, rfl⟩
  · rintro (⟨q, e, s, hl, hf, rfl⟩ | ⟨q, x, t, hl, ht, hd, rfl⟩)
    · exact ⟨q, e, s, hl, .inl hf, rfl⟩
    · exact ⟨q, _, _, hl, .inr (mislocated_iff.mpr ⟨x, t, rfl, ht, hd, rfl⟩), rfl⟩

/-- If the dates of first issue in a document are right, then its report has messages exactly at
the places of the violations. -/
theorem C79_report_places_exact_partial (E : VEnv) (v : SpecVersion) (b : Bom)
    (h : ∀ q x t, Leads v (.bom b) q (.vulnerabilityAnalysis x) → x.firstIssued = some t →
      E.dateTimeOk t = true) :
    ∃ r, b.validateVersion E v = .ok r ∧ ∀ p, Noted r p ↔ Wrong E v (.bom b) p := by
  obtain ⟨r, hr, hp⟩ := C79_report_places_partial E v b
  refine ⟨r, hr, fun p => (hp p).trans ⟨?_, .inl⟩⟩
  rintro (hw | ⟨q, x, t, hl, ht, hd, -⟩)
  · exact hw
  · rw [h q x t hl ht] at hd
    cases hd

/-- The same for an element that is validated on its own. -/
theorem C79_element_places_partial (E : VEnv) (v : SpecVersion) (e : Elem) :
    ∃ r, e.outcome E v = .ok r ∧ ∀ p, Noted r p ↔
      Wrong E v e p ∨
      ∃ q x t, Leads v e q (.vulnerabilityAnalysis x) ∧ x.firstIssued = some t ∧
        E.dateTimeOk t = false ∧ p = q ++ [.field "last_updated"] := by
  obtain ⟨r, hr⟩ := total_outcome E v e
  refine ⟨r, hr, fun p => ?_⟩
  have := Elem.all_places E v e p
  rw [hr, tells_ok] at this
  rw [this]
  constructor
  · rintro ⟨q, e, s, hl, hf | hm, rfl⟩
    · exact .inl ⟨q, e, s, hl, hf, rfl⟩
    · obtain ⟨x, t, rfl, ht, hd, rfl⟩ := mislocated_iff.mp hm
      exact .inr ⟨q, x, t, hl, ht, hd, rfl⟩
  · rintro (⟨q, e, s, hl, hf, rfl⟩ | ⟨q, x, t, hl, ht, hd, rfl⟩)
    · exact ⟨q, e, s, hl, .inl hf, rfl⟩
    · exact ⟨q, _, _, hl, .inr (mislocated_iff.mpr ⟨x, t, rfl, ht, hd, rfl⟩), rfl⟩

theorem located_firstIssued (t : DateTime) : (Elem.bom (firstIssued t)).located .v1_5 =
    [([.field "vulnerabilities", .field "inner", .item 0],
      .vulnerability { vulnerabilityAnalysis := some { firstIssued := some t } })] := rfl

theorem located_analysis (t : DateTime) :
    (Elem.vulnerability { vulnerabilityAnalysis := some { firstIssued := some t } }).located .v1_5 =
    [([.field "vulnerability_analysis"], .vulnerabilityAnalysis { firstIssued := some t })] := rfl

theorem located_date (t : DateTime) :
    (Elem.vulnerabilityAnalysis { firstIssued := some t }).located .v1_5 =
    [([.field "first_issued"], .dateTime t)] := rfl

theorem not_wrong_lastUpdated :
    ¬ Wrong strictEnv .v1_5 (.bom (firstIssued "x")) lastUpdatedPlace := by
  rintro ⟨q, e, s, hl, hf, hp⟩
  cases hl with
  | here =>
    rcases hf with ⟨-, rfl⟩ | ⟨-, rfl⟩ | ⟨-, rfl⟩ | ⟨-, rfl⟩ <;> exact absurd hp (by decide)
  | part hm hl =>
    rw [located_firstIssued] at hm
    obtain ⟨rfl, rfl⟩ := Prod.mk.inj (List.mem_singleton.mp hm)
    cases hl with
    | here => exact hf.1 trivial
    | part hm hl =>
      rw [located_analysis] at hm
      obtain ⟨rfl, rfl⟩ := Prod.mk.inj (List.mem_singleton.mp hm)
      cases hl with
      | here => exact hf.1 trivial
      | part hm hl =>
        rw [located_date] at hm
        obtain ⟨rfl, rfl⟩ := Prod.mk.inj (List.mem_singleton.mp hm)
        simp [lastUpdatedPlace] at hp

/-- The full statement is false: a document without a date of last update for which the report
says that this date is wrong. -/
theorem C79_report_places_fails :
    ¬ ∀ (E : VEnv) (v : SpecVersion) (b : Bom) (r : VResult), b.validateVersion E v = .ok r →
      ∀ p, Noted r p → Wrong E v (.bom b) p := by
  intro h
  obtain ⟨r, hr, hp⟩ := C79_report_places_partial strictEnv .v1_5 (firstIssued "x")
  refine not_wrong_lastUpdated (h strictEnv .v1_5 _ r hr _ ((hp _).mpr (.inr
    ⟨[.field "vulnerabilities", .field "inner", .item 0, .field "vulnerability_analysis"],
      { firstIssued := some "x" }, "x", ?_, rfl, rfl, rfl⟩)))
  have h1 := List.mem_singleton.mpr (rfl : _ = (([.field "vulnerabilities", .field "inner", .item 0],
      .vulnerability { vulnerabilityAnalysis := some { firstIssued := some "x" } }) : Place × Elem))
  rw [← located_firstIssued] at h1
  have h2 := List.mem_singleton.mpr (rfl : _ = (([.field "vulnerability_analysis"],
    .vulnerabilityAnalysis { firstIssued := some "x" }) : Place × Elem))
  rw [← located_analysis] at h2
  exact .part h1 (.part h2 (.here _))

/-- A component with a line break in the value of its second property. -/
def deepComponent : Component :=
  { componentType := .library, name := "b", version := some "1",
    properties := some [{ name := "k", value := "v" }, { name := "k", value := "a\nb" }] }

/-- A document with a violation deep inside: in a property of the second component. -/
def deepFault : Bom :=
  { version := 1, specVersion := .v1_5,
    components := some
      [{ componentType := .library, name := "a", version := some "1" }, deepComponent] }

/-- The place of the violation. -/
def deepPlace : Place :=
  [.field "components", .field "inner", .item 1, .field "properties", .field "inner", .item 1,
    .field "value"]

theorem noted_single (n : String) (k : ErrorsKind) (p : Place) :
    Noted [(n, k)] p ↔ ∃ s, p = hop n ++ s ∧ NotedIn k s := by
  have := noted_entries (specs := [(n, some k)]) (by simp) p
  simpa [entries, KindAt] using this

theorem notedIn_struct (r : VResult) (p : Place) : NotedIn (.struct r) p ↔ Noted r p :=
  ⟨fun h => by cases h; assumption, .struct⟩

theorem notedIn_item (i : Nat) (r : VResult) (p : Place) :
    NotedIn (.list [(i, r)]) p ↔ ∃ s, p = .item i :: s ∧ Noted r s := by
  constructor
  · intro h
    cases h with
    | list hm h =>
      obtain ⟨rfl, rfl⟩ := Prod.mk.inj (List.mem_singleton.mp hm)
      exact ⟨_, rfl, h⟩
  · rintro ⟨s, rfl, h⟩
    exact .list (List.mem_singleton.mpr rfl) h

theorem notedIn_field (e : String) (p : Place) : NotedIn (.field [e]) p ↔ p = [] :=
  ⟨fun h => by cases h; rfl, fun h => h ▸ .field (List.mem_singleton.mpr rfl)⟩

/-- The violation is where it should be, and the report has a message there and nowhere else. -/
example : Wrong laxEnv .v1_5 (.bom deepFault) deepPlace ∧
    ∃ r, deepFault.validateVersion laxEnv .v1_5 = .ok r ∧ ∀ p, Noted r p ↔ p = deepPlace := by
  refine ⟨⟨deepPlace, .normalizedString "a\nb", [], ?_, ⟨fun h => ?_, rfl⟩, rfl⟩, [("components", .struct [("inner",
    .list [(1, [("properties", .struct [("inner", .list [(1, [("value", .field
      ["NormalizedString contains invalid characters \\r \\n \\t or \\r\\n"])])])])])])])],
    ?_, fun p => ?_⟩
  · refine .part (p := [.field "components", .field "inner", .item 1])
      (b := .component deepComponent) (List.mem_cons_of_mem _ (List.mem_cons_self ..)) ?_
    refine .part (p := [.field "properties", .field "inner", .item 1])
      (b := .property { name := "k", value := "a\nb" }) ?_ ?_
    · show _ ∈ [(_, _), (_, _), (_, _), (_, _), (_, _)]
      exact .tail _ <| .tail _ <| .tail _ <| .tail _ <| .head _
    · exact .part (p := [.field "value"]) (List.mem_cons_self ..) (.here _)
  · exact absurd ((validateNormalizedString_iff "a\nb").mpr h) (by decide)
  · rfl
  · simp only [noted_single, notedIn_struct, notedIn_item, notedIn_field]
    simp [hop, deepPlace]

/-- The hypothesis of `C79_report_places_exact_partial` holds for a document with a vulnerability
analysis whose date of first issue is accepted. -/
example : ∀ q x t, Leads .v1_5 (.bom (firstIssued "2023-10-14T12:00:00Z")) q (.vulnerabilityAnalysis x) →
    x.firstIssued = some t → laxEnv.dateTimeOk t = true := by
  intro q x t hl ht
  cases hl with
  | part hm hl =>
    rw [located_firstIssued] at hm
    obtain ⟨rfl, rfl⟩ := Prod.mk.inj (List.mem_singleton.mp hm)
    cases hl with
    | part hm hl =>
      rw [located_analysis] at hm
      obtain ⟨rfl, rfl⟩ := Prod.mk.inj (List.mem_singleton.mp hm)
      cases hl with
      | here =>
        obtain rfl := Option.some.inj ht
        decide
      | part hm hl =>
        rw [located_date] at hm
        obtain ⟨rfl, rfl⟩ := Prod.mk.inj (List.mem_singleton.mp hm)
        cases hl with
        | part hm hl => exact absurd hm List.not_mem_nil

end Cdx.Props
