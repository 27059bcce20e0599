import Verif.Props.Order
import Verif.Lemmas.UnknownValue

/-!
# Property C82: JSON members that the format does not have
-/

namespace Cdx.Props

open Spec

section
variable [F32Format] [ReadLimit] {v : SpecVersion} {a b j : Json}

theorem value_unknown (h : Extended a b) (ha : a.Unique) (hb : b.Unique) :
    Bom.parseJsonValue a = Bom.parseJsonValue b := by
  have hobj : ∀ o p, Extended (.obj o) (.obj p) → (o.map Prod.fst).Nodup → (p.map Prod.fst).Nodup →
      Bom.parseJsonValue (.obj o) = Bom.parseJsonValue (.obj p) := by
    intro o p h ho hp
    have hr : ∀ v, Bom.ofJson v (.obj o) = Bom.ofJson v (.obj p) := fun v => Tolerant.eq (f := Bom.ofJson v) h
    simp only [Bom.parseJsonValue, hr]
    rcases h.get (k := "specVersion") with e | ⟨x, y, e1, e2, hxy⟩
    · rw [Json.get_nodup ho, Json.get_nodup hp] at e
      rw [Except.ok.inj e]
    · rw [Json.get_nodup ho] at e1
      rw [Json.get_nodup hp] at e2
      rw [Except.ok.inj e1, Except.ok.inj e2]
      cases hxy <;> rfl
  cases h with
  | item => rfl
  | added h1 h2 => cases ha with | obj ha => cases hb with | obj hb => exact hobj _ _ (.added h1 h2) ha hb
  | changed h1 => cases ha with | obj ha => cases hb with | obj hb => exact hobj _ _ (.changed h1) ha hb
  | member h1 => cases ha with | obj ha => cases hb with | obj hb => exact hobj _ _ (.member h1) ha hb

/-- C82 (partial): adding members with names that the format does not have, to any objects at any
depth, does not change how a document is read by `Bom::parse_from_json`. Not added to are objects that
consist of one member that says which kind of thing they are; `C82_fails` shows why. -/
theorem C82_parse_partial (h : ExtendedAll a b) : Bom.parseJson a = Bom.parseJson b := by
  induction h with
  | none => rfl
  | more _ h ih =>
    rw [ih, Bom.parseJson, Bom.parseJson]
    rcases h.toValue with h | h
    · rw [h]
    · exact value_unknown h (toValue_unique _) (toValue_unique _)

/-- C82 (partial): the same for the reader that is told the version. -/
theorem C82_parse_with_partial (h : ExtendedAll a b) : Bom.parseJsonWith v a = Bom.parseJsonWith v b := by
  induction h with
  | none => rfl
  | more _ h ih => rw [ih]; exact Tolerant.eq (f := Bom.ofJson v) h

/-- C82 (partial): a document that is written comes back also if members that the format does not have
are added to it. -/
theorem C82_written_partial {d : Bom} (h : Bom.JsonOk v d) (he : ExtendedAll (d.toJson v) j) :
    Bom.parseJson j = .ok (d.at v) ∧ Bom.parseJsonWith v j = .ok (d.at v) := by
  rw [← C82_parse_partial he, ← C82_parse_with_partial he]
  obtain ⟨i, h1, h2, h3⟩ := C44_json_partial h
  unfold Bom.outputJson at h1
  rw [if_pos h.converts] at h1
  cases h1
  exact ⟨h2, h3⟩

end

/-- A document whose component has the given list of licenses. -/
def licensedBy (l : List (String × Json)) : Json :=
  .obj [("bomFormat", .str "CycloneDX"), ("specVersion", .str "1.4"), ("version", .nat 1),
    ("components", .arr [.obj [("type", .str "library"), ("name", .str "n"), ("version", .str "1"),
      ("licenses", .arr [.obj l])]])]

theorem licensedBy_extended {l m : List (String × Json)} (h : Extended (.obj l) (.obj m)) :
    Extended (licensedBy l) (licensedBy m) :=
  .member (before := [_, _, _]) (after := []) (.item (before := []) (after := [])
    (.member (before := [_, _, _]) (after := []) (.item (before := []) (after := []) h)))

/-- Non-vacuity: members that version 1.6 has are added, to the document and to a license. -/
example : ExtendedAll (licensedBy [("license", .obj [("id", .str "MIT")])])
    (.obj [("bomFormat", .str "CycloneDX"), ("specVersion", .str "1.4"), ("version", .nat 1),
      ("components", .arr [.obj [("type", .str "library"), ("name", .str "n"), ("version", .str "1"),
        ("licenses", .arr [.obj [("license", .obj [("acknowledgement", .str "declared"), ("id", .str "MIT")])]])]]),
      ("declarations", .obj [("targets", .arr [])])]) := by
  refine .more (.more .none (licensedBy_extended (.member (before := []) (after := [])
    (.added (before := []) (after := [("id", .str "MIT")]) (k := "acknowledgement") (x := .str "declared")
      (by decide) ?_)))) (.added (before := [_, _, _, _]) (after := []) (k := "declarations") (by decide) ?_)
  · rintro ⟨k, hk, -, h⟩
    have := h ("id", .str "MIT") (by simp)
    subst this
    revert hk
    decide
  · rintro ⟨k, hk, -, h⟩
    have := h ("bomFormat", .str "CycloneDX") (by simp)
    subst this
    revert hk
    decide

/-- A license in a list of licenses, with one more member that the format does not have. -/
def annotated : Json := licensedBy [("license", .obj [("id", .str "MIT")]), ("acknowledgement", .str "declared")]

attribute [local instance] Example.f32 Example.limit in
/-- C82: an unknown member beside `license` in a list of licenses is not ignored: the document is
rejected by both readers. -/
theorem C82_fails :
    (∃ b, Bom.parseJson (licensedBy [("license", .obj [("id", .str "MIT")])]) = .ok b) ∧
    (∃ e, Bom.parseJson annotated = .error e) ∧ ∀ v, ∃ e, Bom.parseJsonWith v annotated = .error e :=
  ⟨⟨_, rfl⟩, ⟨_, rfl⟩, fun v => by cases v <;> exact ⟨_, rfl⟩⟩

end Cdx.Props
