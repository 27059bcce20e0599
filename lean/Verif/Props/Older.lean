import Verif.Lemmas.Older
import Verif.Lemmas.Format.Between
import Verif.Props.ExampleBom

/-!
# C97: the readers of the versions agree on what the versions share
-/

namespace Cdx.Props

open Spec

section
variable [F32Format] [ReadLimit] {v w : SpecVersion} {b c : Bom} {j : Json}

/-- C97: of a JSON document that the reader of a version accepts, the reader of an earlier version accepts
exactly those that satisfy `OldBom`, and reads what its version has of it. -/
theorem C97_exact (hlt : v.ord < w.ord) (h : Bom.parseJsonWith w j = .ok c) :
    Bom.parseJsonWith v j = .ok b ↔ OldBom v c ∧ b = { c.at v with specVersion := c.specVersion } :=
  Bom.older hlt j c b h

/-- C97: two readers that accept the same document read what is written as the same file of the earlier
version, in both formats. -/
theorem C97_agree (hle : v.ord ≤ w.ord) (hv : Bom.parseJsonWith v j = .ok b) (hw : Bom.parseJsonWith w j = .ok c) :
    b.outputJson v = c.outputJson v ∧ b.outputXml v = c.outputXml v := by
  by_cases h : v = w
  · subst h
    rw [hv] at hw
    cases hw
    exact ⟨rfl, rfl⟩
  · have hlt : v.ord < w.ord := by
      cases v <;> cases w <;> first | exact absurd rfl h | exact absurd hle (by decide) | decide
    obtain ⟨-, rfl⟩ := (C97_exact hlt hw).1 hv
    exact ⟨Bom.outputJson_both (Nat.le_refl _) c, Bom.outputXml_both (Nat.le_refl _) c⟩

/-- C97: the same for readers that take the version from the document: a document whose member
`specVersion` is set back to an earlier version is accepted exactly if what was read before satisfies
`OldBom`, and gives what the version has of that. -/
theorem C97_relabelled {o : List (String × Json)} (h : Bom.parseJsonValue (.obj o) = .ok c)
    (hlt : v.ord < c.specVersion.ord) :
    Bom.parseJsonValue (.obj (relabel v.display o)) = .ok b ↔ OldBom v c ∧ b = c.at v := by
  have hl : (relabel v.display o).lookup "specVersion" =
      (o.lookup "specVersion").map fun _ => .str v.display := by
    clear h
    induction o with
    | nil => rfl
    | cons p o ih =>
      obtain ⟨k, x⟩ := p
      simp only [relabel, List.map_cons] at ih ⊢
      by_cases hk : k = "specVersion"
      · subst hk; simp
      · have : ("specVersion" == k) = false := by simpa using fun h => hk h.symm
        rw [if_neg hk, List.lookup_cons, List.lookup_cons]
        simp only [this]
        exact ih
  simp only [Bom.parseJsonValue] at h
  split at h
  · rename_i s hs
    split at h
    · rename_i u hu
      have hr : ∃ w', Json.req o "specVersion" SpecVersion.ofJson = .ok w' ∧ c.specVersion = w' := by
        simp only [Bom.ofJson, Json.fields, bind_ok] at h
        obtain ⟨o', ho, -, -, x, hx, h⟩ := h
        cases ho
        refine ⟨x, hx, ?_⟩
        obtain ⟨y1, h1, y2, h2, y3, h3, y4, h4, y5, h5, y6, h6, y7, h7, y8, h8, y9, h9, y10, h10, y11, h11, y12, h12, y13, h13, e⟩ := h
        cases e
        rfl
      obtain ⟨w', hr, hw⟩ := hr
      have huw : u = w' := by
        simp only [Json.req, Json.get] at hr
        have : ∀ l : List (String × Json), l.lookup "specVersion" = some (.str s) →
            ∃ t, l.filter (fun p => p.1 == "specVersion") = ("specVersion", .str s) :: t := by
          intro l
          induction l with
          | nil => intro h; exact nomatch h
          | cons p l ih =>
            obtain ⟨k, x⟩ := p
            intro h
            by_cases hk : k = "specVersion"
            · subst hk
              simp at h
              subst h
              exact ⟨_, by rw [List.filter_cons]; rfl⟩
            · have h1 : ("specVersion" == k) = false := by simpa using fun h => hk h.symm
              have h2 : (k == "specVersion") = false := by simpa using hk
              rw [List.lookup_cons] at h
              simp only [h1] at h
              obtain ⟨t, ht⟩ := ih h
              exact ⟨t, by rw [List.filter_cons]; simp only [h2]; exact ht⟩
        obtain ⟨t, ht⟩ := this o hs
        rw [ht] at hr
        cases t with
        | nil =>
          simp only [SpecVersion.ofJson, hu] at hr
          cases hr
          rfl
        | cons _ _ => exact nomatch hr
      subst huw
      rw [← hw] at h
      have e : Bom.parseJsonValue (.obj (relabel v.display o)) =
          Bom.ofJson v (.obj (relabel v.display o)) := by
        simp only [Bom.parseJsonValue, hl, hs, Option.map_some, SpecVersion.ofString_display]
      rw [e, Bom.ofJson_relabel hr]
      constructor
      · rintro ⟨b', hb, rfl⟩
        obtain ⟨hc, rfl⟩ := (C97_exact hlt h).1 hb
        exact ⟨hc, rfl⟩
      · rintro ⟨hc, rfl⟩
        exact ⟨_, (C97_exact hlt h).2 ⟨hc, rfl⟩, rfl⟩
    · exact nomatch h
  · exact nomatch h
  · exact nomatch h

end

/-! ### Non-vacuity -/

section
attribute [local instance] Example.f32 Example.limit

private def members (extra : List (String × Json)) : List (String × Json) :=
  [("bomFormat", .str "CycloneDX"), ("specVersion", .str "1.5"), ("version", .nat 1)] ++ extra

private def component (version : List (String × Json)) : Json :=
  .obj ([("type", .str "library"), ("name", .str "a")] ++ version)

/-- A document of 1.5 with properties that version 1.4 does not have is accepted by the readers of 1.5 and
1.4, which differ in this; that of 1.3 does not accept the component without a version. -/
example : let j := Json.obj (members [("components", .arr [component []]),
      ("properties", .arr [.obj [("name", .str "x"), ("value", .str "y")]])])
    (∃ c b, Bom.parseJsonWith .v1_5 j = .ok c ∧ Bom.parseJsonWith .v1_4 j = .ok b ∧
      c.properties ≠ none ∧ b.properties = none ∧ b.components = c.components) ∧
    (∀ b, Bom.parseJsonWith .v1_3 j ≠ .ok b) := by
  refine ⟨⟨_, _, rfl, rfl, nofun, rfl, rfl⟩, fun b h => ?_⟩
  exact nomatch h

/-- Tools that are described by components are accepted by the reader of 1.5 alone. -/
example : let j := Json.obj (members [("metadata", .obj [("tools", .obj [("components",
      .arr [component [("version", .str "1")]])])])])
    (∃ c, Bom.parseJsonWith .v1_5 j = .ok c) ∧ ¬ ∃ b, Bom.parseJsonWith .v1_4 j = .ok b := by
  refine ⟨⟨_, rfl⟩, ?_⟩
  rintro ⟨b, h⟩
  exact nomatch h

/-- The first document with its version set back to 1.4. -/
example : let o := members [("components", .arr [component []]),
      ("properties", .arr [.obj [("name", .str "x"), ("value", .str "y")]])]
    ∃ c b, Bom.parseJsonValue (.obj o) = .ok c ∧ c.specVersion = .v1_5 ∧
      Bom.parseJsonValue (.obj (relabel "1.4" o)) = .ok b ∧ b.specVersion = .v1_4 :=
  ⟨_, _, rfl, rfl, rfl, rfl⟩

end

end Cdx.Props
