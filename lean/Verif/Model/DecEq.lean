import Verif.Model.Types

/-!
# Decidable equality of components and services

The derived `PartialEq`/`Eq` (`models/component.rs` 48, 584; `models/service.rs` 35, ...)
of the recursive types, needed by `add_unique_list` (`validation.rs` 243-273).
-/

namespace Cdx

set_option synthInstance.maxSize 4000

/-- The non-recursive fields of a component (`models/component.rs` 48-79), part 1. -/
def Component.key₁ (c : Component) :=
  (c.componentType, c.mimeType, c.bomRef, c.supplier, c.author, c.publisher)
/-- The non-recursive fields of a component (`models/component.rs` 48-79), part 2. -/
def Component.key₂ (c : Component) :=
  (c.group, c.name, c.version, c.description, c.scope, c.hashes)
/-- The non-recursive fields of a component (`models/component.rs` 48-79), part 3. -/
def Component.key₃ (c : Component) :=
  (c.licenses, c.copyright, c.cpe, c.purl, c.swid, c.modified)
/-- The non-recursive fields of a component (`models/component.rs` 48-79), part 4. -/
def Component.key₄ (c : Component) :=
  (c.externalReferences, c.properties, c.evidence, c.signature, c.modelCard, c.data)

/-- Equality of the non-recursive fields (`models/component.rs` 48). -/
def Component.SameKey (a b : Component) : Prop :=
  a.key₁ = b.key₁ ∧ a.key₂ = b.key₂ ∧ a.key₃ = b.key₃ ∧ a.key₄ = b.key₄

instance (a b : Component) : Decidable (a.SameKey b) := by
  unfold Component.SameKey; infer_instance

theorem Component.eq_iff (a b : Component) : a = b ↔
    a.SameKey b ∧ a.pedigree = b.pedigree ∧ a.components = b.components := by
  constructor
  · rintro rfl; exact ⟨⟨rfl, rfl, rfl, rfl⟩, rfl, rfl⟩
  · intro ⟨⟨h1, h2, h3, h4⟩, h5, h6⟩
    cases a; cases b
    simp only [Component.key₁, Component.key₂, Component.key₃, Component.key₄,
      Prod.mk.injEq] at h1 h2 h3 h4 h5 h6
    simp_all

mutual
/-- Derived `PartialEq` of `Component` (`models/component.rs` 48). -/
def Component.decEq : (a b : Component) → Decidable (a = b)
  | ⟨_,_,_,_,_,_,_,_,_,_,_,_,_,_,_,_,_,_,p,_,_,cs,_,_,_,_⟩, b =>
    let h₁ := Component.decEqOptPed p b.pedigree
    let h₂ := Component.decEqOptList cs b.components
    by
      refine @decidable_of_decidable_of_iff _ _ ?_ (Component.eq_iff _ b).symm
      exact @instDecidableAnd _ _ inferInstance
        (@instDecidableAnd _ _ h₁ h₂)
termination_by structural a => a
/-- Derived `PartialEq` of `Option<Pedigree>` (`models/component.rs` 584). -/
def Component.decEqOptPed : (a b : Option Pedigree) → Decidable (a = b)
  | none, none => .isTrue rfl
  | some _, none => .isFalse (by simp)
  | none, some _ => .isFalse (by simp)
  | some p, some q => match Pedigree.decEq p q with
    | .isTrue h => .isTrue (by rw [h])
    | .isFalse h => .isFalse (by simpa using h)
termination_by structural a => a
/-- Derived `PartialEq` of `Option<Components>` (`models/component.rs` 165). -/
def Component.decEqOptList : (a b : Option (List Component)) → Decidable (a = b)
  | none, none => .isTrue rfl
  | some _, none => .isFalse (by simp)
  | none, some _ => .isFalse (by simp)
  | some p, some q => match Component.decEqList p q with
    | .isTrue h => .isTrue (by rw [h])
    | .isFalse h => .isFalse (by simpa using h)
termination_by structural a => a
/-- Derived `PartialEq` of `Components` (`models/component.rs` 165). -/
def Component.decEqList : (a b : List Component) → Decidable (a = b)
  | [], [] => .isTrue rfl
  | _ :: _, [] => .isFalse (by simp)
  | [], _ :: _ => .isFalse (by simp)
  | x :: xs, y :: ys => match Component.decEq x y, Component.decEqList xs ys with
    | .isTrue h, .isTrue h' => .isTrue (by rw [h, h'])
    | .isFalse h, _ => .isFalse (by simp [h])
    | _, .isFalse h => .isFalse (by simp [h])
termination_by structural a => a
/-- Derived `PartialEq` of `Pedigree` (`models/component.rs` 584). -/
def Pedigree.decEq : (a b : Pedigree) → Decidable (a = b)
  | ⟨a1, a2, a3, a4, a5, a6⟩, ⟨b1, b2, b3, b4, b5, b6⟩ =>
    match Component.decEqOptList a1 b1, Component.decEqOptList a2 b2,
      Component.decEqOptList a3 b3 with
    | .isTrue h1, .isTrue h2, .isTrue h3 =>
      if h : a4 = b4 ∧ a5 = b5 ∧ a6 = b6 then .isTrue (by simp [h1, h2, h3, h])
      else .isFalse (by simp [h1, h2, h3]; simpa using h)
    | .isFalse h, _, _ => .isFalse (by simp [h])
    | _, .isFalse h, _ => .isFalse (by simp [h])
    | _, _, .isFalse h => .isFalse (by simp [h])
termination_by structural a => a
end

instance : DecidableEq Component := Component.decEq
instance : DecidableEq Pedigree := Pedigree.decEq

/-- The non-recursive fields of a service (`models/service.rs` 35-55). -/
def Service.key (s : Service) :=
  ((s.bomRef, s.provider, s.group, s.name, s.version, s.description, s.endpoints, s.authenticated),
   (s.xTrustBoundary, s.data, s.licenses, s.externalReferences, s.properties, s.signature,
    s.trustZone))

theorem Service.eq_iff (a b : Service) : a = b ↔
    a.key = b.key ∧ a.services = b.services ∧ True := by
  constructor
  · rintro rfl; exact ⟨rfl, rfl, trivial⟩
  · intro ⟨h1, h2, _⟩
    cases a; cases b
    simp only [Service.key, Prod.mk.injEq] at h1 h2
    simp_all

mutual
/-- Derived `PartialEq` of `Service` (`models/service.rs` 35). -/
def Service.decEq : (a b : Service) → Decidable (a = b)
  | ⟨_,_,_,_,_,_,_,_,_,_,_,_,_,ss,_,_⟩, b =>
    let h₁ := Service.decEqOptList ss b.services
    by
      refine @decidable_of_decidable_of_iff _ _ ?_ (Service.eq_iff _ b).symm
      exact @instDecidableAnd _ _ inferInstance
        (@instDecidableAnd _ _ h₁ inferInstance)
termination_by structural a => a
/-- Derived `PartialEq` of `Option<Services>` (`models/service.rs` 117). -/
def Service.decEqOptList : (a b : Option (List Service)) → Decidable (a = b)
  | none, none => .isTrue rfl
  | some _, none => .isFalse (by simp)
  | none, some _ => .isFalse (by simp)
  | some p, some q => match Service.decEqList p q with
    | .isTrue h => .isTrue (by rw [h])
    | .isFalse h => .isFalse (by simpa using h)
termination_by structural a => a
/-- Derived `PartialEq` of `Services` (`models/service.rs` 117). -/
def Service.decEqList : (a b : List Service) → Decidable (a = b)
  | [], [] => .isTrue rfl
  | _ :: _, [] => .isFalse (by simp)
  | [], _ :: _ => .isFalse (by simp)
  | x :: xs, y :: ys => match Service.decEq x y, Service.decEqList xs ys with
    | .isTrue h, .isTrue h' => .isTrue (by rw [h, h'])
    | .isFalse h, _ => .isFalse (by simp [h])
    | _, .isFalse h => .isFalse (by simp [h])
termination_by structural a => a
end

instance : DecidableEq Service := Service.decEq

deriving instance DecidableEq for Tools, Metadata, Vulnerability, Annotator, Annotation, Formula, Bom

example : ({ componentType := .application, name := "a",
             components := some [{ componentType := .file, name := "b" }] } : Component)
    ≠ { componentType := .application, name := "a",
        components := some [{ componentType := .file, name := "c" }] } := by decide
example : ({ componentType := .application, name := "a",
             components := some [{ componentType := .file, name := "b" }] } : Component)
    = { componentType := .application, name := "a",
        components := some [{ componentType := .file, name := "b" }] } := by decide

end Cdx
