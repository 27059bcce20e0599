import Verif.Spec.Documents
import Verif.Lemmas.Format.Document

set_option linter.unusedSectionVars false

/-!
# Lemmas on which documents can be written
-/

namespace Cdx

theorem Component.converts13All_iff : ∀ {l : List Component},
    Component.converts13All l = true ↔ ∀ x ∈ l, x.converts13 = true
  | [] => by simp [Component.converts13All]
  | x :: l => by
    simp [Component.converts13All, Component.converts13All_iff (l := l)]

theorem Component.converts13Opt_iff {o : Option (List Component)} :
    Component.converts13Opt o = true ↔ ∀ l, o = some l → ∀ x ∈ l, x.converts13 = true := by
  cases o with
  | none => simp [Component.converts13Opt]
  | some l => simp [Component.converts13Opt, Component.converts13All_iff]

theorem Component.converts13_iff {x : Component} : x.converts13 = true ↔
    x.version ≠ none ∧
    (∀ p, x.pedigree = some p → (∀ l, p.ancestors = some l → ∀ y ∈ l, y.converts13 = true) ∧
      (∀ l, p.descendants = some l → ∀ y ∈ l, y.converts13 = true) ∧
      (∀ l, p.variants = some l → ∀ y ∈ l, y.converts13 = true)) ∧
    ∀ l, x.components = some l → ∀ y ∈ l, y.converts13 = true := by
  cases x with
  | mk t m b s a pu g n v d sc hs ls co cpe purl sw mo pe er pr cs e si mc da =>
    rw [Component.converts13]
    simp only [Bool.and_eq_true, Component.converts13Opt_iff, and_assoc]
    refine and_congr ?_ (and_congr ?_ Iff.rfl)
    · cases v <;> simp
    · cases pe with
      | none => simp [Pedigree.converts13Opt]
      | some p =>
        obtain ⟨an, de, va, _, _, _⟩ := p
        simp only [Pedigree.converts13Opt, Bool.and_eq_true, Component.converts13Opt_iff, and_assoc,
          Option.some.injEq, forall_eq']

theorem Bom.converts13_iff (b : Bom) :
    b.converts .v1_3 = true ↔ ∀ c, b.Contains c → c.version ≠ none := by
  have hb : b.converts .v1_3 = true ↔
      (∀ m, b.metadata = some m → ∀ c, m.component = some c → c.converts13 = true) ∧
      ∀ l, b.components = some l → ∀ c ∈ l, c.converts13 = true := by
    unfold Bom.converts
    simp only [Bool.and_eq_true, Component.converts13Opt_iff]
    refine and_congr ?_ Iff.rfl
    cases b.metadata with
    | none => simp
    | some m =>
      simp only [Option.some.injEq, forall_eq']
      cases m.component <;> simp
  constructor
  · intro h c hc
    rw [hb] at h
    have hall : c.converts13 = true := by
      induction hc with
      | metadata hm hc => exact h.1 _ hm _ hc
      | components hl hc => exact h.2 _ hl _ hc
      | nested _ hl hc ih => exact (Component.converts13_iff.1 ih).2.2 _ hl _ hc
      | ancestor _ hp hl hc ih => exact ((Component.converts13_iff.1 ih).2.1 _ hp).1 _ hl _ hc
      | descendant _ hp hl hc ih => exact ((Component.converts13_iff.1 ih).2.1 _ hp).2.1 _ hl _ hc
      | variant _ hp hl hc ih => exact ((Component.converts13_iff.1 ih).2.1 _ hp).2.2 _ hl _ hc
    exact (Component.converts13_iff.1 hall).1
  · intro h
    have hall : ∀ c, b.Contains c → c.converts13 = true := by
      intro c
      induction c using Component.ind with
      | h x ih =>
        intro hx
        rw [Component.converts13_iff]
        refine ⟨h x hx, fun p hp => ⟨?_, ?_, ?_⟩, ?_⟩
        · exact fun l hl y hy => ih y (Component.mem_pedigree hp (Pedigree.mem_ancestors hl hy))
            (.ancestor hx hp hl hy)
        · exact fun l hl y hy => ih y (Component.mem_pedigree hp (Pedigree.mem_descendants hl hy))
            (.descendant hx hp hl hy)
        · exact fun l hl y hy => ih y (Component.mem_pedigree hp (Pedigree.mem_variants hl hy))
            (.variant hx hp hl hy)
        · exact fun l hl y hy => ih y (Component.mem_components hl hy) (.nested hx hl hy)
    rw [hb]
    exact ⟨fun m hm c hc => hall c (.metadata hm hc), fun l hl c hc => hall c (.components hl hc)⟩

variable [F32Format] [ReadLimit]

theorem Component.JsonOkN.converts13 : ∀ {n : Nat} {x : Component}, Component.JsonOkN .v1_3 n x →
    x.converts13 = true
  | 0, _, h => h.elim
  | n + 1, x, h => Component.converts13_iff.2 ⟨h.version rfl,
      fun p hp => ⟨fun l hl y hy => Component.JsonOkN.converts13 ((h.pedigree p hp).ancestors l hl y hy),
        fun l hl y hy => Component.JsonOkN.converts13 ((h.pedigree p hp).descendants l hl y hy),
        fun l hl y hy => Component.JsonOkN.converts13 ((h.pedigree p hp).variants l hl y hy)⟩,
      fun l hl y hy => Component.JsonOkN.converts13 (h.components l hl y hy)⟩

theorem Component.XmlOkN.converts13 : ∀ {n : Nat} {x : Component}, Component.XmlOkN .v1_3 n x →
    x.converts13 = true
  | 0, _, h => h.elim
  | n + 1, x, h => Component.converts13_iff.2 ⟨h.version_some rfl,
      fun p hp => ⟨fun l hl y hy => Component.XmlOkN.converts13 ((h.pedigree p hp).ancestors l hl y hy),
        fun l hl y hy => Component.XmlOkN.converts13 ((h.pedigree p hp).descendants l hl y hy),
        fun l hl y hy => Component.XmlOkN.converts13 ((h.pedigree p hp).variants l hl y hy)⟩,
      fun l hl y hy => Component.XmlOkN.converts13 (h.components l hl y hy)⟩

theorem Bom.converts_of {v : SpecVersion} {b : Bom}
    (hm : v = .v1_3 → ∀ m, b.metadata = some m → ∀ c, m.component = some c → c.converts13 = true)
    (hc : v = .v1_3 → ∀ l, b.components = some l → ∀ c ∈ l, c.converts13 = true) :
    b.converts v = true := by
  cases v with
  | v1_4 => rfl
  | v1_5 => rfl
  | v1_3 =>
    unfold Bom.converts
    simp only [Bool.and_eq_true, Component.converts13Opt_iff]
    refine ⟨?_, hc rfl⟩
    cases h : b.metadata with
    | none => rfl
    | some m =>
      dsimp only
      cases hc : m.component with
      | none => rfl
      | some c => exact hm rfl m h c hc

theorem Bom.JsonOk.converts {v : SpecVersion} {b : Bom} (h : Bom.JsonOk v b) : b.converts v = true :=
  Bom.converts_of
    (fun e m hm c hc => by subst e; exact Component.JsonOkN.converts13 ((h.metadata m hm).component c hc))
    (fun e l hl c hc => by subst e; exact Component.JsonOkN.converts13 (h.components l hl c hc))

theorem Bom.XmlOk.converts {v : SpecVersion} {b : Bom} (h : Bom.XmlOk v b) : b.converts v = true :=
  Bom.converts_of
    (fun e m hm c hc => by subst e; exact Component.XmlOkN.converts13 ((h.metadata m hm).component c hc))
    (fun e l hl c hc => by subst e; exact Component.XmlOkN.converts13 (h.components l hl c hc))

mutual
theorem Component.converts13_at (v : SpecVersion) : ∀ x : Component,
    (Component.at v x).converts13 = x.converts13
  | ⟨_, _, _, _, _, _, _, _, version, _, _, _, _, _, _, _, _, _, pedigree, _, _, components, _, _, _, _⟩ => by
    simp only [Component.at, Component.converts13, Pedigree.converts13Opt_at v pedigree,
      Component.converts13Opt_at v components]
termination_by structural x => x

theorem Pedigree.converts13Opt_at (v : SpecVersion) : ∀ x : Option Pedigree,
    Pedigree.converts13Opt (Pedigree.atOpt v x) = Pedigree.converts13Opt x
  | none => rfl
  | some x => by
    simp only [Pedigree.atOpt]
    exact Pedigree.converts13_at v x
termination_by structural x => x

theorem Pedigree.converts13_at (v : SpecVersion) : ∀ x : Pedigree,
    Pedigree.converts13Opt (some (Pedigree.at v x)) = Pedigree.converts13Opt (some x)
  | ⟨ancestors, descendants, variants, _, _, _⟩ => by
    simp only [Pedigree.at, Pedigree.converts13Opt, Component.converts13Opt_at v ancestors,
      Component.converts13Opt_at v descendants, Component.converts13Opt_at v variants]
termination_by structural x => x

theorem Component.converts13Opt_at (v : SpecVersion) : ∀ x : Option (List Component),
    Component.converts13Opt (Component.atOpt v x) = Component.converts13Opt x
  | none => rfl
  | some l => by
    simp only [Component.atOpt, Component.converts13Opt]
    exact Component.converts13All_at v l
termination_by structural x => x

theorem Component.converts13All_at (v : SpecVersion) : ∀ l : List Component,
    Component.converts13All (Component.atAll v l) = Component.converts13All l
  | [] => rfl
  | x :: l => by
    simp only [Component.atAll, Component.converts13All, Component.converts13_at v x,
      Component.converts13All_at v l]
termination_by structural x => x
end

/-- What a version has of a document can be written as this version exactly if the document can. -/
theorem Bom.converts_at (v : SpecVersion) (b : Bom) : (b.at v).converts v = b.converts v := by
  cases v with
  | v1_4 => rfl
  | v1_5 => rfl
  | v1_3 =>
    have hl : ∀ l : List Component, Component.converts13All (l.map (Component.at .v1_3)) =
        Component.converts13All l := by
      intro l
      induction l with
      | nil => rfl
      | cons x l ih => simp only [List.map, Component.converts13All, Component.converts13_at, ih]
    unfold Bom.converts Bom.at
    dsimp only
    congr 1
    · cases b.metadata with
      | none => rfl
      | some m =>
        simp only [Option.map_some, Metadata.at]
        cases m.component with
        | none => rfl
        | some c => exact Component.converts13_at _ c
    · cases b.components with
      | none => rfl
      | some l => exact hl l

end Cdx
