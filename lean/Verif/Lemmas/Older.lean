import Verif.Spec.Older
import Verif.Lemmas.File.Convert
import Verif.Lemmas.Format.Component
import Verif.Lemmas.Format.Service

set_option linter.unusedSectionVars false
set_option linter.unusedSimpArgs false

/-!
# What the reader of an earlier version makes of a document
-/

namespace Cdx

open Spec

variable {α : Type}

/-- The second reader accepts exactly what satisfies `C` of what the first accepts, and makes `f` of it. -/
def Older (f : α → α) (C : α → Prop) (r s : Json → Except String α) : Prop :=
  ∀ j a b, r j = .ok a → (s j = .ok b ↔ C a ∧ b = f a)

/-- The second reader accepts all that the first accepts, and makes `f` of it. -/
def OldT (f : α → α) (r s : Json → Except String α) : Prop :=
  ∀ j a b, r j = .ok a → (s j = .ok b ↔ b = f a)

variable {f : α → α} {C : α → Prop} {r s : Json → Except String α}

theorem older_opt (h : Older f C r s) {o : List (String × Json)} {k : String} {a b : Option α}
    (ha : Json.opt o k r = .ok a) :
    Json.opt o k s = .ok b ↔ (∀ y, a = some y → C y) ∧ b = a.map f := by
  simp only [Json.opt] at ha ⊢
  cases hg : Json.get o k with
  | error e => rw [hg] at ha; exact nomatch ha
  | ok x =>
    rw [hg] at ha
    cases x with
    | none => cases ha; simp [eq_comm]
    | some j =>
      cases hj : r j with
      | error e =>
        cases j <;> simp_all [Except.map, eq_comm]
      | ok y =>
        have key := fun b => h j y b hj
        by_cases hn : j = .null
        · subst hn; cases ha; simp [eq_comm]
        · have e1 : a = some y := by
            cases j <;> simp_all [Except.map]
          subst e1
          have e2 : ∀ x, some j = some Json.null ∨ x = (s j).map some → (x = .ok b ↔ (s j).map some = .ok b) := by
            rintro x (h | rfl)
            · exact absurd (Option.some.inj h) hn
            · rfl
          rw [e2 _ (.inr (by cases j <;> first | rfl | exact absurd rfl hn)), map_ok]
          simp only [key, Option.some.injEq, Option.map_some, forall_eq']
          constructor
          · rintro ⟨z, ⟨hc, rfl⟩, rfl⟩; exact ⟨hc, rfl⟩
          · rintro ⟨hc, rfl⟩; exact ⟨_, ⟨hc, rfl⟩, rfl⟩

theorem OldT.older (h : OldT f r s) : Older f (fun _ => True) r s := fun j a b ha => by
  rw [h j a b ha]; simp

theorem oldT_opt (h : OldT f r s) {o : List (String × Json)} {k : String} {a b : Option α}
    (ha : Json.opt o k r = .ok a) : Json.opt o k s = .ok b ↔ b = a.map f := by
  rw [older_opt h.older ha]; simp

theorem older_array (h : Older f C r s) :
    Older (List.map f) (fun l => ∀ y ∈ l, C y) (Json.array r) (Json.array s) := by
  intro j a b ha
  cases j with
  | arr l =>
    simp only [Json.array] at ha ⊢
    induction l generalizing a b with
    | nil => cases ha; simp [pure, Except.pure, eq_comm]
    | cons x l ih =>
      simp only [List.mapM_cons, bind_ok, pure, Except.pure] at ha ⊢
      obtain ⟨y, hy, l', hl, e⟩ := ha
      cases e
      constructor
      · rintro ⟨z, hz, l'', hl', e⟩
        cases e
        obtain ⟨hc, rfl⟩ := (h x y z hy).1 hz
        obtain ⟨hcs, rfl⟩ := (ih _ _ hl).1 hl'
        exact ⟨by simpa using ⟨hc, hcs⟩, rfl⟩
      · rintro ⟨hc, rfl⟩
        exact ⟨_, (h x y _ hy).2 ⟨hc _ (.head _), rfl⟩, _,
          (ih _ _ hl).2 ⟨fun z hz => hc z (.tail _ hz), rfl⟩, rfl⟩
  | _ => exact nomatch ha

theorem oldT_array (h : OldT f r s) : OldT (List.map f) (Json.array r) (Json.array s) := fun j a b ha => by
  rw [older_array h.older j a b ha]; simp

theorem older_version {o : List (String × Json)} {k : String} {a b : Option String}
    (h : Json.opt o k Json.string = .ok a) :
    (Json.req o k Json.string).map some = .ok b ↔ a ≠ none ∧ b = a := by
  simp only [Json.opt, Json.req] at h ⊢
  cases hg : Json.get o k with
  | error e => rw [hg] at h; exact nomatch h
  | ok x =>
    rw [hg] at h
    cases x with
    | none => cases h; simp [Except.map]
    | some j =>
      cases j <;> simp_all [Json.string, Except.map] <;> cases h <;> simp [eq_comm]

theorem lt_cases {v w : SpecVersion} (h : v.ord < w.ord) :
    (v = .v1_3 ∧ w = .v1_4) ∨ (v = .v1_3 ∧ w = .v1_5) ∨ (v = .v1_4 ∧ w = .v1_5) := by
  cases v <;> cases w <;> first | exact absurd h (by decide) | simp

variable [F32Format] {v w : SpecVersion}

theorem Tool.older (hlt : v.ord < w.ord) : OldT (Tool.at v) (Tool.ofJson w) (Tool.ofJson v) := by
  intro j c b hx
  rcases lt_cases hlt with ⟨rfl, rfl⟩ | ⟨rfl, rfl⟩ | ⟨rfl, rfl⟩
  all_goals
    simp only [Tool.ofJson, since14, since15, bind_ok] at hx
    obtain ⟨o, ho, a1, h1, a2, h2, a3, h3, a4, h4, a5, h5, hc⟩ := hx
    cases hc
  iterate 2
    · simp only [Tool.ofJson, since14, since15, bind_ok, Except.ok.injEq, and_assoc, exists_and_left, exists_eq_left, exists_eq_left', true_and, exists_const, Tool.at, ho, h1, h2, h3, h4]
      exact eq_comm
  · simp only [Tool.ofJson, since14, since15, bind_ok, Except.ok.injEq, and_assoc, exists_and_left, exists_eq_left, exists_eq_left', true_and, exists_const, Tool.at, ho, h1, h2, h3, h4, h5]
    exact eq_comm

theorem License.older (hlt : v.ord < w.ord) : OldT (License.at v) (License.ofJson w) (License.ofJson v) := by
  intro j c b hx
  rcases lt_cases hlt with ⟨rfl, rfl⟩ | ⟨rfl, rfl⟩ | ⟨rfl, rfl⟩
  all_goals
    simp only [License.ofJson, since14, since15, bind_ok] at hx
    obtain ⟨o, ho, a1, h1, a2, h2, a3, h3, a4, h4, a5, h5, a6, h6, hc⟩ := hx
    cases hc
  iterate 2
    · simp only [License.ofJson, since14, since15, bind_ok, Except.ok.injEq, and_assoc, exists_and_left, exists_eq_left, exists_eq_left', true_and, exists_const, License.at, ho, h2, h3, h4]
      exact eq_comm
  · simp only [License.ofJson, since14, since15, bind_ok, Except.ok.injEq, and_assoc, exists_and_left, exists_eq_left, exists_eq_left', true_and, exists_const, License.at, ho, h2, h3, h4]
    exact eq_comm

theorem LicenseChoice.older (hlt : v.ord < w.ord) :
    OldT (LicenseChoice.at v) (LicenseChoice.ofJson w) (LicenseChoice.ofJson v) := by
  intro j c b hx
  by_cases hj : ∃ x, j = .obj [("license", x)]
  · obtain ⟨x, rfl⟩ := hj
    have e : ∀ v, LicenseChoice.ofJson v (.obj [("license", x)]) =
        match License.ofJson v x with
        | .ok l => .ok (.license l)
        | .error _ => .error "missing field expression" := by
      intro v
      simp only [LicenseChoice.ofJson, Json.tagged, List.lookup, beq_self_eq_true]
      cases License.ofJson v x <;> rfl
    rw [e] at hx ⊢
    cases hl : License.ofJson w x with
    | error e => rw [hl] at hx; exact nomatch hx
    | ok l =>
      rw [hl] at hx
      cases hx
      rw [(License.older hlt x l _ hl).2 rfl]
      simp [LicenseChoice.at, eq_comm]
  · have e : ∀ v, LicenseChoice.ofJson v j = (SpdxExpression.ofJson j).map .expression := by
      intro v
      have : Json.tagged [("license", fun j => (License.ofJson v j).map LicenseChoice.license)] j =
          .error "unknown variant" := by
        unfold Json.tagged
        split
        · rename_i k x
          have hk : k ≠ "license" := fun h => hj ⟨x, by rw [h]⟩
          have : (k == "license") = false := by simp [hk]
          simp [List.lookup, this]
        · rfl
      simp only [LicenseChoice.ofJson, this]
    rw [e] at hx ⊢
    rw [hx]
    obtain ⟨y, -, rfl⟩ := map_ok.1 hx
    simp [LicenseChoice.at, eq_comm]

theorem Licenses.older (hlt : v.ord < w.ord) :
    OldT (Licenses.at v) (Licenses.ofJson w) (Licenses.ofJson v) := oldT_array (LicenseChoice.older hlt)

theorem ComponentEvidence.older (hlt : v.ord < w.ord) : OldT (ComponentEvidence.at v) (ComponentEvidence.ofJson w) (ComponentEvidence.ofJson v) := by
  intro j c b hx
  rcases lt_cases hlt with ⟨rfl, rfl⟩ | ⟨rfl, rfl⟩ | ⟨rfl, rfl⟩
  all_goals
    simp only [ComponentEvidence.ofJson, since14, since15, bind_ok] at hx
    obtain ⟨o, ho, a1, h1, a2, h2, a3, h3, a4, h4, a5, h5, hc⟩ := hx
    cases hc
  iterate 2
    · simp only [ComponentEvidence.ofJson, since14, since15, bind_ok, Except.ok.injEq, and_assoc, exists_and_left, exists_eq_left, exists_eq_left', true_and, exists_const, ComponentEvidence.at, ho, h2, oldT_opt (Licenses.older hlt) h1]
      exact eq_comm
  · simp only [ComponentEvidence.ofJson, since14, since15, bind_ok, Except.ok.injEq, and_assoc, exists_and_left, exists_eq_left, exists_eq_left', true_and, exists_const, ComponentEvidence.at, ho, h2, oldT_opt (Licenses.older hlt) h1]
    exact eq_comm

theorem Composition.older (hlt : v.ord < w.ord) : OldT (Composition.at v) (Composition.ofJson w) (Composition.ofJson v) := by
  intro j c b hx
  rcases lt_cases hlt with ⟨rfl, rfl⟩ | ⟨rfl, rfl⟩ | ⟨rfl, rfl⟩
  all_goals
    simp only [Composition.ofJson, since14, since15, bind_ok] at hx
    obtain ⟨o, ho, a1, h1, a2, h2, a3, h3, a4, h4, a5, h5, a6, h6, hc⟩ := hx
    cases hc
  iterate 2
    · simp only [Composition.ofJson, since14, since15, bind_ok, Except.ok.injEq, and_assoc, exists_and_left, exists_eq_left, exists_eq_left', true_and, exists_const, Composition.at, ho, h2, h3, h4]
      exact eq_comm
  · simp only [Composition.ofJson, since14, since15, bind_ok, Except.ok.injEq, and_assoc, exists_and_left, exists_eq_left, exists_eq_left', true_and, exists_const, Composition.at, ho, h2, h3, h4, h6]
    exact eq_comm

theorem VulnerabilityAnalysis.older (hlt : v.ord < w.ord) : OldT (VulnerabilityAnalysis.at v) (VulnerabilityAnalysis.ofJson w) (VulnerabilityAnalysis.ofJson v) := by
  intro j c b hx
  rcases lt_cases hlt with ⟨rfl, rfl⟩ | ⟨rfl, rfl⟩ | ⟨rfl, rfl⟩
  all_goals
    simp only [VulnerabilityAnalysis.ofJson, since14, since15, bind_ok] at hx
    obtain ⟨o, ho, a1, h1, a2, h2, a3, h3, a4, h4, a5, h5, a6, h6, hc⟩ := hx
    cases hc
  iterate 2
    · simp only [VulnerabilityAnalysis.ofJson, since14, since15, bind_ok, Except.ok.injEq, and_assoc, exists_and_left, exists_eq_left, exists_eq_left', true_and, exists_const, VulnerabilityAnalysis.at, ho, h1, h2, h3, h4]
      exact eq_comm
  · simp only [VulnerabilityAnalysis.ofJson, since14, since15, bind_ok, Except.ok.injEq, and_assoc, exists_and_left, exists_eq_left, exists_eq_left', true_and, exists_const, VulnerabilityAnalysis.at, ho, h1, h2, h3, h4]
    exact eq_comm

theorem ServiceDataChoice.older (hlt : v.ord < w.ord) :
    Older (ServiceDataChoice.at v) (fun d => ∃ l, d = .classification l) (ServiceDataChoice.ofJson w)
      (ServiceDataChoice.ofJson v) := by
  intro j c b hx
  unfold ServiceDataChoice.ofJson at hx ⊢
  cases ha : Json.array DataClassification.ofJson j with
  | ok l =>
    rw [ha] at hx
    cases hx
    simp [ServiceDataChoice.at, eq_comm]
  | error e =>
    rw [ha] at hx
    rcases lt_cases hlt with ⟨rfl, rfl⟩ | ⟨rfl, rfl⟩ | ⟨rfl, rfl⟩
    · exact nomatch hx
    all_goals
      simp only [since15] at hx ⊢
      obtain ⟨l, -, rfl⟩ := map_ok.1 hx
      simp

/-- The conditions on a pedigree, given those on a component. -/
structure Pedigree.OldWith (P : Component → Prop) (x : Pedigree) : Prop where
  ancestors : ∀ y, x.ancestors = some y → ∀ z ∈ y, P z
  descendants : ∀ y, x.descendants = some y → ∀ z ∈ y, P z
  variants : ∀ y, x.variants = some y → ∀ z ∈ y, P z

/-- The conditions on a component, given those on the components within it. -/
structure Component.OldWith (P : Component → Prop) (v : SpecVersion) (x : Component) : Prop where
  version : v = .v1_3 → x.version ≠ none
  pedigree : ∀ y, x.pedigree = some y → Pedigree.OldWith P y
  components : ∀ y, x.components = some y → ∀ z ∈ y, P z

theorem Component.oldWith_iff {x : Component} : Component.OldWith (OldComponent v) v x ↔ OldComponent v x :=
  ⟨fun h => ⟨h.version, fun p hp => (h.pedigree p hp).ancestors, fun p hp => (h.pedigree p hp).descendants,
      fun p hp => (h.pedigree p hp).variants, h.components⟩,
    fun ⟨h1, h2, h3, h4, h5⟩ => ⟨h1, fun p hp => ⟨h2 p hp, h3 p hp, h4 p hp⟩, h5⟩⟩

variable {sub sub' : Json → Except String Component} {P : Component → Prop}

theorem Pedigree.olderWith (h : Older (Component.at v) P sub sub') :
    Older (Pedigree.at v) (Pedigree.OldWith P) (Pedigree.ofJsonWith sub w) (Pedigree.ofJsonWith sub' v) := by
  intro j c b hx
  simp only [Pedigree.ofJsonWith, bind_ok] at hx
  obtain ⟨o, ho, a1, h1, a2, h2, a3, h3, a4, h4, a5, h5, a6, h6, hc⟩ := hx
  cases hc
  simp only [Pedigree.ofJsonWith, bind_ok, Except.ok.injEq, and_assoc, exists_and_left, exists_eq_left,
    exists_eq_left', Pedigree.at, Component.atOpt_eq, ho, older_opt (older_array h) h1,
    older_opt (older_array h) h2, older_opt (older_array h) h3, h4, h5, h6]
  constructor
  · rintro ⟨c1, c2, c3, rfl⟩; exact ⟨⟨c1, c2, c3⟩, rfl⟩
  · rintro ⟨⟨c1, c2, c3⟩, rfl⟩; exact ⟨c1, c2, c3, rfl⟩

theorem Component.olderWith (hlt : v.ord < w.ord) (h : Older (Component.at v) P sub sub') :
    Older (Component.at v) (Component.OldWith P v) (Component.ofJsonWith sub w) (Component.ofJsonWith sub' v) := by
  intro j c b hx
  rcases lt_cases hlt with ⟨rfl, rfl⟩ | ⟨rfl, rfl⟩ | ⟨rfl, rfl⟩
  all_goals
    simp only [Component.ofJsonWith, since14, since15, bind_ok] at hx
    obtain ⟨o, ho, a1, h1, a2, h2, a3, h3, a4, h4, a5, h5, a6, h6, a7, h7, a8, h8, a9, h9, a10, h10, a11, h11, a12, h12, a13, h13, a14, h14, a15, h15, a16, h16, a17, h17, a18, h18, a19, h19, a20, h20, a21, h21, a22, h22, a23, h23, a24, h24, a25, h25, a26, h26, hc⟩ := hx
    cases hc
  iterate 2
    · simp only [Component.ofJsonWith, since14, since15, bind_ok, Except.ok.injEq, and_assoc, exists_and_left, exists_eq_left, exists_eq_left', true_and, exists_const, Component.at, Component.atOpt_eq, Pedigree.atOpt_eq, ho, h1, h2, h3, h4, h5, h6, h7, h8, h10, h11, h12, h14, h15, h16, h17, h18, h20, h21, older_version h9, oldT_opt (Licenses.older hlt) h13, older_opt (Pedigree.olderWith h) h19, older_opt (older_array h) h22, oldT_opt (ComponentEvidence.older hlt) h23]
      constructor
      · rintro ⟨c1, c2, c3, rfl⟩; exact ⟨⟨fun _ => c1, c2, c3⟩, rfl⟩
      · rintro ⟨⟨c1, c2, c3⟩, rfl⟩; exact ⟨c1 rfl, c2, c3, rfl⟩
  · simp only [Component.ofJsonWith, since14, since15, bind_ok, Except.ok.injEq, and_assoc, exists_and_left, exists_eq_left, exists_eq_left', true_and, exists_const, Component.at, Component.atOpt_eq, Pedigree.atOpt_eq, ho, h1, h2, h3, h4, h5, h6, h7, h8, h10, h11, h12, h14, h15, h16, h17, h18, h20, h21, h9, oldT_opt (Licenses.older hlt) h13, older_opt (Pedigree.olderWith h) h19, older_opt (older_array h) h22, oldT_opt (ComponentEvidence.older hlt) h23, h24]
    constructor
    · rintro ⟨c2, c3, rfl⟩; exact ⟨⟨nofun, c2, c3⟩, rfl⟩
    · rintro ⟨⟨-, c2, c3⟩, rfl⟩; exact ⟨c2, c3, rfl⟩

theorem Component.olderN (hlt : v.ord < w.ord) : ∀ n,
    Older (Component.at v) (OldComponent v) (Component.ofJsonN w n) (Component.ofJsonN v n)
  | 0 => fun _ _ _ h => nomatch h
  | n + 1 => fun j a b h =>
    (Component.olderWith hlt (Component.olderN hlt n) j a b h).trans (and_congr_left' Component.oldWith_iff)

/-- The conditions on a service, given those on the services within it. -/
structure Service.OldWith (P : Service → Prop) (x : Service) : Prop where
  data : ∀ d, x.data = some d → ∃ l, d = .classification l
  services : ∀ y, x.services = some y → ∀ z ∈ y, P z

theorem Service.oldWith_iff {x : Service} : Service.OldWith OldService x ↔ OldService x :=
  ⟨fun h => ⟨h.data, h.services⟩, fun ⟨h1, h2⟩ => ⟨h1, h2⟩⟩

theorem Service.olderWith {sub sub' : Json → Except String Service} {P : Service → Prop}
    (hlt : v.ord < w.ord) (h : Older (Service.at v) P sub sub') :
    Older (Service.at v) (Service.OldWith P) (Service.ofJsonWith sub w) (Service.ofJsonWith sub' v) := by
  intro j c b hx
  rcases lt_cases hlt with ⟨rfl, rfl⟩ | ⟨rfl, rfl⟩ | ⟨rfl, rfl⟩
  all_goals
    simp only [Service.ofJsonWith, since14, since15, bind_ok] at hx
    obtain ⟨o, ho, a1, h1, a2, h2, a3, h3, a4, h4, a5, h5, a6, h6, a7, h7, a8, h8, a9, h9, a10, h10, a11, h11, a12, h12, a13, h13, a14, h14, a15, h15, a16, h16, hc⟩ := hx
    cases hc
  iterate 2
    · simp only [Service.ofJsonWith, since14, since15, bind_ok, Except.ok.injEq, and_assoc, exists_and_left, exists_eq_left, exists_eq_left', true_and, exists_const, Service.at, Service.atOpt_eq, ho, h1, h2, h3, h4, h5, h6, h7, h8, h9, h12, h13, older_opt (ServiceDataChoice.older hlt) h10, oldT_opt (Licenses.older hlt) h11, older_opt (older_array h) h14]
      constructor
      · rintro ⟨c2, c3, rfl⟩; exact ⟨⟨c2, c3⟩, rfl⟩
      · rintro ⟨⟨c2, c3⟩, rfl⟩; exact ⟨c2, c3, rfl⟩
  · simp only [Service.ofJsonWith, since14, since15, bind_ok, Except.ok.injEq, and_assoc, exists_and_left, exists_eq_left, exists_eq_left', true_and, exists_const, Service.at, Service.atOpt_eq, ho, h1, h2, h3, h4, h5, h6, h7, h8, h9, h12, h13, older_opt (ServiceDataChoice.older hlt) h10, oldT_opt (Licenses.older hlt) h11, older_opt (older_array h) h14, h15]
    constructor
    · rintro ⟨c2, c3, rfl⟩; exact ⟨⟨c2, c3⟩, rfl⟩
    · rintro ⟨⟨c2, c3⟩, rfl⟩; exact ⟨c2, c3, rfl⟩

theorem Service.olderN (hlt : v.ord < w.ord) : ∀ n,
    Older (Service.at v) OldService (Service.ofJsonN w n) (Service.ofJsonN v n)
  | 0 => fun _ _ _ h => nomatch h
  | n + 1 => fun j a b h =>
    (Service.olderWith hlt (Service.olderN hlt n) j a b h).trans (and_congr_left' Service.oldWith_iff)

variable [ReadLimit]

theorem Component.older (hlt : v.ord < w.ord) :
    Older (Component.at v) (OldComponent v) (Component.ofJson w) (Component.ofJson v) := Component.olderN hlt _

theorem Service.older (hlt : v.ord < w.ord) :
    Older (Service.at v) OldService (Service.ofJson w) (Service.ofJson v) := Service.olderN hlt _

theorem Tools.older (hlt : v.ord < w.ord) :
    Older (Tools.at v) OldTools (Tools.ofJson w) (Tools.ofJson v) := by
  intro j c b hx
  unfold Tools.ofJson at hx ⊢
  cases ha : Json.array (Tool.ofJson w) j with
  | ok l =>
    rw [ha] at hx
    cases hx
    rw [(oldT_array (Tool.older hlt) j l _ ha).2 rfl]
    simp [Tools.at, OldTools, eq_comm]
  | error e =>
    rw [ha] at hx
    have hw : w = .v1_5 := by
      cases w with
      | v1_5 => rfl
      | _ => exact nomatch hx
    subst hw
    simp only [since15, Tools.objectOfJson, bind_ok] at hx
    obtain ⟨o, ho, s, -, c', -, hc⟩ := hx
    cases hc
    have hj : j = .obj o := by
      cases j with
      | obj o' => cases ho; rfl
      | _ => exact nomatch ho
    subst hj
    rcases lt_cases hlt with ⟨rfl, h⟩ | ⟨rfl, -⟩ | ⟨rfl, -⟩
    · exact nomatch h
    all_goals simp [Json.array, since15, OldTools]

theorem Metadata.older (hlt : v.ord < w.ord) :
    Older (Metadata.at v) (OldMetadata v) (Metadata.ofJson w) (Metadata.ofJson v) := by
  intro j c b hx
  rcases lt_cases hlt with ⟨rfl, rfl⟩ | ⟨rfl, rfl⟩ | ⟨rfl, rfl⟩
  all_goals
    simp only [Metadata.ofJson, since14, since15, bind_ok] at hx
    obtain ⟨o, ho, a1, h1, a2, h2, a3, h3, a4, h4, a5, h5, a6, h6, a7, h7, a8, h8, a9, h9, hc⟩ := hx
    cases hc
  iterate 2
    · simp only [Metadata.ofJson, since14, since15, bind_ok, Except.ok.injEq, and_assoc, exists_and_left, exists_eq_left, exists_eq_left', true_and, exists_const, Metadata.at, ho, h1, h3, h5, h6, h8, older_opt (Tools.older hlt) h2, older_opt (Component.older hlt) h4, oldT_opt (Licenses.older hlt) h7]
      constructor
      · rintro ⟨c2, c3, rfl⟩; exact ⟨⟨c2, c3⟩, rfl⟩
      · rintro ⟨⟨c2, c3⟩, rfl⟩; exact ⟨c2, c3, rfl⟩
  · simp only [Metadata.ofJson, since14, since15, bind_ok, Except.ok.injEq, and_assoc, exists_and_left, exists_eq_left, exists_eq_left', true_and, exists_const, Metadata.at, ho, h1, h3, h5, h6, h8, older_opt (Tools.older hlt) h2, older_opt (Component.older hlt) h4, oldT_opt (Licenses.older hlt) h7]
    constructor
    · rintro ⟨c2, c3, rfl⟩; exact ⟨⟨c2, c3⟩, rfl⟩
    · rintro ⟨⟨c2, c3⟩, rfl⟩; exact ⟨c2, c3, rfl⟩

theorem Vulnerability.older (hlt : v.ord < w.ord) :
    Older (Vulnerability.at v) OldVulnerability (Vulnerability.ofJson w) (Vulnerability.ofJson v) := by
  intro j c b hx
  rcases lt_cases hlt with ⟨rfl, rfl⟩ | ⟨rfl, rfl⟩ | ⟨rfl, rfl⟩
  all_goals
    simp only [Vulnerability.ofJson, since14, since15, bind_ok] at hx
    obtain ⟨o, ho, a1, h1, a2, h2, a3, h3, a4, h4, a5, h5, a6, h6, a7, h7, a8, h8, a9, h9, a10, h10, a11, h11, a12, h12, a13, h13, a14, h14, a15, h15, a16, h16, a17, h17, a18, h18, a19, h19, a20, h20, a21, h21, hc⟩ := hx
    cases hc
  iterate 2
    · simp only [Vulnerability.ofJson, since14, since15, bind_ok, Except.ok.injEq, and_assoc, exists_and_left, exists_eq_left, exists_eq_left', true_and, exists_const, Vulnerability.at, ho, h1, h2, h3, h4, h5, h6, h7, h8, h9, h12, h13, h14, h15, h17, h20, h21, older_opt (Tools.older hlt) h18, oldT_opt (VulnerabilityAnalysis.older hlt) h19]
      constructor
      · rintro ⟨c1, rfl⟩; exact ⟨⟨c1⟩, rfl⟩
      · rintro ⟨⟨c1⟩, rfl⟩; exact ⟨c1, rfl⟩
  · simp only [Vulnerability.ofJson, since14, since15, bind_ok, Except.ok.injEq, and_assoc, exists_and_left, exists_eq_left, exists_eq_left', true_and, exists_const, Vulnerability.at, ho, h1, h2, h3, h4, h5, h6, h7, h8, h9, h12, h13, h14, h15, h17, h20, h21, older_opt (Tools.older hlt) h18, oldT_opt (VulnerabilityAnalysis.older hlt) h19]
    constructor
    · rintro ⟨c1, rfl⟩; exact ⟨⟨c1⟩, rfl⟩
    · rintro ⟨⟨c1⟩, rfl⟩; exact ⟨c1, rfl⟩

theorem Bom.older (hlt : v.ord < w.ord) :
    Older (fun b => { b.at v with specVersion := b.specVersion }) (OldBom v) (Bom.ofJson w) (Bom.ofJson v) := by
  intro j c b hx
  rcases lt_cases hlt with ⟨rfl, rfl⟩ | ⟨rfl, rfl⟩ | ⟨rfl, rfl⟩
  all_goals
    simp only [Bom.ofJson, since14, since15, bind_ok] at hx
    obtain ⟨o, ho, a1, h1, a2, h2, a3, h3, a4, h4, a5, h5, a6, h6, a7, h7, a8, h8, a9, h9, a10, h10, a11, h11, a12, h12, a13, h13, a14, h14, a15, h15, hc⟩ := hx
    cases hc
  iterate 2
    · simp only [Bom.ofJson, since14, since15, bind_ok, Except.ok.injEq, and_assoc, exists_and_left, exists_eq_left, exists_eq_left', true_and, exists_const, Bom.at, ho, h1, h2, h3, h4, h8, h9, older_opt (Metadata.older hlt) h5, older_opt (older_array (Component.older hlt)) h6, older_opt (older_array (Service.older hlt)) h7, oldT_opt (oldT_array (Composition.older hlt)) h10]
      constructor
      · rintro ⟨c1, c2, c3, rfl⟩; exact ⟨⟨c1, c2, c3, fun h => absurd rfl h⟩, rfl⟩
      · rintro ⟨⟨c1, c2, c3, -⟩, rfl⟩; exact ⟨c1, c2, c3, rfl⟩
  · simp only [Bom.ofJson, since14, since15, bind_ok, Except.ok.injEq, and_assoc, exists_and_left, exists_eq_left, exists_eq_left', true_and, exists_const, Bom.at, ho, h1, h2, h3, h4, h8, h9, older_opt (Metadata.older hlt) h5, older_opt (older_array (Component.older hlt)) h6, older_opt (older_array (Service.older hlt)) h7, oldT_opt (oldT_array (Composition.older hlt)) h10, older_opt (older_array (Vulnerability.older hlt)) h11, h12]
    constructor
    · rintro ⟨c1, c2, c3, c4, rfl⟩; exact ⟨⟨c1, c2, c3, fun _ => c4⟩, rfl⟩
    · rintro ⟨⟨c1, c2, c3, c4⟩, rfl⟩; exact ⟨c1, c2, c3, c4 nofun, rfl⟩

theorem get_relabel {s k : String} (hk : k ≠ "specVersion") (o : List (String × Json)) :
    Json.get (relabel s o) k = Json.get o k := by
  have : (relabel s o).filter (fun p => p.1 == k) = o.filter fun p => p.1 == k := by
    induction o with
    | nil => rfl
    | cons p o ih =>
      simp only [relabel, List.map_cons] at ih ⊢
      by_cases hp : p.1 = "specVersion"
      · have hne : (p.1 == k) = false := by
          rw [hp]; simpa using fun h => hk h.symm
        rw [if_pos hp, List.filter_cons, List.filter_cons]
        simp only [hne]
        exact ih
      · rw [if_neg hp, List.filter_cons, List.filter_cons, ih]
  simp only [Json.get, this]

theorem opt_relabel {s k : String} (hk : k ≠ "specVersion") (o : List (String × Json)) (r : Json → Except String α) :
    Json.opt (relabel s o) k r = Json.opt o k r := by
  simp only [Json.opt, get_relabel hk]

theorem req_relabel {s k : String} (hk : k ≠ "specVersion") (o : List (String × Json)) (r : Json → Except String α) :
    Json.req (relabel s o) k r = Json.req o k r := by
  simp only [Json.req, get_relabel hk]

theorem version_relabel {o : List (String × Json)} (h : Json.req o "specVersion" SpecVersion.ofJson = .ok w) :
    Json.req (relabel v.display o) "specVersion" SpecVersion.ofJson = .ok v := by
  have key : (relabel v.display o).filter (fun p => p.1 == "specVersion") =
      (o.filter fun p => p.1 == "specVersion").map fun p => (p.1, .str v.display) := by
    clear h
    induction o with
    | nil => rfl
    | cons p o ih =>
      simp only [relabel, List.map_cons] at ih ⊢
      by_cases hp : p.1 = "specVersion"
      · simp [hp, ih]
      · have hne : (p.1 == "specVersion") = false := by simpa using hp
        rw [if_neg hp, List.filter_cons, List.filter_cons]
        simp only [hne]
        exact ih
  simp only [Json.req, Json.get] at h ⊢
  rw [key]
  generalize o.filter (fun p => p.1 == "specVersion") = l at h
  match l, h with
  | [p], h => simp [SpecVersion.ofJson, SpecVersion.ofString_display]

theorem Bom.ofJson_relabel {o : List (String × Json)} {b : Bom}
    (h : Json.req o "specVersion" SpecVersion.ofJson = .ok w) :
    Bom.ofJson v (.obj (relabel v.display o)) = .ok b ↔
      ∃ b', Bom.ofJson v (.obj o) = .ok b' ∧ b = { b' with specVersion := v } := by
  simp only [Bom.ofJson, Json.fields, bind_ok, Except.ok.injEq, exists_eq_left', version_relabel h, h,
    req_relabel (s := v.display) (k := "bomFormat") (by decide),
    req_relabel (s := v.display) (k := "version") (by decide),
    opt_relabel (s := v.display) (k := "serialNumber") (by decide),
    opt_relabel (s := v.display) (k := "metadata") (by decide),
    opt_relabel (s := v.display) (k := "components") (by decide),
    opt_relabel (s := v.display) (k := "services") (by decide),
    opt_relabel (s := v.display) (k := "externalReferences") (by decide),
    opt_relabel (s := v.display) (k := "dependencies") (by decide),
    opt_relabel (s := v.display) (k := "compositions") (by decide),
    opt_relabel (s := v.display) (k := "vulnerabilities") (by decide),
    opt_relabel (s := v.display) (k := "signature") (by decide),
    opt_relabel (s := v.display) (k := "annotations") (by decide),
    opt_relabel (s := v.display) (k := "properties") (by decide),
    opt_relabel (s := v.display) (k := "formulation") (by decide)]
  constructor
  · rintro ⟨x, hx, h⟩
    obtain ⟨y1, h1, y2, h2, y3, h3, y4, h4, y5, h5, y6, h6, y7, h7, y8, h8, y9, h9, y10, h10, y11, h11, y12, h12, y13, h13, rfl⟩ := h
    exact ⟨_, ⟨x, hx, y1, h1, y2, h2, y3, h3, y4, h4, y5, h5, y6, h6, y7, h7, y8, h8, y9, h9, y10, h10, y11, h11, y12, h12, y13, h13, rfl⟩, rfl⟩
  · rintro ⟨b', ⟨x, hx, h⟩, rfl⟩
    obtain ⟨y1, h1, y2, h2, y3, h3, y4, h4, y5, h5, y6, h6, y7, h7, y8, h8, y9, h9, y10, h10, y11, h11, y12, h12, y13, h13, rfl⟩ := h
    exact ⟨x, hx, y1, h1, y2, h2, y3, h3, y4, h4, y5, h5, y6, h6, y7, h7, y8, h8, y9, h9, y10, h10, y11, h11, y12, h12, y13, h13, rfl⟩

end Cdx
