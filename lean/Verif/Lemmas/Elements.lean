import Verif.Lemmas.ElemEqs
import Verif.Lemmas.Validation
import Verif.Lemmas.Checks

/-!
# What each validation function asks for

For each type: its validation never panics, and it passes iff the rule of the element holds and
its checked parts pass.
-/

namespace Cdx

open Spec

set_option linter.unusedSimpArgs false
set_option linter.unusedVariables false

/-- A validation function that never panics. -/
class IsTotal {α : Type} (f : α → Res VResult) : Prop where
  total : Total f

theorem good_struct' {α : Type} {n : String} {x : α} {f : α → Res VResult} [h : IsTotal f] :
    Good (addStruct n x f) n (f x = .ok []) := good_struct h.total

theorem good_structOption' {α : Type} {n : String} {x : Option α} {f : α → Res VResult}
    [h : IsTotal f] : Good (addStructOption n x f) n (∀ y, x = some y → f y = .ok []) :=
  good_structOption h.total

theorem good_list' {α : Type} {n : String} {xs : List α} {f : α → Res VResult} [h : IsTotal f] :
    Good (addList n xs f) n (∀ x ∈ xs, f x = .ok []) := good_list h.total

theorem good_listOption' {α : Type} {n : String} {xs : Option (List α)} {f : α → Res VResult}
    [h : IsTotal f] : Good (addListOption n xs f) n (∀ l, xs = some l → ∀ x ∈ l, f x = .ok []) :=
  good_listOption h.total

theorem good_uniqueOption' {α : Type} [DecidableEq α] {n : String} {xs : Option (List α)}
    {f : α → Res VResult} [h : IsTotal f] :
    Good (addUniqueListOption n xs f) n
      (∀ l, xs = some l → (∀ x ∈ l, f x = .ok []) ∧ l.Nodup) := good_uniqueOption h.total

theorem goodCons {s : VStep} {n : String} {P : Prop} {steps : List VStep}
    {specs : List (String × Prop)} (h : Good s n P)
    (hs : All₂ (fun s p => Good s p.1 p.2) steps specs) :
    All₂ (fun s (p : String × Prop) => Good s p.1 p.2) (s :: steps) ((n, P) :: specs) := .cons h hs

instance {α : Type} (g : α → Check) : IsTotal (fun y => .ok (.ofCheck (g y))) := ⟨fun y => ⟨_, rfl⟩⟩
instance {α : Type} : IsTotal (fun _ : α => .ok []) := ⟨fun y => ⟨_, rfl⟩⟩

macro "good_steps" : tactic => `(tactic| repeat' (first
  | exact All₂.nil
  | apply goodCons
  | exact good_fieldOption _ _ _
  | exact good_field _ _ _
  | exact good_enumOption _ _ _
  | exact good_enum _ _ _
  | exact good_structOption'
  | exact good_struct'
  | exact good_listOption'
  | exact good_list'
  | exact good_uniqueOption'))

theorem ofCheck_ok (c : Check) : (Except.ok (VResult.ofCheck c) : Res VResult) = .ok [] ↔ c = .ok () := by
  simp [ofCheck_eq_nil]

theorem forall_opt {α : Type} (f : α → Elem) (x : Option α) (P : Elem → Prop) :
    (∀ p ∈ opt f x, P p) ↔ ∀ y, x = some y → P (f y) := by
  cases x <;> simp [opt]

theorem forall_many {α : Type} (f : α → Elem) (x : Option (List α)) (P : Elem → Prop) :
    (∀ p ∈ many f x, P p) ↔ ∀ l, x = some l → ∀ y ∈ l, P (f y) := by
  cases x <;> simp [many]

theorem forall_toList {α : Type} (x : Option α) (P : α → Prop) :
    (∀ p ∈ x.toList, P p) ↔ ∀ y, x = some y → P y := by
  cases x <;> simp

theorem distinct_iff {α : Type} (x : Option (List α)) :
    Distinct x ↔ ∀ l, x = some l → l.Nodup := by
  cases x <;> simp [Distinct]

theorem forall_and_iff {α : Type} {P Q R : α → Prop} :
    (∀ l, P l → Q l ∧ R l) ↔ (∀ l, P l → Q l) ∧ ∀ l, P l → R l :=
  ⟨fun h => ⟨fun l hl => (h l hl).1, fun l hl => (h l hl).2⟩, fun h l hl => ⟨h.1 l hl, h.2 l hl⟩⟩

macro "good_simp" : tactic => `(tactic| (
  try elem_simp
  try simp only [List.forall_mem_cons, List.forall_mem_append, List.forall_mem_nil,
    List.forall_mem_map, forall_opt, forall_many, forall_toList, distinct_iff, ofCheck_ok, and_true, and_assoc,
    true_and, List.not_mem_nil, false_implies, implies_true, forall_and_iff, List.mem_singleton,
    forall_eq]
  try elem_simp))


theorem Property.good (E : VEnv) (v : SpecVersion) (x : Property) :
    GoodV (Property.validate E v x) (∀ p ∈ (Elem.property x).checked, p.Passes E v) := by
  unfold Property.validate
  apply GoodV.congr
  apply goodV_chain
  case h => good_steps
  case nd => simp only [List.map]; decide
  good_simp
  try grind

instance (E : VEnv) (v : SpecVersion) : IsTotal (Property.validate E v) := ⟨fun x => (Property.good E v x).1⟩

theorem Properties.good (E : VEnv) (v : SpecVersion) (x : List Property) :
    GoodV (Properties.validate E v x) (∀ y ∈ x, Property.validate E v y = .ok []) := by
  unfold Properties.validate
  apply GoodV.congr
  apply goodV_chain
  case h => good_steps
  case nd => simp only [List.map]; decide
  good_simp

instance (E : VEnv) (v : SpecVersion) : IsTotal (Properties.validate E v) := ⟨fun x => (Properties.good E v x).1⟩

theorem Properties.passes (E : VEnv) (v : SpecVersion) (x : List Property) :
    Properties.validate E v x = .ok [] ↔ ∀ y ∈ x, Property.validate E v y = .ok [] := (Properties.good E v x).2

theorem Hash.good (E : VEnv) (v : SpecVersion) (x : Hash) :
    GoodV (Hash.validate E v x) (∀ p ∈ (Elem.hash x).checked, p.Passes E v) := by
  unfold Hash.validate
  apply GoodV.congr
  apply goodV_chain
  case h => good_steps
  case nd => simp only [List.map]; decide
  good_simp
  try simp only [Properties.passes]
  try grind

instance (E : VEnv) (v : SpecVersion) : IsTotal (Hash.validate E v) := ⟨fun x => (Hash.good E v x).1⟩

theorem Hashes.good (E : VEnv) (v : SpecVersion) (x : List Hash) :
    GoodV (Hashes.validate E v x) (∀ y ∈ x, Hash.validate E v y = .ok []) := by
  unfold Hashes.validate
  apply GoodV.congr
  apply goodV_chain
  case h => good_steps
  case nd => simp only [List.map]; decide
  good_simp

instance (E : VEnv) (v : SpecVersion) : IsTotal (Hashes.validate E v) := ⟨fun x => (Hashes.good E v x).1⟩

theorem Hashes.passes (E : VEnv) (v : SpecVersion) (x : List Hash) :
    Hashes.validate E v x = .ok [] ↔ ∀ y ∈ x, Hash.validate E v y = .ok [] := (Hashes.good E v x).2

theorem AttachedText.good (E : VEnv) (v : SpecVersion) (x : AttachedText) :
    GoodV (AttachedText.validate E v x)
      ((Elem.attachedText x).rule E v ∧ ∀ p ∈ (Elem.attachedText x).checked, p.Passes E v) := by
  obtain ⟨ct, enc, content⟩ := x
  unfold AttachedText.validate
  have hdec : (∃ bytes, IsBase64 bytes content.toList) ↔ ∃ bytes, b64Decode content.toList = some bytes := by
    simp only [b64Decode_iff]
  elem_simp
  cases enc with
  | none =>
    refine (goodV_chain _ (goodCons (good_fieldOption _ _ _) (goodCons (good_ok "x") .nil))
      (by simp only [List.map]; decide)).congr ?_
    good_simp
    simp
  | some e =>
    cases e with
    | base64 =>
      cases hd : b64Decode content.toList with
      | none =>
        simp only [hd]
        refine (goodV_chain _ (goodCons (good_fieldOption _ _ _) (goodCons (good_field _ _ _) .nil))
          (by simp only [List.map]; decide)).congr ?_
        simp [hdec, hd]
      | some bs =>
        simp only [hd]
        refine (goodV_chain _ (goodCons (good_fieldOption _ _ _) (goodCons (good_ok "x") .nil))
          (by simp only [List.map]; decide)).congr ?_
        good_simp
        simp [hdec, hd]
    | unknownEncoding u =>
      refine (goodV_chain _ (goodCons (good_fieldOption _ _ _) (goodCons (good_field _ _ _) .nil))
        (by simp only [List.map]; decide)).congr ?_
      simp [validateEncoding, Encoding.fallback?, Check.require]

instance (E : VEnv) (v : SpecVersion) : IsTotal (AttachedText.validate E v) :=
  ⟨fun x => (AttachedText.good E v x).1⟩

theorem Attachment.good (E : VEnv) (v : SpecVersion) (x : Attachment) :
    GoodV (Attachment.validate E v x) (∀ p ∈ (Elem.attachment x).checked, p.Passes E v) := by
  unfold Attachment.validate
  apply GoodV.congr
  apply goodV_chain
  case h => good_steps
  case nd => simp only [List.map]; decide
  good_simp
  try simp only [Properties.passes, Hashes.passes]
  try grind

instance (E : VEnv) (v : SpecVersion) : IsTotal (Attachment.validate E v) := ⟨fun x => (Attachment.good E v x).1⟩

theorem OrganizationalContact.good (E : VEnv) (v : SpecVersion) (x : OrganizationalContact) :
    GoodV (OrganizationalContact.validate E v x) (∀ p ∈ (Elem.organizationalContact x).checked, p.Passes E v) := by
  unfold OrganizationalContact.validate
  apply GoodV.congr
  apply goodV_chain
  case h => good_steps
  case nd => simp only [List.map]; decide
  good_simp
  try simp only [Properties.passes, Hashes.passes]
  try grind

instance (E : VEnv) (v : SpecVersion) : IsTotal (OrganizationalContact.validate E v) := ⟨fun x => (OrganizationalContact.good E v x).1⟩

theorem OrganizationalEntity.good (E : VEnv) (v : SpecVersion) (x : OrganizationalEntity) :
    GoodV (OrganizationalEntity.validate E v x) (∀ p ∈ (Elem.organizationalEntity x).checked, p.Passes E v) := by
  unfold OrganizationalEntity.validate
  apply GoodV.congr
  apply goodV_chain
  case h => good_steps
  case nd => simp only [List.map]; decide
  good_simp
  try simp only [Properties.passes, Hashes.passes]
  try grind

instance (E : VEnv) (v : SpecVersion) : IsTotal (OrganizationalEntity.validate E v) := ⟨fun x => (OrganizationalEntity.good E v x).1⟩

theorem ExternalReference.good (E : VEnv) (v : SpecVersion) (x : ExternalReference) :
    GoodV (ExternalReference.validate E v x) (∀ p ∈ (Elem.externalReference x).checked, p.Passes E v) := by
  unfold ExternalReference.validate
  apply GoodV.congr
  apply goodV_chain
  case h => good_steps
  case nd => simp only [List.map]; decide
  good_simp
  try simp only [Properties.passes, Hashes.passes]
  try grind

instance (E : VEnv) (v : SpecVersion) : IsTotal (ExternalReference.validate E v) := ⟨fun x => (ExternalReference.good E v x).1⟩

theorem ExternalReferences.good (E : VEnv) (v : SpecVersion) (x : List ExternalReference) :
    GoodV (ExternalReferences.validate E v x) (∀ y ∈ x, ExternalReference.validate E v y = .ok []) := by
  unfold ExternalReferences.validate
  apply GoodV.congr
  apply goodV_chain
  case h => good_steps
  case nd => simp only [List.map]; decide
  good_simp

instance (E : VEnv) (v : SpecVersion) : IsTotal (ExternalReferences.validate E v) := ⟨fun x => (ExternalReferences.good E v x).1⟩

theorem ExternalReferences.passes (E : VEnv) (v : SpecVersion) (x : List ExternalReference) :
    ExternalReferences.validate E v x = .ok [] ↔ ∀ y ∈ x, ExternalReference.validate E v y = .ok [] := (ExternalReferences.good E v x).2

theorem LicenseIdentifier.good (E : VEnv) (v : SpecVersion) (x : LicenseIdentifier) :
    GoodV (LicenseIdentifier.validate E v x) (∀ p ∈ (Elem.licenseIdentifier x).checked, p.Passes E v) := by
  cases x with
  | spdxId i =>
    unfold LicenseIdentifier.validate
    apply GoodV.congr
    · apply goodV_chain
      case h => good_steps
      case nd => simp only [List.map]; decide
    · good_simp
      show _ ↔ ∀ p ∈ [Elem.spdxId i], _
      good_simp
  | name n =>
    unfold LicenseIdentifier.validate
    apply GoodV.congr
    · apply goodV_chain
      case h => good_steps
      case nd => simp only [List.map]; decide
    · good_simp
      show _ ↔ ∀ p ∈ [Elem.normalizedString n], _
      good_simp

instance (E : VEnv) (v : SpecVersion) : IsTotal (LicenseIdentifier.validate E v) := ⟨fun x => (LicenseIdentifier.good E v x).1⟩

theorem LicenseContact.good (E : VEnv) (v : SpecVersion) (x : LicenseContact) :
    GoodV (LicenseContact.validate E v x) (∀ p ∈ (Elem.licenseContact x).checked, p.Passes E v) := by
  cases x with
  | organization o =>
    exact (OrganizationalEntity.good E v _).congr ⟨fun h p hp => by
      obtain rfl := List.mem_singleton.mp hp; exact (OrganizationalEntity.good E v _).2.mpr h,
      fun h => (OrganizationalEntity.good E v _).2.mp (h _ (List.mem_singleton.mpr rfl))⟩
  | contact c =>
    exact (OrganizationalContact.good E v _).congr ⟨fun h p hp => by
      obtain rfl := List.mem_singleton.mp hp; exact (OrganizationalContact.good E v _).2.mpr h,
      fun h => (OrganizationalContact.good E v _).2.mp (h _ (List.mem_singleton.mpr rfl))⟩

instance (E : VEnv) (v : SpecVersion) : IsTotal (LicenseContact.validate E v) := ⟨fun x => (LicenseContact.good E v x).1⟩

theorem Licensing.good (E : VEnv) (v : SpecVersion) (x : Licensing) :
    GoodV (Licensing.validate E v x) (∀ p ∈ (Elem.licensing x).checked, p.Passes E v) := by
  unfold Licensing.validate
  apply GoodV.congr
  apply goodV_chain
  case h => good_steps
  case nd => simp only [List.map]; decide
  good_simp
  try simp only [Properties.passes, Hashes.passes, ExternalReferences.passes]
  try grind

instance (E : VEnv) (v : SpecVersion) : IsTotal (Licensing.validate E v) := ⟨fun x => (Licensing.good E v x).1⟩

theorem License.good (E : VEnv) (v : SpecVersion) (x : License) :
    GoodV (License.validate E v x) (∀ p ∈ (Elem.license x).checked, p.Passes E v) := by
  unfold License.validate
  apply GoodV.congr
  apply goodV_chain
  case h => good_steps
  case nd => simp only [List.map]; decide
  good_simp
  try simp only [Properties.passes, Hashes.passes, ExternalReferences.passes]
  try grind

instance (E : VEnv) (v : SpecVersion) : IsTotal (License.validate E v) := ⟨fun x => (License.good E v x).1⟩

theorem LicenseChoice.good (E : VEnv) (v : SpecVersion) (x : LicenseChoice) :
    GoodV (LicenseChoice.validate E v x) (∀ p ∈ (Elem.licenseChoice x).checked, p.Passes E v) := by
  cases x with
  | license l =>
    unfold LicenseChoice.validate
    apply GoodV.congr
    · apply goodV_chain
      case h => good_steps
      case nd => simp only [List.map]; decide
    · good_simp
      show _ ↔ ∀ p ∈ [Elem.license l], _
      good_simp
  | expression e =>
    unfold LicenseChoice.validate
    apply GoodV.congr
    · apply goodV_chain
      case h => good_steps
      case nd => simp only [List.map]; decide
    · good_simp
      show _ ↔ ∀ p ∈ [Elem.spdxExpression e], _
      good_simp

instance (E : VEnv) (v : SpecVersion) : IsTotal (LicenseChoice.validate E v) := ⟨fun x => (LicenseChoice.good E v x).1⟩

theorem licenses_counts (x : Licenses) :
    (¬ ((x.filter fun c => c.isLicense).length = 0 ∧ (x.filter fun c => !c.isLicense).length > 1) ∧
      ¬ ((x.filter fun c => c.isLicense).length > 0 ∧ (x.filter fun c => !c.isLicense).length > 0)) ↔
    ((∀ c ∈ x, ∃ l, c = .license l) ∨ x.length ≤ 1) := by
  have hlen : (x.filter fun c => c.isLicense).length + (x.filter fun c => !c.isLicense).length = x.length := by
    induction x with
    | nil => rfl
    | cons c x ih => cases h : c.isLicense <;> simp [List.filter_cons, h] <;> omega
  have hall : (∀ c ∈ x, ∃ l, c = .license l) ↔ (x.filter fun c => !c.isLicense).length = 0 := by
    rw [List.length_eq_zero_iff, List.filter_eq_nil_iff]
    constructor
    · intro h c hc
      obtain ⟨l, rfl⟩ := h c hc
      simp [LicenseChoice.isLicense]
    · intro h c hc
      have := h c hc
      cases c with
      | license l => exact ⟨l, rfl⟩
      | expression e => simp [LicenseChoice.isLicense] at this
  rw [hall]
  omega

theorem Licenses.good (E : VEnv) (v : SpecVersion) (x : Licenses) :
    GoodV (Licenses.validate E v x)
      ((Elem.licenses x).rule E v ∧ ∀ p ∈ (Elem.licenses x).checked, p.Passes E v) := by
  unfold Licenses.validate
  elem_simp
  show GoodV _ (_ ∧ ∀ p ∈ x.map Elem.licenseChoice, _)
  have hc := licenses_counts x
  have hv : SpecVersion.le .v1_5 v = true ↔ v = .v1_5 := by cases v <;> decide
  simp only [hv]
  by_cases h5 : v = .v1_5
  · simp only [if_pos h5]
    split
    · rename_i h
      refine (goodV_chain _ (goodCons good_list' (goodCons (good_custom _ _) .nil))
        (by simp only [List.map]; decide)).congr ?_
      have : ¬ ((∀ c ∈ x, ∃ l, c = LicenseChoice.license l) ∨ x.length ≤ 1) := by
        rw [← hc]; exact fun hh => hh.1 h
      simp [h5, this]
    · split
      · rename_i h
        refine (goodV_chain _ (goodCons good_list' (goodCons (good_custom _ _) .nil))
          (by simp only [List.map]; decide)).congr ?_
        have : ¬ ((∀ c ∈ x, ∃ l, c = LicenseChoice.license l) ∨ x.length ≤ 1) := by
          rw [← hc]; exact fun hh => hh.2 h
        simp [h5, this]
      · rename_i h1 h2
        refine (goodV_chain _ (goodCons good_list' (goodCons (good_ok "x") .nil))
          (by simp only [List.map]; decide)).congr ?_
        have : ((∀ c ∈ x, ∃ l, c = LicenseChoice.license l) ∨ x.length ≤ 1) := hc.mp ⟨h1, h2⟩
        good_simp
        exact ⟨fun h => ⟨fun _ => this, h⟩, fun h => h.2⟩
  · simp only [if_neg h5]
    refine (goodV_chain _ (goodCons good_list' (goodCons (good_ok "x") .nil))
      (by simp only [List.map]; decide)).congr ?_
    good_simp
    exact ⟨fun h => ⟨fun h' => absurd h' h5, h⟩, fun h => h.2⟩

instance (E : VEnv) (v : SpecVersion) : IsTotal (Licenses.validate E v) :=
  ⟨fun x => (Licenses.good E v x).1⟩

theorem IdentifiableAction.good (E : VEnv) (v : SpecVersion) (x : IdentifiableAction) :
    GoodV (IdentifiableAction.validate E v x) (∀ p ∈ (Elem.identifiableAction x).checked, p.Passes E v) := by
  unfold IdentifiableAction.validate
  apply GoodV.congr
  apply goodV_chain
  case h => good_steps
  case nd => simp only [List.map]; decide
  good_simp
  try simp only [Properties.passes, Hashes.passes, ExternalReferences.passes]
  try grind

instance (E : VEnv) (v : SpecVersion) : IsTotal (IdentifiableAction.validate E v) := ⟨fun x => (IdentifiableAction.good E v x).1⟩

theorem Commit.good (E : VEnv) (v : SpecVersion) (x : Commit) :
    GoodV (Commit.validate E v x) (∀ p ∈ (Elem.commit x).checked, p.Passes E v) := by
  unfold Commit.validate
  apply GoodV.congr
  apply goodV_chain
  case h => good_steps
  case nd => simp only [List.map]; decide
  good_simp
  try simp only [Properties.passes, Hashes.passes, ExternalReferences.passes]
  try grind

instance (E : VEnv) (v : SpecVersion) : IsTotal (Commit.validate E v) := ⟨fun x => (Commit.good E v x).1⟩

theorem Commits.good (E : VEnv) (v : SpecVersion) (x : List Commit) :
    GoodV (Commits.validate E v x) (∀ y ∈ x, Commit.validate E v y = .ok []) := by
  unfold Commits.validate
  apply GoodV.congr
  apply goodV_chain
  case h => good_steps
  case nd => simp only [List.map]; decide
  good_simp

instance (E : VEnv) (v : SpecVersion) : IsTotal (Commits.validate E v) := ⟨fun x => (Commits.good E v x).1⟩

theorem Commits.passes (E : VEnv) (v : SpecVersion) (x : List Commit) :
    Commits.validate E v x = .ok [] ↔ ∀ y ∈ x, Commit.validate E v y = .ok [] := (Commits.good E v x).2

theorem Diff.good (E : VEnv) (v : SpecVersion) (x : Diff) :
    GoodV (Diff.validate E v x) (∀ p ∈ (Elem.diff x).checked, p.Passes E v) := by
  unfold Diff.validate
  apply GoodV.congr
  apply goodV_chain
  case h => good_steps
  case nd => simp only [List.map]; decide
  good_simp
  try simp only [Properties.passes, Hashes.passes, ExternalReferences.passes, Commits.passes]
  try grind

instance (E : VEnv) (v : SpecVersion) : IsTotal (Diff.validate E v) := ⟨fun x => (Diff.good E v x).1⟩

theorem Source.good (E : VEnv) (v : SpecVersion) (x : Source) :
    GoodV (Source.validate E v x) (∀ p ∈ (Elem.source x).checked, p.Passes E v) := by
  unfold Source.validate
  apply GoodV.congr
  apply goodV_chain
  case h => good_steps
  case nd => simp only [List.map]; decide
  good_simp
  try simp only [Properties.passes, Hashes.passes, ExternalReferences.passes, Commits.passes]
  try grind

instance (E : VEnv) (v : SpecVersion) : IsTotal (Source.validate E v) := ⟨fun x => (Source.good E v x).1⟩

theorem Issue.good (E : VEnv) (v : SpecVersion) (x : Issue) :
    GoodV (Issue.validate E v x) (∀ p ∈ (Elem.issue x).checked, p.Passes E v) := by
  unfold Issue.validate
  apply GoodV.congr
  apply goodV_chain
  case h => good_steps
  case nd => simp only [List.map]; decide
  good_simp
  try simp only [Properties.passes, Hashes.passes, ExternalReferences.passes, Commits.passes]
  try grind

instance (E : VEnv) (v : SpecVersion) : IsTotal (Issue.validate E v) := ⟨fun x => (Issue.good E v x).1⟩

theorem Patch.good (E : VEnv) (v : SpecVersion) (x : Patch) :
    GoodV (Patch.validate E v x) (∀ p ∈ (Elem.patch x).checked, p.Passes E v) := by
  unfold Patch.validate
  apply GoodV.congr
  apply goodV_chain
  case h => good_steps
  case nd => simp only [List.map]; decide
  good_simp
  try simp only [Properties.passes, Hashes.passes, ExternalReferences.passes, Commits.passes]
  try grind

instance (E : VEnv) (v : SpecVersion) : IsTotal (Patch.validate E v) := ⟨fun x => (Patch.good E v x).1⟩

theorem Patches.good (E : VEnv) (v : SpecVersion) (x : List Patch) :
    GoodV (Patches.validate E v x) (∀ y ∈ x, Patch.validate E v y = .ok []) := by
  unfold Patches.validate
  apply GoodV.congr
  apply goodV_chain
  case h => good_steps
  case nd => simp only [List.map]; decide
  good_simp

instance (E : VEnv) (v : SpecVersion) : IsTotal (Patches.validate E v) := ⟨fun x => (Patches.good E v x).1⟩

theorem Patches.passes (E : VEnv) (v : SpecVersion) (x : List Patch) :
    Patches.validate E v x = .ok [] ↔ ∀ y ∈ x, Patch.validate E v y = .ok [] := (Patches.good E v x).2

theorem Signer.good (E : VEnv) (v : SpecVersion) (x : Signer) :
    GoodV (Signer.validate E v x) (∀ p ∈ (Elem.signer x).checked, p.Passes E v) := by
  unfold Signer.validate
  apply GoodV.congr
  apply goodV_chain
  case h => good_steps
  case nd => simp only [List.map]; decide
  good_simp
  try simp only [Properties.passes, Hashes.passes, ExternalReferences.passes, Commits.passes, Patches.passes]
  try grind

instance (E : VEnv) (v : SpecVersion) : IsTotal (Signer.validate E v) := ⟨fun x => (Signer.good E v x).1⟩

theorem Signature.good (E : VEnv) (v : SpecVersion) (x : Signature) :
    GoodV (Signature.validate E v x) (∀ p ∈ (Elem.signature x).checked, p.Passes E v) := by
  cases x with
  | signers l =>
    unfold Signature.validate
    apply GoodV.congr
    · apply goodV_chain
      case h => good_steps
      case nd => simp only [List.map]; decide
    · good_simp
      show _ ↔ ∀ p ∈ l.map Elem.signer, _
      good_simp
  | chain l =>
    unfold Signature.validate
    apply GoodV.congr
    · apply goodV_chain
      case h => good_steps
      case nd => simp only [List.map]; decide
    · good_simp
      show _ ↔ ∀ p ∈ l.map Elem.signer, _
      good_simp
  | single s =>
    unfold Signature.validate
    apply GoodV.congr
    · apply goodV_chain
      case h => good_steps
      case nd => simp only [List.map]; decide
    · good_simp
      show _ ↔ ∀ p ∈ [Elem.signer s], _
      good_simp

instance (E : VEnv) (v : SpecVersion) : IsTotal (Signature.validate E v) := ⟨fun x => (Signature.good E v x).1⟩

theorem DataGovernanceResponsibleParty.good (E : VEnv) (v : SpecVersion) (x : DataGovernanceResponsibleParty) :
    GoodV (DataGovernanceResponsibleParty.validate E v x) (∀ p ∈ (Elem.dataGovernanceResponsibleParty x).checked, p.Passes E v) := by
  cases x with
  | organization o =>
    exact (OrganizationalEntity.good E v _).congr ⟨fun h p hp => by
      obtain rfl := List.mem_singleton.mp hp; exact (OrganizationalEntity.good E v _).2.mpr h,
      fun h => (OrganizationalEntity.good E v _).2.mp (h _ (List.mem_singleton.mpr rfl))⟩
  | contact c =>
    exact (OrganizationalContact.good E v _).congr ⟨fun h p hp => by
      obtain rfl := List.mem_singleton.mp hp; exact (OrganizationalContact.good E v _).2.mpr h,
      fun h => (OrganizationalContact.good E v _).2.mp (h _ (List.mem_singleton.mpr rfl))⟩

instance (E : VEnv) (v : SpecVersion) : IsTotal (DataGovernanceResponsibleParty.validate E v) := ⟨fun x => (DataGovernanceResponsibleParty.good E v x).1⟩

theorem DataGovernance.good (E : VEnv) (v : SpecVersion) (x : DataGovernance) :
    GoodV (DataGovernance.validate E v x) (∀ p ∈ (Elem.dataGovernance x).checked, p.Passes E v) := by
  unfold DataGovernance.validate
  apply GoodV.congr
  apply goodV_chain
  case h => good_steps
  case nd => simp only [List.map]; decide
  good_simp
  try simp only [Properties.passes, Hashes.passes, ExternalReferences.passes, Commits.passes, Patches.passes]
  try grind

instance (E : VEnv) (v : SpecVersion) : IsTotal (DataGovernance.validate E v) := ⟨fun x => (DataGovernance.good E v x).1⟩

theorem Graphic.good (E : VEnv) (v : SpecVersion) (x : Graphic) :
    GoodV (Graphic.validate E v x) (∀ p ∈ (Elem.graphic x).checked, p.Passes E v) := by
  unfold Graphic.validate
  apply GoodV.congr
  apply goodV_chain
  case h => good_steps
  case nd => simp only [List.map]; decide
  good_simp
  try simp only [Properties.passes, Hashes.passes, ExternalReferences.passes, Commits.passes, Patches.passes]
  try grind

instance (E : VEnv) (v : SpecVersion) : IsTotal (Graphic.validate E v) := ⟨fun x => (Graphic.good E v x).1⟩

theorem GraphicsCollection.good (E : VEnv) (v : SpecVersion) (x : GraphicsCollection) :
    GoodV (GraphicsCollection.validate E v x) (∀ p ∈ (Elem.graphicsCollection x).checked, p.Passes E v) := by
  unfold GraphicsCollection.validate
  apply GoodV.congr
  apply goodV_chain
  case h => good_steps
  case nd => simp only [List.map]; decide
  good_simp
  try simp only [Properties.passes, Hashes.passes, ExternalReferences.passes, Commits.passes, Patches.passes]
  try grind

instance (E : VEnv) (v : SpecVersion) : IsTotal (GraphicsCollection.validate E v) := ⟨fun x => (GraphicsCollection.good E v x).1⟩

theorem DataContents.good (E : VEnv) (v : SpecVersion) (x : DataContents) :
    GoodV (DataContents.validate E v x) (∀ p ∈ (Elem.dataContents x).checked, p.Passes E v) := by
  unfold DataContents.validate
  apply GoodV.congr
  apply goodV_chain
  case h => good_steps
  case nd => simp only [List.map]; decide
  good_simp
  try simp only [Properties.passes, Hashes.passes, ExternalReferences.passes, Commits.passes, Patches.passes]
  try grind

instance (E : VEnv) (v : SpecVersion) : IsTotal (DataContents.validate E v) := ⟨fun x => (DataContents.good E v x).1⟩

theorem ComponentData.good (E : VEnv) (v : SpecVersion) (x : ComponentData) :
    GoodV (ComponentData.validate E v x) (∀ p ∈ (Elem.componentData x).checked, p.Passes E v) := by
  unfold ComponentData.validate
  apply GoodV.congr
  apply goodV_chain
  case h => good_steps
  case nd => simp only [List.map]; decide
  good_simp
  try simp only [Properties.passes, Hashes.passes, ExternalReferences.passes, Commits.passes, Patches.passes]
  try grind

instance (E : VEnv) (v : SpecVersion) : IsTotal (ComponentData.validate E v) := ⟨fun x => (ComponentData.good E v x).1⟩

theorem ModelParametersApproach.good (E : VEnv) (v : SpecVersion) (x : ModelParametersApproach) :
    GoodV (ModelParametersApproach.validate E v x) (∀ p ∈ (Elem.modelParametersApproach x).checked, p.Passes E v) := by
  unfold ModelParametersApproach.validate
  apply GoodV.congr
  apply goodV_chain
  case h => good_steps
  case nd => simp only [List.map]; decide
  good_simp
  try simp only [Properties.passes, Hashes.passes, ExternalReferences.passes, Commits.passes, Patches.passes]
  try grind

instance (E : VEnv) (v : SpecVersion) : IsTotal (ModelParametersApproach.validate E v) := ⟨fun x => (ModelParametersApproach.good E v x).1⟩

theorem Dataset.good (E : VEnv) (v : SpecVersion) (x : Dataset) :
    GoodV (Dataset.validate E v x) (∀ p ∈ (Elem.dataset x).checked, p.Passes E v) := by
  cases x with
  | component c =>
    exact (ComponentData.good E v _).congr ⟨fun h p hp => by
      obtain rfl := List.mem_singleton.mp hp; exact (ComponentData.good E v _).2.mpr h,
      fun h => (ComponentData.good E v _).2.mp (h _ (List.mem_singleton.mpr rfl))⟩
  | reference r =>
    exact goodV_ok_nil.congr (by
      show _ ↔ ∀ p ∈ ([] : List Elem), _
      simp)

instance (E : VEnv) (v : SpecVersion) : IsTotal (Dataset.validate E v) :=
  ⟨fun x => (Dataset.good E v x).1⟩

theorem Datasets.good (E : VEnv) (v : SpecVersion) (x : List Dataset) :
    GoodV (Datasets.validate E v x) (∀ y ∈ x, Dataset.validate E v y = .ok []) := by
  unfold Datasets.validate
  apply GoodV.congr
  apply goodV_chain
  case h => good_steps
  case nd => simp only [List.map]; decide
  good_simp

instance (E : VEnv) (v : SpecVersion) : IsTotal (Datasets.validate E v) := ⟨fun x => (Datasets.good E v x).1⟩

theorem Datasets.passes (E : VEnv) (v : SpecVersion) (x : List Dataset) :
    Datasets.validate E v x = .ok [] ↔ ∀ y ∈ x, Dataset.validate E v y = .ok [] := (Datasets.good E v x).2

theorem MLParameters.passes (E : VEnv) (v : SpecVersion) (x : List MLParameter) :
    MLParameters.validate E v x = .ok [] := by
  have : GoodV (MLParameters.validate E v x) True := by
    unfold MLParameters.validate
    apply GoodV.congr
    apply goodV_chain
    case h => good_steps
    case nd => simp only [List.map]; decide
    simp [VResult.ofCheck, validateMlParameter]
  exact this.2.mpr trivial

instance (E : VEnv) (v : SpecVersion) : IsTotal (MLParameters.validate E v) :=
  ⟨fun x => ⟨_, MLParameters.passes E v x⟩⟩

theorem ModelParameters.good (E : VEnv) (v : SpecVersion) (x : ModelParameters) :
    GoodV (ModelParameters.validate E v x) (∀ p ∈ (Elem.modelParameters x).checked, p.Passes E v) := by
  unfold ModelParameters.validate
  apply GoodV.congr
  apply goodV_chain
  case h => good_steps
  case nd => simp only [List.map]; decide
  good_simp
  try simp only [Properties.passes, Hashes.passes, ExternalReferences.passes, Commits.passes, Patches.passes, Datasets.passes, MLParameters.passes]
  try grind

instance (E : VEnv) (v : SpecVersion) : IsTotal (ModelParameters.validate E v) := ⟨fun x => (ModelParameters.good E v x).1⟩

theorem PerformanceMetric.passes (E : VEnv) (v : SpecVersion) (x : PerformanceMetric) :
    PerformanceMetric.validate E v x = .ok [] := by
  have : GoodV (PerformanceMetric.validate E v x) True := by
    unfold PerformanceMetric.validate
    apply GoodV.congr
    apply goodV_chain
    case h => good_steps
    case nd => simp only [List.map]; decide
    simp []
  exact this.2.mpr trivial

instance (E : VEnv) (v : SpecVersion) : IsTotal (PerformanceMetric.validate E v) :=
  ⟨fun x => ⟨_, PerformanceMetric.passes E v x⟩⟩

theorem PerformanceMetrics.passes (E : VEnv) (v : SpecVersion) (x : List PerformanceMetric) :
    PerformanceMetrics.validate E v x = .ok [] := by
  have : GoodV (PerformanceMetrics.validate E v x) True := by
    unfold PerformanceMetrics.validate
    apply GoodV.congr
    apply goodV_chain
    case h => good_steps
    case nd => simp only [List.map]; decide
    simp [PerformanceMetric.passes]
  exact this.2.mpr trivial

instance (E : VEnv) (v : SpecVersion) : IsTotal (PerformanceMetrics.validate E v) :=
  ⟨fun x => ⟨_, PerformanceMetrics.passes E v x⟩⟩

theorem QuantitativeAnalysis.good (E : VEnv) (v : SpecVersion) (x : QuantitativeAnalysis) :
    GoodV (QuantitativeAnalysis.validate E v x) (∀ p ∈ (Elem.quantitativeAnalysis x).checked, p.Passes E v) := by
  unfold QuantitativeAnalysis.validate
  apply GoodV.congr
  apply goodV_chain
  case h => good_steps
  case nd => simp only [List.map]; decide
  good_simp
  try simp only [Properties.passes, Hashes.passes, ExternalReferences.passes, Commits.passes, Patches.passes, Datasets.passes, MLParameters.passes, PerformanceMetric.passes, PerformanceMetrics.passes]
  try grind

instance (E : VEnv) (v : SpecVersion) : IsTotal (QuantitativeAnalysis.validate E v) := ⟨fun x => (QuantitativeAnalysis.good E v x).1⟩

theorem Considerations.passes (E : VEnv) (v : SpecVersion) (x : Considerations) :
    Considerations.validate E v x = .ok [] := by
  have : GoodV (Considerations.validate E v x) True := by
    unfold Considerations.validate
    apply GoodV.congr
    apply goodV_chain
    case h => good_steps
    case nd => simp only [List.map]; decide
    simp []
  exact this.2.mpr trivial

instance (E : VEnv) (v : SpecVersion) : IsTotal (Considerations.validate E v) :=
  ⟨fun x => ⟨_, Considerations.passes E v x⟩⟩

theorem ModelCard.good (E : VEnv) (v : SpecVersion) (x : ModelCard) :
    GoodV (ModelCard.validate E v x) (∀ p ∈ (Elem.modelCard x).checked, p.Passes E v) := by
  unfold ModelCard.validate
  apply GoodV.congr
  apply goodV_chain
  case h => good_steps
  case nd => simp only [List.map]; decide
  good_simp
  try simp only [Properties.passes, Hashes.passes, ExternalReferences.passes, Commits.passes, Patches.passes, Datasets.passes, MLParameters.passes, PerformanceMetric.passes, PerformanceMetrics.passes, Considerations.passes]
  try grind

instance (E : VEnv) (v : SpecVersion) : IsTotal (ModelCard.validate E v) := ⟨fun x => (ModelCard.good E v x).1⟩

theorem Swid.good (E : VEnv) (v : SpecVersion) (x : Swid) :
    GoodV (Swid.validate E v x) (∀ p ∈ (Elem.swid x).checked, p.Passes E v) := by
  unfold Swid.validate
  apply GoodV.congr
  apply goodV_chain
  case h => good_steps
  case nd => simp only [List.map]; decide
  good_simp
  try simp only [Properties.passes, Hashes.passes, ExternalReferences.passes, Commits.passes, Patches.passes, Datasets.passes, MLParameters.passes, PerformanceMetric.passes, PerformanceMetrics.passes, Considerations.passes]
  try grind

instance (E : VEnv) (v : SpecVersion) : IsTotal (Swid.validate E v) := ⟨fun x => (Swid.good E v x).1⟩

theorem Occurrence.good (E : VEnv) (v : SpecVersion) (x : Occurrence) :
    GoodV (Occurrence.validate E v x) (∀ p ∈ (Elem.occurrence x).checked, p.Passes E v) := by
  unfold Occurrence.validate
  apply GoodV.congr
  apply goodV_chain
  case h => good_steps
  case nd => simp only [List.map]; decide
  good_simp
  try simp only [Properties.passes, Hashes.passes, ExternalReferences.passes, Commits.passes, Patches.passes, Datasets.passes, MLParameters.passes, PerformanceMetric.passes, PerformanceMetrics.passes, Considerations.passes]
  try grind

instance (E : VEnv) (v : SpecVersion) : IsTotal (Occurrence.validate E v) := ⟨fun x => (Occurrence.good E v x).1⟩

theorem Occurrences.good (E : VEnv) (v : SpecVersion) (x : List Occurrence) :
    GoodV (Occurrences.validate E v x) (∀ y ∈ x, Occurrence.validate E v y = .ok []) := by
  unfold Occurrences.validate
  apply GoodV.congr
  apply goodV_chain
  case h => good_steps
  case nd => simp only [List.map]; decide
  good_simp

instance (E : VEnv) (v : SpecVersion) : IsTotal (Occurrences.validate E v) := ⟨fun x => (Occurrences.good E v x).1⟩

theorem Occurrences.passes (E : VEnv) (v : SpecVersion) (x : List Occurrence) :
    Occurrences.validate E v x = .ok [] ↔ ∀ y ∈ x, Occurrence.validate E v y = .ok [] := (Occurrences.good E v x).2

theorem Frame.good (E : VEnv) (v : SpecVersion) (x : Frame) :
    GoodV (Frame.validate E v x) (∀ p ∈ (Elem.frame x).checked, p.Passes E v) := by
  unfold Frame.validate
  apply GoodV.congr
  apply goodV_chain
  case h => good_steps
  case nd => simp only [List.map]; decide
  good_simp
  try simp only [Properties.passes, Hashes.passes, ExternalReferences.passes, Commits.passes, Patches.passes, Datasets.passes, MLParameters.passes, PerformanceMetric.passes, PerformanceMetrics.passes, Considerations.passes, Occurrences.passes]
  try grind

instance (E : VEnv) (v : SpecVersion) : IsTotal (Frame.validate E v) := ⟨fun x => (Frame.good E v x).1⟩

theorem Frames.good (E : VEnv) (v : SpecVersion) (x : List Frame) :
    GoodV (Frames.validate E v x) (∀ y ∈ x, Frame.validate E v y = .ok []) := by
  unfold Frames.validate
  apply GoodV.congr
  apply goodV_chain
  case h => good_steps
  case nd => simp only [List.map]; decide
  good_simp

instance (E : VEnv) (v : SpecVersion) : IsTotal (Frames.validate E v) := ⟨fun x => (Frames.good E v x).1⟩

theorem Frames.passes (E : VEnv) (v : SpecVersion) (x : List Frame) :
    Frames.validate E v x = .ok [] ↔ ∀ y ∈ x, Frame.validate E v y = .ok [] := (Frames.good E v x).2

theorem Callstack.good (E : VEnv) (v : SpecVersion) (x : Callstack) :
    GoodV (Callstack.validate E v x) (∀ p ∈ (Elem.callstack x).checked, p.Passes E v) := by
  refine (Frames.good E v x.frames).congr ?_
  good_simp

instance (E : VEnv) (v : SpecVersion) : IsTotal (Callstack.validate E v) :=
  ⟨fun x => (Callstack.good E v x).1⟩

theorem Identity.good (E : VEnv) (v : SpecVersion) (x : Identity) :
    GoodV (Identity.validate E v x) (∀ p ∈ (Elem.identity x).checked, p.Passes E v) := by
  unfold Identity.validate
  apply GoodV.congr
  apply goodV_chain
  case h => good_steps
  case nd => simp only [List.map]; decide
  good_simp
  try simp only [Properties.passes, Hashes.passes, ExternalReferences.passes, Commits.passes, Patches.passes, Datasets.passes, MLParameters.passes, PerformanceMetric.passes, PerformanceMetrics.passes, Considerations.passes, Occurrences.passes, Frames.passes]
  try grind

instance (E : VEnv) (v : SpecVersion) : IsTotal (Identity.validate E v) := ⟨fun x => (Identity.good E v x).1⟩

theorem CopyrightTexts.passes (E : VEnv) (v : SpecVersion) (x : List String) :
    CopyrightTexts.validate E v x = .ok [] := by
  have : GoodV (CopyrightTexts.validate E v x) True := by
    unfold CopyrightTexts.validate
    apply GoodV.congr
    apply goodV_chain
    case h => good_steps
    case nd => simp only [List.map]; decide
    simp [VResult.ofCheck, validateCopyright]
  exact this.2.mpr trivial

instance (E : VEnv) (v : SpecVersion) : IsTotal (CopyrightTexts.validate E v) :=
  ⟨fun x => ⟨_, CopyrightTexts.passes E v x⟩⟩

theorem ComponentEvidence.good (E : VEnv) (v : SpecVersion) (x : ComponentEvidence) :
    GoodV (ComponentEvidence.validate E v x) (∀ p ∈ (Elem.componentEvidence x).checked, p.Passes E v) := by
  unfold ComponentEvidence.validate
  apply GoodV.congr
  apply goodV_chain
  case h => good_steps
  case nd => simp only [List.map]; decide
  good_simp
  try simp only [Properties.passes, Hashes.passes, ExternalReferences.passes, Commits.passes, Patches.passes, Datasets.passes, MLParameters.passes, PerformanceMetric.passes, PerformanceMetrics.passes, Considerations.passes, Occurrences.passes, Frames.passes, CopyrightTexts.passes]
  try grind

instance (E : VEnv) (v : SpecVersion) : IsTotal (ComponentEvidence.validate E v) := ⟨fun x => (ComponentEvidence.good E v x).1⟩

/-! ## Components -/

theorem validateOption_eq (E : VEnv) (v : SpecVersion) (p : Option Pedigree) :
    Pedigree.validateOption E v p = p.map (Pedigree.validate E v) := by
  cases p <;> rfl

theorem Components.validateEach_eq (E : VEnv) (v : SpecVersion) (cs : List Component) :
    Components.validateEach E v cs = cs.mapM (Component.validate E v) := by
  induction cs with
  | nil => rfl
  | cons c cs ih =>
    rw [List.mapM_cons, ← ih]
    rfl

theorem Components.validateOption_eq (E : VEnv) (v : SpecVersion) (cs : Option (List Component)) :
    Components.validateOption E v cs = cs.map (Components.validate E v) := by
  cases cs with
  | none => rfl
  | some cs =>
    show some (chain [addListResults "inner" (Components.validateEach E v cs)]) = _
    rw [Components.validateEach_eq]
    rfl

theorem addStructOptionResult_map {α : Type} (n : String) (x : Option α) (f : α → Res VResult) :
    addStructOptionResult n (x.map f) = addStructOption n x f := by
  cases x <;> rfl

theorem Component.validate_eq (E : VEnv) (v : SpecVersion) (x : Component) :
    Component.validate E v x = chain [
      addField "component_type" x.componentType (validateClassification v),
      addFieldOption "mime_type" x.mimeType validateMimeType,
      addStructOption "supplier" x.supplier (OrganizationalEntity.validate E v),
      addFieldOption "author" x.author validateNormalizedString,
      addFieldOption "publisher" x.publisher validateNormalizedString,
      addFieldOption "group" x.group validateNormalizedString,
      addField "name" x.name validateNormalizedString,
      addFieldOption "version" x.version validateNormalizedString,
      addFieldOption "description" x.description validateNormalizedString,
      addEnumOption "scope" x.scope validateScope,
      addStructOption "hashes" x.hashes (Hashes.validate E v),
      addStructOption "licenses" x.licenses (Licenses.validate E v),
      addFieldOption "copyright" x.copyright validateNormalizedString,
      addFieldOption "cpe" x.cpe validateCpe,
      addFieldOption "purl" x.purl (validatePurl E),
      addStructOption "swid" x.swid (Swid.validate E v),
      addStructOption "pedigree" x.pedigree (Pedigree.validate E v),
      addStructOption "external_references" x.externalReferences (ExternalReferences.validate E v),
      addStructOption "properties" x.properties (Properties.validate E v),
      addStructOption "components" x.components (Components.validate E v),
      addStructOption "evidence" x.evidence (ComponentEvidence.validate E v)] := by
  obtain ⟨⟩ := x
  rw [Component.validate, validateOption_eq, Components.validateOption_eq, addStructOptionResult_map,
    addStructOptionResult_map]

theorem Pedigree.validate_eq (E : VEnv) (v : SpecVersion) (x : Pedigree) :
    Pedigree.validate E v x = chain [
      addStructOption "ancestors" x.ancestors (Components.validate E v),
      addStructOption "descendants" x.descendants (Components.validate E v),
      addStructOption "variants" x.variants (Components.validate E v),
      addStructOption "commits" x.commits (Commits.validate E v),
      addStructOption "patches" x.patches (Patches.validate E v)] := by
  obtain ⟨⟩ := x
  rw [Pedigree.validate, Components.validateOption_eq, Components.validateOption_eq,
    Components.validateOption_eq, addStructOptionResult_map, addStructOptionResult_map,
    addStructOptionResult_map]

theorem good_structOption_mem {α : Type} {n : String} {x : Option α} {f : α → Res VResult}
    (h : ∀ y, x = some y → ∃ a, f y = .ok a) :
    Good (addStructOption n x f) n (∀ y, x = some y → f y = .ok []) := by
  cases x with
  | none => simpa [addStructOption] using good_ok n
  | some x => simpa [addStructOption, addStruct] using good_structResult (n := n) (h x rfl)

theorem list_validate_total {α : Type} {n : String} {f : α → Res VResult} {xs : List α}
    (h : ∀ x ∈ xs, ∃ a, f x = .ok a) : ∃ a, chain [addList n xs f] = .ok a :=
  (goodV_chain _ (goodCons (good_list_mem h) .nil) (by simp)).1

theorem component_total_of {E : VEnv} {v : SpecVersion} {x : Component}
    (hp : ∀ p, x.pedigree = some p → ∃ a, Pedigree.validate E v p = .ok a)
    (hc : ∀ l, x.components = some l → ∀ c ∈ l, ∃ a, Component.validate E v c = .ok a) :
    ∃ a, Component.validate E v x = .ok a := by
  rw [Component.validate_eq]
  suffices h : ∃ P, GoodV _ P from h.choose_spec.1
  apply Exists.intro
  apply goodV_chain
  case h =>
    repeat' (first
      | exact All₂.nil
      | apply goodCons
      | exact good_fieldOption _ _ _
      | exact good_field _ _ _
      | exact good_enumOption _ _ _
      | exact good_structOption'
      | exact good_structOption_mem hp
      | exact good_structOption_mem fun l hl => list_validate_total (hc l hl))
  case nd => simp only [List.map]; decide

theorem pedigree_total_of {E : VEnv} {v : SpecVersion} {x : Pedigree}
    (h1 : ∀ l, x.ancestors = some l → ∀ c ∈ l, ∃ a, Component.validate E v c = .ok a)
    (h2 : ∀ l, x.descendants = some l → ∀ c ∈ l, ∃ a, Component.validate E v c = .ok a)
    (h3 : ∀ l, x.variants = some l → ∀ c ∈ l, ∃ a, Component.validate E v c = .ok a) :
    ∃ a, Pedigree.validate E v x = .ok a := by
  rw [Pedigree.validate_eq]
  suffices h : ∃ P, GoodV _ P from h.choose_spec.1
  apply Exists.intro
  apply goodV_chain
  case h =>
    repeat' (first
      | exact All₂.nil
      | apply goodCons
      | exact good_structOption'
      | exact good_structOption_mem fun l hl => list_validate_total (h1 l hl)
      | exact good_structOption_mem fun l hl => list_validate_total (h2 l hl)
      | exact good_structOption_mem fun l hl => list_validate_total (h3 l hl))
  case nd => simp only [List.map]; decide

mutual

theorem Component.total (E : VEnv) (v : SpecVersion) :
    ∀ x : Component, ∃ a, Component.validate E v x = .ok a
  | ⟨componentType, mimeType, bomRef, supplier, author, publisher, group, name, version,
      description, scope, hashes, licenses, copyright, cpe, purl, swid, modified, pedigree,
      externalReferences, properties, components, evidence, signature, modelCard, data⟩ =>
    component_total_of (Pedigree.totalOption E v pedigree) (Component.totalOption E v components)
termination_by structural x => x

theorem Pedigree.totalOption (E : VEnv) (v : SpecVersion) :
    ∀ (x : Option Pedigree) p, x = some p → ∃ a, Pedigree.validate E v p = .ok a
  | none, _, h => nomatch h
  | some q, _, h => Option.some.inj h ▸ Pedigree.total E v q
termination_by structural x => x

theorem Pedigree.total (E : VEnv) (v : SpecVersion) :
    ∀ x : Pedigree, ∃ a, Pedigree.validate E v x = .ok a
  | ⟨ancestors, descendants, variants, commits, patches, notes⟩ =>
    pedigree_total_of (Component.totalOption E v ancestors) (Component.totalOption E v descendants)
      (Component.totalOption E v variants)
termination_by structural x => x

theorem Component.totalOption (E : VEnv) (v : SpecVersion) :
    ∀ (x : Option (List Component)) l, x = some l → ∀ c ∈ l, ∃ a, Component.validate E v c = .ok a
  | none, _, h => nomatch h
  | some q, _, h => Option.some.inj h ▸ Component.totalList E v q
termination_by structural x => x

theorem Component.totalList (E : VEnv) (v : SpecVersion) :
    ∀ (x : List Component), ∀ c ∈ x, ∃ a, Component.validate E v c = .ok a
  | [], _, h => nomatch h
  | d :: ds, c, h => by
    rcases List.mem_cons.mp h with e | h
    · rw [e]; exact Component.total E v d
    · exact Component.totalList E v ds c h
termination_by structural x => x

end

instance (E : VEnv) (v : SpecVersion) : IsTotal (Component.validate E v) := ⟨Component.total E v⟩

instance (E : VEnv) (v : SpecVersion) : IsTotal (Pedigree.validate E v) := ⟨Pedigree.total E v⟩

theorem Components.good (E : VEnv) (v : SpecVersion) (x : List Component) :
    GoodV (Components.validate E v x) (∀ y ∈ x, Component.validate E v y = .ok []) := by
  unfold Components.validate
  apply GoodV.congr
  apply goodV_chain
  case h => good_steps
  case nd => simp only [List.map]; decide
  good_simp

instance (E : VEnv) (v : SpecVersion) : IsTotal (Components.validate E v) := ⟨fun x => (Components.good E v x).1⟩

theorem Components.passes (E : VEnv) (v : SpecVersion) (x : List Component) :
    Components.validate E v x = .ok [] ↔ ∀ y ∈ x, Component.validate E v y = .ok [] := (Components.good E v x).2

theorem Pedigree.good (E : VEnv) (v : SpecVersion) (x : Pedigree) :
    GoodV (Pedigree.validate E v x) (∀ p ∈ (Elem.pedigree x).checked, p.Passes E v) := by
  rw [Pedigree.validate_eq]
  apply GoodV.congr
  apply goodV_chain
  case h => good_steps
  case nd => simp only [List.map]; decide
  good_simp
  try simp only [Properties.passes, Hashes.passes, ExternalReferences.passes, Commits.passes, Patches.passes, Datasets.passes, MLParameters.passes, PerformanceMetric.passes, PerformanceMetrics.passes, Considerations.passes, Occurrences.passes, Frames.passes, CopyrightTexts.passes, Components.passes]

theorem Component.good (E : VEnv) (v : SpecVersion) (x : Component) :
    GoodV (Component.validate E v x) (∀ p ∈ (Elem.component x).checked, p.Passes E v) := by
  rw [Component.validate_eq]
  apply GoodV.congr
  apply goodV_chain
  case h => good_steps
  case nd => simp only [List.map]; decide
  good_simp
  try simp only [Properties.passes, Hashes.passes, ExternalReferences.passes, Commits.passes, Patches.passes, Datasets.passes, MLParameters.passes, PerformanceMetric.passes, PerformanceMetrics.passes, Considerations.passes, Occurrences.passes, Frames.passes, CopyrightTexts.passes, Components.passes]

theorem DataClassification.good (E : VEnv) (v : SpecVersion) (x : DataClassification) :
    GoodV (DataClassification.validate E v x) (∀ p ∈ (Elem.dataClassification x).checked, p.Passes E v) := by
  unfold DataClassification.validate
  apply GoodV.congr
  apply goodV_chain
  case h => good_steps
  case nd => simp only [List.map]; decide
  good_simp
  try simp only [Properties.passes, Hashes.passes, ExternalReferences.passes, Commits.passes, Patches.passes, Datasets.passes, MLParameters.passes, PerformanceMetric.passes, PerformanceMetrics.passes, Considerations.passes, Occurrences.passes, Frames.passes, CopyrightTexts.passes, Components.passes]
  try grind

instance (E : VEnv) (v : SpecVersion) : IsTotal (DataClassification.validate E v) := ⟨fun x => (DataClassification.good E v x).1⟩

theorem ServiceData.good (E : VEnv) (v : SpecVersion) (x : ServiceData) :
    GoodV (ServiceData.validate E v x) (∀ p ∈ (Elem.serviceData x).checked, p.Passes E v) := by
  unfold ServiceData.validate
  apply GoodV.congr
  apply goodV_chain
  case h => good_steps
  case nd => simp only [List.map]; decide
  good_simp
  try simp only [Properties.passes, Hashes.passes, ExternalReferences.passes, Commits.passes, Patches.passes, Datasets.passes, MLParameters.passes, PerformanceMetric.passes, PerformanceMetrics.passes, Considerations.passes, Occurrences.passes, Frames.passes, CopyrightTexts.passes, Components.passes]
  try grind

instance (E : VEnv) (v : SpecVersion) : IsTotal (ServiceData.validate E v) := ⟨fun x => (ServiceData.good E v x).1⟩

theorem ServiceDataChoice.good (E : VEnv) (v : SpecVersion) (x : ServiceDataChoice) :
    GoodV (ServiceDataChoice.validate E v x) (∀ p ∈ (Elem.serviceDataChoice x).checked, p.Passes E v) := by
  cases x with
  | serviceData l =>
    unfold ServiceDataChoice.validate
    apply GoodV.congr
    · apply goodV_chain
      case h => good_steps
      case nd => simp only [List.map]; decide
    · good_simp
      show _ ↔ ∀ p ∈ l.map Elem.serviceData, _
      good_simp
  | classification l =>
    unfold ServiceDataChoice.validate
    apply GoodV.congr
    · apply goodV_chain
      case h => good_steps
      case nd => simp only [List.map]; decide
    · good_simp
      show _ ↔ ∀ p ∈ l.map Elem.dataClassification, _
      good_simp

instance (E : VEnv) (v : SpecVersion) : IsTotal (ServiceDataChoice.validate E v) := ⟨fun x => (ServiceDataChoice.good E v x).1⟩

/-! ## Services -/

theorem Services.validateEach_eq (E : VEnv) (v : SpecVersion) (cs : List Service) :
    Services.validateEach E v cs = cs.mapM (Service.validate E v) := by
  induction cs with
  | nil => rfl
  | cons c cs ih =>
    rw [List.mapM_cons, ← ih]
    rfl

theorem Services.validateOption_eq (E : VEnv) (v : SpecVersion) (cs : Option (List Service)) :
    Services.validateOption E v cs = cs.map (Services.validate E v) := by
  cases cs with
  | none => rfl
  | some cs =>
    show some (chain [addListResults "inner" (Services.validateEach E v cs)]) = _
    rw [Services.validateEach_eq]
    rfl

theorem Service.validate_eq (E : VEnv) (v : SpecVersion) (x : Service) :
    Service.validate E v x = chain [
      addStructOption "provider" x.provider (OrganizationalEntity.validate E v),
      addFieldOption "group" x.group validateNormalizedString,
      addField "name" x.name validateNormalizedString,
      addFieldOption "version" x.version validateNormalizedString,
      addFieldOption "description" x.description validateNormalizedString,
      addListOption "endpoints" x.endpoints (fun y => .ok (.ofCheck (validateUri E y))),
      addStructOption "data" x.data (ServiceDataChoice.validate E v),
      addStructOption "licenses" x.licenses (Licenses.validate E v),
      addStructOption "external_references" x.externalReferences (ExternalReferences.validate E v),
      addStructOption "properties" x.properties (Properties.validate E v),
      addStructOption "services" x.services (Services.validate E v),
      addFieldOption "trust_zone" x.trustZone validateNormalizedString] := by
  obtain ⟨⟩ := x
  rw [Service.validate, Services.validateOption_eq, addStructOptionResult_map]

theorem service_total_of {E : VEnv} {v : SpecVersion} {x : Service}
    (hc : ∀ l, x.services = some l → ∀ c ∈ l, ∃ a, Service.validate E v c = .ok a) :
    ∃ a, Service.validate E v x = .ok a := by
  rw [Service.validate_eq]
  suffices h : ∃ P, GoodV _ P from h.choose_spec.1
  apply Exists.intro
  apply goodV_chain
  case h =>
    repeat' (first
      | exact All₂.nil
      | apply goodCons
      | exact good_fieldOption _ _ _
      | exact good_field _ _ _
      | exact good_listOption'
      | exact good_structOption'
      | exact good_structOption_mem fun l hl => list_validate_total (hc l hl))
  case nd => simp only [List.map]; decide

mutual

theorem Service.total (E : VEnv) (v : SpecVersion) :
    ∀ x : Service, ∃ a, Service.validate E v x = .ok a
  | ⟨bomRef, provider, group, name, version, description, endpoints, authenticated,
      xTrustBoundary, data, licenses, externalReferences, properties, services, signature,
      trustZone⟩ =>
    service_total_of (Service.totalOption E v services)
termination_by structural x => x

theorem Service.totalOption (E : VEnv) (v : SpecVersion) :
    ∀ (x : Option (List Service)) l, x = some l → ∀ c ∈ l, ∃ a, Service.validate E v c = .ok a
  | none, _, h => nomatch h
  | some q, _, h => Option.some.inj h ▸ Service.totalList E v q
termination_by structural x => x

theorem Service.totalList (E : VEnv) (v : SpecVersion) :
    ∀ (x : List Service), ∀ c ∈ x, ∃ a, Service.validate E v c = .ok a
  | [], _, h => nomatch h
  | d :: ds, c, h => by
    rcases List.mem_cons.mp h with e | h
    · rw [e]; exact Service.total E v d
    · exact Service.totalList E v ds c h
termination_by structural x => x

end

instance (E : VEnv) (v : SpecVersion) : IsTotal (Service.validate E v) := ⟨Service.total E v⟩

theorem Services.good (E : VEnv) (v : SpecVersion) (x : List Service) :
    GoodV (Services.validate E v x) (∀ y ∈ x, Service.validate E v y = .ok []) := by
  unfold Services.validate
  apply GoodV.congr
  apply goodV_chain
  case h => good_steps
  case nd => simp only [List.map]; decide
  good_simp

instance (E : VEnv) (v : SpecVersion) : IsTotal (Services.validate E v) := ⟨fun x => (Services.good E v x).1⟩

theorem Services.passes (E : VEnv) (v : SpecVersion) (x : List Service) :
    Services.validate E v x = .ok [] ↔ ∀ y ∈ x, Service.validate E v y = .ok [] := (Services.good E v x).2

theorem Service.good (E : VEnv) (v : SpecVersion) (x : Service) :
    GoodV (Service.validate E v x) (∀ p ∈ (Elem.service x).checked, p.Passes E v) := by
  rw [Service.validate_eq]
  apply GoodV.congr
  apply goodV_chain
  case h => good_steps
  case nd => simp only [List.map]; decide
  good_simp
  try simp only [Properties.passes, Hashes.passes, ExternalReferences.passes, Commits.passes, Patches.passes, Datasets.passes, MLParameters.passes, PerformanceMetric.passes, PerformanceMetrics.passes, Considerations.passes, Occurrences.passes, Frames.passes, CopyrightTexts.passes, Components.passes, Services.passes]

theorem Tool.good (E : VEnv) (v : SpecVersion) (x : Tool) :
    GoodV (Tool.validate E v x) (∀ p ∈ (Elem.tool x).checked, p.Passes E v) := by
  unfold Tool.validate
  apply GoodV.congr
  apply goodV_chain
  case h => good_steps
  case nd => simp only [List.map]; decide
  good_simp
  try simp only [Properties.passes, Hashes.passes, ExternalReferences.passes, Commits.passes, Patches.passes, Datasets.passes, MLParameters.passes, PerformanceMetric.passes, PerformanceMetrics.passes, Considerations.passes, Occurrences.passes, Frames.passes, CopyrightTexts.passes, Components.passes, Services.passes]
  try grind

instance (E : VEnv) (v : SpecVersion) : IsTotal (Tool.validate E v) := ⟨fun x => (Tool.good E v x).1⟩

theorem Tools.good (E : VEnv) (v : SpecVersion) (x : Tools) :
    GoodV (Tools.validate E v x)
      ((Elem.tools x).rule E v ∧ ∀ p ∈ (Elem.tools x).checked, p.Passes E v) := by
  elem_simp
  have hv : v.le .v1_4 = false ↔ v = .v1_5 := by cases v <;> decide
  cases x with
  | list l =>
    have : Tools.validate E v (.list l) = chain [addList "inner" l (Tool.validate E v)] := by
      unfold Tools.validate
      cases v.le .v1_4 <;> rfl
    rw [this]
    refine (goodV_chain _ (goodCons good_list' .nil) (by simp)).congr ?_
    show _ ↔ _ ∧ ∀ p ∈ l.map Elem.tool, _
    good_simp
    simp
  | object ss cs =>
    unfold Tools.validate
    show GoodV _ (_ ∧ ∀ p ∈ many Elem.service ss ++ many Elem.component cs, _)
    cases h : v.le .v1_4 with
    | true =>
      simp only
      refine (goodV_chain _ (goodCons (good_custom _ _) .nil) (by simp)).congr ?_
      have : v ≠ .v1_5 := fun e => by rw [hv.mpr e] at h; simp at h
      simp [this]
    | false =>
      simp only
      refine (goodV_chain _ (goodCons good_structOption' (goodCons good_structOption' .nil))
        (by simp)).congr ?_
      good_simp
      simp only [Components.passes, Services.passes, hv.mp h, true_or, true_and]
      exact and_comm

instance (E : VEnv) (v : SpecVersion) : IsTotal (Tools.validate E v) :=
  ⟨fun x => (Tools.good E v x).1⟩

theorem Metadata.good (E : VEnv) (v : SpecVersion) (x : Metadata) :
    GoodV (Metadata.validate E v x) (∀ p ∈ (Elem.metadata x).checked, p.Passes E v) := by
  unfold Metadata.validate
  apply GoodV.congr
  apply goodV_chain
  case h => good_steps
  case nd => simp only [List.map]; decide
  good_simp
  try simp only [Properties.passes, Hashes.passes, ExternalReferences.passes, Commits.passes, Patches.passes, Datasets.passes, MLParameters.passes, PerformanceMetric.passes, PerformanceMetrics.passes, Considerations.passes, Occurrences.passes, Frames.passes, CopyrightTexts.passes, Components.passes, Services.passes]
  try grind

instance (E : VEnv) (v : SpecVersion) : IsTotal (Metadata.validate E v) := ⟨fun x => (Metadata.good E v x).1⟩

theorem Composition.good (E : VEnv) (v : SpecVersion) (x : Composition) :
    GoodV (Composition.validate E v x) (∀ p ∈ (Elem.composition x).checked, p.Passes E v) := by
  unfold Composition.validate
  apply GoodV.congr
  apply goodV_chain
  case h => good_steps
  case nd => simp only [List.map]; decide
  good_simp
  try simp only [Properties.passes, Hashes.passes, ExternalReferences.passes, Commits.passes, Patches.passes, Datasets.passes, MLParameters.passes, PerformanceMetric.passes, PerformanceMetrics.passes, Considerations.passes, Occurrences.passes, Frames.passes, CopyrightTexts.passes, Components.passes, Services.passes]
  try grind

instance (E : VEnv) (v : SpecVersion) : IsTotal (Composition.validate E v) := ⟨fun x => (Composition.good E v x).1⟩

theorem Compositions.good (E : VEnv) (v : SpecVersion) (x : List Composition) :
    GoodV (Compositions.validate E v x) (∀ y ∈ x, Composition.validate E v y = .ok []) := by
  unfold Compositions.validate
  apply GoodV.congr
  apply goodV_chain
  case h => good_steps
  case nd => simp only [List.map]; decide
  good_simp

instance (E : VEnv) (v : SpecVersion) : IsTotal (Compositions.validate E v) := ⟨fun x => (Compositions.good E v x).1⟩

theorem Compositions.passes (E : VEnv) (v : SpecVersion) (x : List Composition) :
    Compositions.validate E v x = .ok [] ↔ ∀ y ∈ x, Composition.validate E v y = .ok [] := (Compositions.good E v x).2

theorem Advisory.good (E : VEnv) (v : SpecVersion) (x : Advisory) :
    GoodV (Advisory.validate E v x) (∀ p ∈ (Elem.advisory x).checked, p.Passes E v) := by
  unfold Advisory.validate
  apply GoodV.congr
  apply goodV_chain
  case h => good_steps
  case nd => simp only [List.map]; decide
  good_simp
  try simp only [Properties.passes, Hashes.passes, ExternalReferences.passes, Commits.passes, Patches.passes, Datasets.passes, MLParameters.passes, PerformanceMetric.passes, PerformanceMetrics.passes, Considerations.passes, Occurrences.passes, Frames.passes, CopyrightTexts.passes, Components.passes, Services.passes, Compositions.passes]
  try grind

instance (E : VEnv) (v : SpecVersion) : IsTotal (Advisory.validate E v) := ⟨fun x => (Advisory.good E v x).1⟩

theorem Advisories.good (E : VEnv) (v : SpecVersion) (x : List Advisory) :
    GoodV (Advisories.validate E v x) (∀ y ∈ x, Advisory.validate E v y = .ok []) := by
  unfold Advisories.validate
  apply GoodV.congr
  apply goodV_chain
  case h => good_steps
  case nd => simp only [List.map]; decide
  good_simp

instance (E : VEnv) (v : SpecVersion) : IsTotal (Advisories.validate E v) := ⟨fun x => (Advisories.good E v x).1⟩

theorem Advisories.passes (E : VEnv) (v : SpecVersion) (x : List Advisory) :
    Advisories.validate E v x = .ok [] ↔ ∀ y ∈ x, Advisory.validate E v y = .ok [] := (Advisories.good E v x).2

theorem VulnerabilitySource.good (E : VEnv) (v : SpecVersion) (x : VulnerabilitySource) :
    GoodV (VulnerabilitySource.validate E v x) (∀ p ∈ (Elem.vulnerabilitySource x).checked, p.Passes E v) := by
  unfold VulnerabilitySource.validate
  apply GoodV.congr
  apply goodV_chain
  case h => good_steps
  case nd => simp only [List.map]; decide
  good_simp
  try simp only [Properties.passes, Hashes.passes, ExternalReferences.passes, Commits.passes, Patches.passes, Datasets.passes, MLParameters.passes, PerformanceMetric.passes, PerformanceMetrics.passes, Considerations.passes, Occurrences.passes, Frames.passes, CopyrightTexts.passes, Components.passes, Services.passes, Compositions.passes, Advisories.passes]
  try grind

instance (E : VEnv) (v : SpecVersion) : IsTotal (VulnerabilitySource.validate E v) := ⟨fun x => (VulnerabilitySource.good E v x).1⟩

theorem VulnerabilityReference.good (E : VEnv) (v : SpecVersion) (x : VulnerabilityReference) :
    GoodV (VulnerabilityReference.validate E v x) (∀ p ∈ (Elem.vulnerabilityReference x).checked, p.Passes E v) := by
  unfold VulnerabilityReference.validate
  apply GoodV.congr
  apply goodV_chain
  case h => good_steps
  case nd => simp only [List.map]; decide
  good_simp
  try simp only [Properties.passes, Hashes.passes, ExternalReferences.passes, Commits.passes, Patches.passes, Datasets.passes, MLParameters.passes, PerformanceMetric.passes, PerformanceMetrics.passes, Considerations.passes, Occurrences.passes, Frames.passes, CopyrightTexts.passes, Components.passes, Services.passes, Compositions.passes, Advisories.passes]
  try grind

instance (E : VEnv) (v : SpecVersion) : IsTotal (VulnerabilityReference.validate E v) := ⟨fun x => (VulnerabilityReference.good E v x).1⟩

theorem VulnerabilityReferences.good (E : VEnv) (v : SpecVersion) (x : List VulnerabilityReference) :
    GoodV (VulnerabilityReferences.validate E v x) (∀ y ∈ x, VulnerabilityReference.validate E v y = .ok []) := by
  unfold VulnerabilityReferences.validate
  apply GoodV.congr
  apply goodV_chain
  case h => good_steps
  case nd => simp only [List.map]; decide
  good_simp

instance (E : VEnv) (v : SpecVersion) : IsTotal (VulnerabilityReferences.validate E v) := ⟨fun x => (VulnerabilityReferences.good E v x).1⟩

theorem VulnerabilityReferences.passes (E : VEnv) (v : SpecVersion) (x : List VulnerabilityReference) :
    VulnerabilityReferences.validate E v x = .ok [] ↔ ∀ y ∈ x, VulnerabilityReference.validate E v y = .ok [] := (VulnerabilityReferences.good E v x).2

theorem VulnerabilityRating.good (E : VEnv) (v : SpecVersion) (x : VulnerabilityRating) :
    GoodV (VulnerabilityRating.validate E v x) (∀ p ∈ (Elem.vulnerabilityRating x).checked, p.Passes E v) := by
  unfold VulnerabilityRating.validate
  apply GoodV.congr
  apply goodV_chain
  case h => good_steps
  case nd => simp only [List.map]; decide
  good_simp
  try simp only [Properties.passes, Hashes.passes, ExternalReferences.passes, Commits.passes, Patches.passes, Datasets.passes, MLParameters.passes, PerformanceMetric.passes, PerformanceMetrics.passes, Considerations.passes, Occurrences.passes, Frames.passes, CopyrightTexts.passes, Components.passes, Services.passes, Compositions.passes, Advisories.passes, VulnerabilityReferences.passes]
  try grind

instance (E : VEnv) (v : SpecVersion) : IsTotal (VulnerabilityRating.validate E v) := ⟨fun x => (VulnerabilityRating.good E v x).1⟩

theorem VulnerabilityRatings.good (E : VEnv) (v : SpecVersion) (x : List VulnerabilityRating) :
    GoodV (VulnerabilityRatings.validate E v x) (∀ y ∈ x, VulnerabilityRating.validate E v y = .ok []) := by
  unfold VulnerabilityRatings.validate
  apply GoodV.congr
  apply goodV_chain
  case h => good_steps
  case nd => simp only [List.map]; decide
  good_simp

instance (E : VEnv) (v : SpecVersion) : IsTotal (VulnerabilityRatings.validate E v) := ⟨fun x => (VulnerabilityRatings.good E v x).1⟩

theorem VulnerabilityRatings.passes (E : VEnv) (v : SpecVersion) (x : List VulnerabilityRating) :
    VulnerabilityRatings.validate E v x = .ok [] ↔ ∀ y ∈ x, VulnerabilityRating.validate E v y = .ok [] := (VulnerabilityRatings.good E v x).2

theorem VulnerabilityCredits.good (E : VEnv) (v : SpecVersion) (x : VulnerabilityCredits) :
    GoodV (VulnerabilityCredits.validate E v x) (∀ p ∈ (Elem.vulnerabilityCredits x).checked, p.Passes E v) := by
  unfold VulnerabilityCredits.validate
  apply GoodV.congr
  apply goodV_chain
  case h => good_steps
  case nd => simp only [List.map]; decide
  good_simp
  try simp only [Properties.passes, Hashes.passes, ExternalReferences.passes, Commits.passes, Patches.passes, Datasets.passes, MLParameters.passes, PerformanceMetric.passes, PerformanceMetrics.passes, Considerations.passes, Occurrences.passes, Frames.passes, CopyrightTexts.passes, Components.passes, Services.passes, Compositions.passes, Advisories.passes, VulnerabilityReferences.passes, VulnerabilityRatings.passes]
  try grind

instance (E : VEnv) (v : SpecVersion) : IsTotal (VulnerabilityCredits.validate E v) := ⟨fun x => (VulnerabilityCredits.good E v x).1⟩

theorem VulnerabilityAnalysis.good (E : VEnv) (v : SpecVersion) (x : VulnerabilityAnalysis) :
    GoodV (VulnerabilityAnalysis.validate E v x) (∀ p ∈ (Elem.vulnerabilityAnalysis x).checked, p.Passes E v) := by
  unfold VulnerabilityAnalysis.validate
  apply GoodV.congr
  apply goodV_chain
  case h => good_steps
  case nd => simp only [List.map]; decide
  good_simp
  try simp only [Properties.passes, Hashes.passes, ExternalReferences.passes, Commits.passes, Patches.passes, Datasets.passes, MLParameters.passes, PerformanceMetric.passes, PerformanceMetrics.passes, Considerations.passes, Occurrences.passes, Frames.passes, CopyrightTexts.passes, Components.passes, Services.passes, Compositions.passes, Advisories.passes, VulnerabilityReferences.passes, VulnerabilityRatings.passes]
  try grind

instance (E : VEnv) (v : SpecVersion) : IsTotal (VulnerabilityAnalysis.validate E v) := ⟨fun x => (VulnerabilityAnalysis.good E v x).1⟩

theorem TargetVersion.good (E : VEnv) (v : SpecVersion) (x : TargetVersion) :
    GoodV (TargetVersion.validate E v x) (∀ p ∈ (Elem.targetVersion x).checked, p.Passes E v) := by
  unfold TargetVersion.validate
  apply GoodV.congr
  apply goodV_chain
  case h => good_steps
  case nd => simp only [List.map]; decide
  good_simp
  try simp only [Properties.passes, Hashes.passes, ExternalReferences.passes, Commits.passes, Patches.passes, Datasets.passes, MLParameters.passes, PerformanceMetric.passes, PerformanceMetrics.passes, Considerations.passes, Occurrences.passes, Frames.passes, CopyrightTexts.passes, Components.passes, Services.passes, Compositions.passes, Advisories.passes, VulnerabilityReferences.passes, VulnerabilityRatings.passes]
  try grind

instance (E : VEnv) (v : SpecVersion) : IsTotal (TargetVersion.validate E v) := ⟨fun x => (TargetVersion.good E v x).1⟩

theorem TargetVersions.good (E : VEnv) (v : SpecVersion) (x : List TargetVersion) :
    GoodV (TargetVersions.validate E v x) (∀ y ∈ x, TargetVersion.validate E v y = .ok []) := by
  unfold TargetVersions.validate
  apply GoodV.congr
  apply goodV_chain
  case h => good_steps
  case nd => simp only [List.map]; decide
  good_simp

instance (E : VEnv) (v : SpecVersion) : IsTotal (TargetVersions.validate E v) := ⟨fun x => (TargetVersions.good E v x).1⟩

theorem TargetVersions.passes (E : VEnv) (v : SpecVersion) (x : List TargetVersion) :
    TargetVersions.validate E v x = .ok [] ↔ ∀ y ∈ x, TargetVersion.validate E v y = .ok [] := (TargetVersions.good E v x).2

theorem VulnerabilityTarget.good (E : VEnv) (v : SpecVersion) (x : VulnerabilityTarget) :
    GoodV (VulnerabilityTarget.validate E v x) (∀ p ∈ (Elem.vulnerabilityTarget x).checked, p.Passes E v) := by
  unfold VulnerabilityTarget.validate
  apply GoodV.congr
  apply goodV_chain
  case h => good_steps
  case nd => simp only [List.map]; decide
  good_simp
  try simp only [Properties.passes, Hashes.passes, ExternalReferences.passes, Commits.passes, Patches.passes, Datasets.passes, MLParameters.passes, PerformanceMetric.passes, PerformanceMetrics.passes, Considerations.passes, Occurrences.passes, Frames.passes, CopyrightTexts.passes, Components.passes, Services.passes, Compositions.passes, Advisories.passes, VulnerabilityReferences.passes, VulnerabilityRatings.passes, TargetVersions.passes]
  try grind

instance (E : VEnv) (v : SpecVersion) : IsTotal (VulnerabilityTarget.validate E v) := ⟨fun x => (VulnerabilityTarget.good E v x).1⟩

theorem VulnerabilityTargets.good (E : VEnv) (v : SpecVersion) (x : List VulnerabilityTarget) :
    GoodV (VulnerabilityTargets.validate E v x) (∀ y ∈ x, VulnerabilityTarget.validate E v y = .ok []) := by
  unfold VulnerabilityTargets.validate
  apply GoodV.congr
  apply goodV_chain
  case h => good_steps
  case nd => simp only [List.map]; decide
  good_simp

instance (E : VEnv) (v : SpecVersion) : IsTotal (VulnerabilityTargets.validate E v) := ⟨fun x => (VulnerabilityTargets.good E v x).1⟩

theorem VulnerabilityTargets.passes (E : VEnv) (v : SpecVersion) (x : List VulnerabilityTarget) :
    VulnerabilityTargets.validate E v x = .ok [] ↔ ∀ y ∈ x, VulnerabilityTarget.validate E v y = .ok [] := (VulnerabilityTargets.good E v x).2

theorem Vulnerability.good (E : VEnv) (v : SpecVersion) (x : Vulnerability) :
    GoodV (Vulnerability.validate E v x) (∀ p ∈ (Elem.vulnerability x).checked, p.Passes E v) := by
  unfold Vulnerability.validate
  apply GoodV.congr
  apply goodV_chain
  case h => good_steps
  case nd => simp only [List.map]; decide
  good_simp
  try simp only [Properties.passes, Hashes.passes, ExternalReferences.passes, Commits.passes, Patches.passes, Datasets.passes, MLParameters.passes, PerformanceMetric.passes, PerformanceMetrics.passes, Considerations.passes, Occurrences.passes, Frames.passes, CopyrightTexts.passes, Components.passes, Services.passes, Compositions.passes, Advisories.passes, VulnerabilityReferences.passes, VulnerabilityRatings.passes, TargetVersions.passes, VulnerabilityTargets.passes]
  try grind

instance (E : VEnv) (v : SpecVersion) : IsTotal (Vulnerability.validate E v) := ⟨fun x => (Vulnerability.good E v x).1⟩

theorem Vulnerabilities.good (E : VEnv) (v : SpecVersion) (x : List Vulnerability) :
    GoodV (Vulnerabilities.validate E v x) (∀ y ∈ x, Vulnerability.validate E v y = .ok []) := by
  unfold Vulnerabilities.validate
  apply GoodV.congr
  apply goodV_chain
  case h => good_steps
  case nd => simp only [List.map]; decide
  good_simp

instance (E : VEnv) (v : SpecVersion) : IsTotal (Vulnerabilities.validate E v) := ⟨fun x => (Vulnerabilities.good E v x).1⟩

theorem Vulnerabilities.passes (E : VEnv) (v : SpecVersion) (x : List Vulnerability) :
    Vulnerabilities.validate E v x = .ok [] ↔ ∀ y ∈ x, Vulnerability.validate E v y = .ok [] := (Vulnerabilities.good E v x).2

theorem Annotator.good (E : VEnv) (v : SpecVersion) (x : Annotator) :
    GoodV (Annotator.validate E v x) (∀ p ∈ (Elem.annotator x).checked, p.Passes E v) := by
  cases x with
  | organization o =>
    unfold Annotator.validate
    apply GoodV.congr
    · apply goodV_chain
      case h => good_steps
      case nd => simp only [List.map]; decide
    · good_simp
      show _ ↔ ∀ p ∈ [Elem.organizationalEntity o], _
      good_simp
  | individual c =>
    unfold Annotator.validate
    apply GoodV.congr
    · apply goodV_chain
      case h => good_steps
      case nd => simp only [List.map]; decide
    · good_simp
      show _ ↔ ∀ p ∈ [Elem.organizationalContact c], _
      good_simp
  | component c =>
    unfold Annotator.validate
    apply GoodV.congr
    · apply goodV_chain
      case h => good_steps
      case nd => simp only [List.map]; decide
    · good_simp
      show _ ↔ ∀ p ∈ [Elem.component c], _
      good_simp
  | service s =>
    unfold Annotator.validate
    apply GoodV.congr
    · apply goodV_chain
      case h => good_steps
      case nd => simp only [List.map]; decide
    · good_simp
      show _ ↔ ∀ p ∈ [Elem.service s], _
      good_simp

instance (E : VEnv) (v : SpecVersion) : IsTotal (Annotator.validate E v) := ⟨fun x => (Annotator.good E v x).1⟩

theorem Annotation.good (E : VEnv) (v : SpecVersion) (x : Annotation) :
    GoodV (Annotation.validate E v x) (∀ p ∈ (Elem.annotation x).checked, p.Passes E v) := by
  unfold Annotation.validate
  apply GoodV.congr
  apply goodV_chain
  case h => good_steps
  case nd => simp only [List.map]; decide
  good_simp
  try simp only [Properties.passes, Hashes.passes, ExternalReferences.passes, Commits.passes, Patches.passes, Datasets.passes, MLParameters.passes, PerformanceMetric.passes, PerformanceMetrics.passes, Considerations.passes, Occurrences.passes, Frames.passes, CopyrightTexts.passes, Components.passes, Services.passes, Compositions.passes, Advisories.passes, VulnerabilityReferences.passes, VulnerabilityRatings.passes, TargetVersions.passes, VulnerabilityTargets.passes, Vulnerabilities.passes]
  try grind

instance (E : VEnv) (v : SpecVersion) : IsTotal (Annotation.validate E v) := ⟨fun x => (Annotation.good E v x).1⟩

theorem Annotations.good (E : VEnv) (v : SpecVersion) (x : List Annotation) :
    GoodV (Annotations.validate E v x) (∀ y ∈ x, Annotation.validate E v y = .ok []) := by
  unfold Annotations.validate
  apply GoodV.congr
  apply goodV_chain
  case h => good_steps
  case nd => simp only [List.map]; decide
  good_simp

instance (E : VEnv) (v : SpecVersion) : IsTotal (Annotations.validate E v) := ⟨fun x => (Annotations.good E v x).1⟩

theorem Annotations.passes (E : VEnv) (v : SpecVersion) (x : List Annotation) :
    Annotations.validate E v x = .ok [] ↔ ∀ y ∈ x, Annotation.validate E v y = .ok [] := (Annotations.good E v x).2

theorem ResourceReference.good (E : VEnv) (v : SpecVersion) (x : ResourceReference) :
    GoodV (ResourceReference.validate E v x) (∀ p ∈ (Elem.resourceReference x).checked, p.Passes E v) := by
  cases x with
  | ref r =>
    unfold ResourceReference.validate
    apply GoodV.congr
    · apply goodV_chain
      case h => good_steps
      case nd => simp only [List.map]; decide
    · good_simp
      show _ ↔ ∀ p ∈ ([] : List Elem), _
      good_simp
  | externalReference e =>
    unfold ResourceReference.validate
    apply GoodV.congr
    · apply goodV_chain
      case h => good_steps
      case nd => simp only [List.map]; decide
    · good_simp
      show _ ↔ ∀ p ∈ [Elem.externalReference e], _
      good_simp

instance (E : VEnv) (v : SpecVersion) : IsTotal (ResourceReference.validate E v) := ⟨fun x => (ResourceReference.good E v x).1⟩

theorem TaskType.passes (E : VEnv) (v : SpecVersion) (x : TaskType) :
    TaskType.validate E v x = .ok [] ↔ validateTaskType x = .ok () := ofCheck_ok _

instance (E : VEnv) (v : SpecVersion) : IsTotal (TaskType.validate E v) := ⟨fun x => ⟨_, rfl⟩⟩

theorem OutputType.passes (E : VEnv) (v : SpecVersion) (x : OutputType) :
    OutputType.validate E v x = .ok [] ↔ validateOutputType x = .ok () := ofCheck_ok _

instance (E : VEnv) (v : SpecVersion) : IsTotal (OutputType.validate E v) := ⟨fun x => ⟨_, rfl⟩⟩

theorem TriggerType.passes (E : VEnv) (v : SpecVersion) (x : TriggerType) :
    TriggerType.validate E v x = .ok [] ↔ validateTriggerType x = .ok () := ofCheck_ok _

instance (E : VEnv) (v : SpecVersion) : IsTotal (TriggerType.validate E v) := ⟨fun x => ⟨_, rfl⟩⟩

theorem Input.good (E : VEnv) (v : SpecVersion) (x : Input) :
    GoodV (Input.validate E v x) (∀ p ∈ (Elem.input x).checked, p.Passes E v) := by
  unfold Input.validate
  cases hr : x.required with
  | resource r =>
    refine (goodV_chain _ (goodCons good_struct' (goodCons good_structOption' (goodCons good_structOption' (goodCons good_structOption' .nil))))
      (by simp only [List.map]; decide)).congr ?_
    elem_simp
    rw [hr]
    simp only [inputParts]
    good_simp
    try simp only [Properties.passes, OutputType.passes]
  | parameters p =>
    refine (goodV_chain _ (goodCons (good_ok "x") (goodCons good_structOption' (goodCons good_structOption' (goodCons good_structOption' .nil))))
      (by simp only [List.map]; decide)).congr ?_
    elem_simp
    rw [hr]
    simp only [inputParts]
    good_simp
    try simp only [Properties.passes, OutputType.passes]
  | environmentVars e =>
    refine (goodV_chain _ (goodCons (good_ok "x") (goodCons good_structOption' (goodCons good_structOption' (goodCons good_structOption' .nil))))
      (by simp only [List.map]; decide)).congr ?_
    elem_simp
    rw [hr]
    simp only [inputParts]
    good_simp
    try simp only [Properties.passes, OutputType.passes]
  | data a =>
    refine (goodV_chain _ (goodCons good_struct' (goodCons good_structOption' (goodCons good_structOption' (goodCons good_structOption' .nil))))
      (by simp only [List.map]; decide)).congr ?_
    elem_simp
    rw [hr]
    simp only [inputParts]
    good_simp
    try simp only [Properties.passes, OutputType.passes]

instance (E : VEnv) (v : SpecVersion) : IsTotal (Input.validate E v) := ⟨fun x => (Input.good E v x).1⟩

theorem Output.good (E : VEnv) (v : SpecVersion) (x : Output) :
    GoodV (Output.validate E v x) (∀ p ∈ (Elem.output x).checked, p.Passes E v) := by
  unfold Output.validate
  cases hr : x.required with
  | resource r =>
    refine (goodV_chain _ (goodCons good_struct' (goodCons good_structOption' (goodCons good_structOption' (goodCons good_structOption' (goodCons good_structOption' .nil)))))
      (by simp only [List.map]; decide)).congr ?_
    elem_simp
    rw [hr]
    simp only [outputParts]
    good_simp
    try simp only [Properties.passes, OutputType.passes]
  | environmentVars e =>
    refine (goodV_chain _ (goodCons (good_ok "x") (goodCons good_structOption' (goodCons good_structOption' (goodCons good_structOption' (goodCons good_structOption' .nil)))))
      (by simp only [List.map]; decide)).congr ?_
    elem_simp
    rw [hr]
    simp only [outputParts]
    good_simp
    try simp only [Properties.passes, OutputType.passes]
  | data a =>
    refine (goodV_chain _ (goodCons good_struct' (goodCons good_structOption' (goodCons good_structOption' (goodCons good_structOption' (goodCons good_structOption' .nil)))))
      (by simp only [List.map]; decide)).congr ?_
    elem_simp
    rw [hr]
    simp only [outputParts]
    good_simp
    try simp only [Properties.passes, OutputType.passes]

instance (E : VEnv) (v : SpecVersion) : IsTotal (Output.validate E v) := ⟨fun x => (Output.good E v x).1⟩

theorem Command.good (E : VEnv) (v : SpecVersion) (x : Command) :
    GoodV (Command.validate E v x) (∀ p ∈ (Elem.command x).checked, p.Passes E v) := by
  unfold Command.validate
  apply GoodV.congr
  apply goodV_chain
  case h => good_steps
  case nd => simp only [List.map]; decide
  good_simp
  try simp only [Properties.passes, Hashes.passes, ExternalReferences.passes, Commits.passes, Patches.passes, Datasets.passes, MLParameters.passes, PerformanceMetric.passes, PerformanceMetrics.passes, Considerations.passes, Occurrences.passes, Frames.passes, CopyrightTexts.passes, Components.passes, Services.passes, Compositions.passes, Advisories.passes, VulnerabilityReferences.passes, VulnerabilityRatings.passes, TargetVersions.passes, VulnerabilityTargets.passes, Vulnerabilities.passes, Annotations.passes, TaskType.passes, OutputType.passes, TriggerType.passes]
  try grind

instance (E : VEnv) (v : SpecVersion) : IsTotal (Command.validate E v) := ⟨fun x => (Command.good E v x).1⟩

theorem Step.good (E : VEnv) (v : SpecVersion) (x : Step) :
    GoodV (Step.validate E v x) (∀ p ∈ (Elem.step x).checked, p.Passes E v) := by
  unfold Step.validate
  apply GoodV.congr
  apply goodV_chain
  case h => good_steps
  case nd => simp only [List.map]; decide
  good_simp
  try simp only [Properties.passes, Hashes.passes, ExternalReferences.passes, Commits.passes, Patches.passes, Datasets.passes, MLParameters.passes, PerformanceMetric.passes, PerformanceMetrics.passes, Considerations.passes, Occurrences.passes, Frames.passes, CopyrightTexts.passes, Components.passes, Services.passes, Compositions.passes, Advisories.passes, VulnerabilityReferences.passes, VulnerabilityRatings.passes, TargetVersions.passes, VulnerabilityTargets.passes, Vulnerabilities.passes, Annotations.passes, TaskType.passes, OutputType.passes, TriggerType.passes]
  try grind

instance (E : VEnv) (v : SpecVersion) : IsTotal (Step.validate E v) := ⟨fun x => (Step.good E v x).1⟩

theorem TriggerEvent.good (E : VEnv) (v : SpecVersion) (x : TriggerEvent) :
    GoodV (TriggerEvent.validate E v x) (∀ p ∈ (Elem.triggerEvent x).checked, p.Passes E v) := by
  unfold TriggerEvent.validate
  apply GoodV.congr
  apply goodV_chain
  case h => good_steps
  case nd => simp only [List.map]; decide
  good_simp
  try simp only [Properties.passes, Hashes.passes, ExternalReferences.passes, Commits.passes, Patches.passes, Datasets.passes, MLParameters.passes, PerformanceMetric.passes, PerformanceMetrics.passes, Considerations.passes, Occurrences.passes, Frames.passes, CopyrightTexts.passes, Components.passes, Services.passes, Compositions.passes, Advisories.passes, VulnerabilityReferences.passes, VulnerabilityRatings.passes, TargetVersions.passes, VulnerabilityTargets.passes, Vulnerabilities.passes, Annotations.passes, TaskType.passes, OutputType.passes, TriggerType.passes]
  try grind

instance (E : VEnv) (v : SpecVersion) : IsTotal (TriggerEvent.validate E v) := ⟨fun x => (TriggerEvent.good E v x).1⟩

theorem Condition.good (E : VEnv) (v : SpecVersion) (x : Condition) :
    GoodV (Condition.validate E v x) (∀ p ∈ (Elem.condition x).checked, p.Passes E v) := by
  unfold Condition.validate
  apply GoodV.congr
  apply goodV_chain
  case h => good_steps
  case nd => simp only [List.map]; decide
  good_simp
  try simp only [Properties.passes, Hashes.passes, ExternalReferences.passes, Commits.passes, Patches.passes, Datasets.passes, MLParameters.passes, PerformanceMetric.passes, PerformanceMetrics.passes, Considerations.passes, Occurrences.passes, Frames.passes, CopyrightTexts.passes, Components.passes, Services.passes, Compositions.passes, Advisories.passes, VulnerabilityReferences.passes, VulnerabilityRatings.passes, TargetVersions.passes, VulnerabilityTargets.passes, Vulnerabilities.passes, Annotations.passes, TaskType.passes, OutputType.passes, TriggerType.passes]
  try grind

instance (E : VEnv) (v : SpecVersion) : IsTotal (Condition.validate E v) := ⟨fun x => (Condition.good E v x).1⟩

theorem Trigger.good (E : VEnv) (v : SpecVersion) (x : Trigger) :
    GoodV (Trigger.validate E v x) ((Elem.trigger x).rule E v ∧ ∀ p ∈ (Elem.trigger x).checked, p.Passes E v) := by
  unfold Trigger.validate
  apply GoodV.congr
  apply goodV_chain
  case h => good_steps
  case nd => simp only [List.map]; decide
  good_simp
  try simp only [Properties.passes, Hashes.passes, ExternalReferences.passes, Commits.passes, Patches.passes, Datasets.passes, MLParameters.passes, PerformanceMetric.passes, PerformanceMetrics.passes, Considerations.passes, Occurrences.passes, Frames.passes, CopyrightTexts.passes, Components.passes, Services.passes, Compositions.passes, Advisories.passes, VulnerabilityReferences.passes, VulnerabilityRatings.passes, TargetVersions.passes, VulnerabilityTargets.passes, Vulnerabilities.passes, Annotations.passes, TaskType.passes, OutputType.passes, TriggerType.passes]
  try grind

instance (E : VEnv) (v : SpecVersion) : IsTotal (Trigger.validate E v) := ⟨fun x => (Trigger.good E v x).1⟩

theorem Volume.good (E : VEnv) (v : SpecVersion) (x : Volume) :
    GoodV (Volume.validate E v x) (∀ p ∈ (Elem.volume x).checked, p.Passes E v) := by
  unfold Volume.validate
  apply GoodV.congr
  apply goodV_chain
  case h => good_steps
  case nd => simp only [List.map]; decide
  good_simp
  try simp only [Properties.passes, Hashes.passes, ExternalReferences.passes, Commits.passes, Patches.passes, Datasets.passes, MLParameters.passes, PerformanceMetric.passes, PerformanceMetrics.passes, Considerations.passes, Occurrences.passes, Frames.passes, CopyrightTexts.passes, Components.passes, Services.passes, Compositions.passes, Advisories.passes, VulnerabilityReferences.passes, VulnerabilityRatings.passes, TargetVersions.passes, VulnerabilityTargets.passes, Vulnerabilities.passes, Annotations.passes, TaskType.passes, OutputType.passes, TriggerType.passes]
  try grind

instance (E : VEnv) (v : SpecVersion) : IsTotal (Volume.validate E v) := ⟨fun x => (Volume.good E v x).1⟩

theorem Workspace.good (E : VEnv) (v : SpecVersion) (x : Workspace) :
    GoodV (Workspace.validate E v x) ((Elem.workspace x).rule E v ∧ ∀ p ∈ (Elem.workspace x).checked, p.Passes E v) := by
  unfold Workspace.validate
  apply GoodV.congr
  apply goodV_chain
  case h => good_steps
  case nd => simp only [List.map]; decide
  good_simp
  try simp only [Properties.passes, Hashes.passes, ExternalReferences.passes, Commits.passes, Patches.passes, Datasets.passes, MLParameters.passes, PerformanceMetric.passes, PerformanceMetrics.passes, Considerations.passes, Occurrences.passes, Frames.passes, CopyrightTexts.passes, Components.passes, Services.passes, Compositions.passes, Advisories.passes, VulnerabilityReferences.passes, VulnerabilityRatings.passes, TargetVersions.passes, VulnerabilityTargets.passes, Vulnerabilities.passes, Annotations.passes, TaskType.passes, OutputType.passes, TriggerType.passes]
  try grind

instance (E : VEnv) (v : SpecVersion) : IsTotal (Workspace.validate E v) := ⟨fun x => (Workspace.good E v x).1⟩

theorem WorkflowTask.good (E : VEnv) (v : SpecVersion) (x : WorkflowTask) :
    GoodV (WorkflowTask.validate E v x) ((Elem.workflowTask x).rule E v ∧ ∀ p ∈ (Elem.workflowTask x).checked, p.Passes E v) := by
  unfold WorkflowTask.validate
  apply GoodV.congr
  apply goodV_chain
  case h => good_steps
  case nd => simp only [List.map]; decide
  good_simp
  try simp only [Properties.passes, Hashes.passes, ExternalReferences.passes, Commits.passes, Patches.passes, Datasets.passes, MLParameters.passes, PerformanceMetric.passes, PerformanceMetrics.passes, Considerations.passes, Occurrences.passes, Frames.passes, CopyrightTexts.passes, Components.passes, Services.passes, Compositions.passes, Advisories.passes, VulnerabilityReferences.passes, VulnerabilityRatings.passes, TargetVersions.passes, VulnerabilityTargets.passes, Vulnerabilities.passes, Annotations.passes, TaskType.passes, OutputType.passes, TriggerType.passes]
  try grind

instance (E : VEnv) (v : SpecVersion) : IsTotal (WorkflowTask.validate E v) := ⟨fun x => (WorkflowTask.good E v x).1⟩

theorem Workflow.good (E : VEnv) (v : SpecVersion) (x : Workflow) :
    GoodV (Workflow.validate E v x) ((Elem.workflow x).rule E v ∧ ∀ p ∈ (Elem.workflow x).checked, p.Passes E v) := by
  unfold Workflow.validate
  apply GoodV.congr
  apply goodV_chain
  case h => good_steps
  case nd => simp only [List.map]; decide
  good_simp
  try simp only [Properties.passes, Hashes.passes, ExternalReferences.passes, Commits.passes, Patches.passes, Datasets.passes, MLParameters.passes, PerformanceMetric.passes, PerformanceMetrics.passes, Considerations.passes, Occurrences.passes, Frames.passes, CopyrightTexts.passes, Components.passes, Services.passes, Compositions.passes, Advisories.passes, VulnerabilityReferences.passes, VulnerabilityRatings.passes, TargetVersions.passes, VulnerabilityTargets.passes, Vulnerabilities.passes, Annotations.passes, TaskType.passes, OutputType.passes, TriggerType.passes]
  try grind

instance (E : VEnv) (v : SpecVersion) : IsTotal (Workflow.validate E v) := ⟨fun x => (Workflow.good E v x).1⟩

theorem Formula.good (E : VEnv) (v : SpecVersion) (x : Formula) :
    GoodV (Formula.validate E v x)
      ((Elem.formula x).rule E v ∧ ∀ p ∈ (Elem.formula x).checked, p.Passes E v) := by
  elem_simp
  unfold Formula.validate
  cases v with
  | v1_5 =>
    apply GoodV.congr
    apply goodV_chain
    case h => good_steps
    case nd => simp only [List.map]; decide
    good_simp
    simp only [Properties.passes]
    grind
  | _ => exact (goodV_ofCheck _).congr (by simp)

instance (E : VEnv) (v : SpecVersion) : IsTotal (Formula.validate E v) :=
  ⟨fun x => (Formula.good E v x).1⟩

end Cdx
