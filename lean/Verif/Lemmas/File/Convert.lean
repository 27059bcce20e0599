import Verif.Model.File.Convert
import Verif.Spec.Named
import Verif.Lemmas.Format.At

set_option linter.unusedVariables false
set_option linter.unusedSimpArgs false

/-!
# From the program's structures to those of the files and back: lemmas

`X.file_rt`: what comes back is what the version has, if and only if the enumeration values are read
back from their names.
-/

namespace Cdx

theorem opt_rt {α β γ : Type} {f : α → β} {g : β → γ} {h : α → γ} {o : Option α} :
    (o.map f).map g = o.map h ↔ ∀ y, o = some y → g (f y) = h y := by
  cases o with
  | none => simp
  | some a => simp

theorem opt_rt' {α β : Type} {f : α → β} {g : β → α} {o : Option α} :
    (o.map f).map g = o ↔ ∀ y, o = some y → g (f y) = y := by
  cases o with
  | none => simp
  | some a => simp

theorem list_rt {α β γ : Type} {f : α → β} {g : β → γ} {h : α → γ} {l : List α} :
    (l.map f).map g = l.map h ↔ ∀ y ∈ l, g (f y) = h y := by
  induction l with
  | nil => simp
  | cons a l ih => simp

theorem list_rt' {α β : Type} {f : α → β} {g : β → α} : ∀ {l : List α},
    (l.map f).map g = l ↔ ∀ y ∈ l, g (f y) = y
  | [] => by simp
  | a :: l => by
    rw [List.map_cons, List.map_cons, List.cons.injEq, list_rt', List.forall_mem_cons]

theorem since14_map {α β : Type} (v : SpecVersion) (f : α → β) (o : Option α) :
    (since14 v o none).map f = since14 v (o.map f) none := by cases v <;> rfl

theorem since15_map {α β : Type} (v : SpecVersion) (f : α → β) (o : Option α) :
    (since15 v o none).map f = since15 v (o.map f) none := by cases v <;> rfl

theorem since14_inj {α : Type} (v : SpecVersion) {a b d : α} :
    since14 v a d = since14 v b d ↔ (v ≠ .v1_3 → a = b) := by
  cases v <;> simp [since14]

theorem since15_inj {α : Type} (v : SpecVersion) {a b d : α} :
    since15 v a d = since15 v b d ↔ (v = .v1_5 → a = b) := by
  cases v <;> simp [since15]

theorem Since14.get_put {α : Type} (v : SpecVersion) (o : Option α) :
    Since14.get v (Since14.put v o) = since14 v o none := by cases v <;> rfl

theorem Since15.get_put {α : Type} (v : SpecVersion) (o : Option α) :
    Since15.get v (Since15.put v o) = since15 v o none := by cases v <;> rfl

theorem Since14.get_tryPut {α : Type} {v : SpecVersion} {a : Except String (Option α)}
    {x : Since14 v (Option α)} (h : Since14.tryPut v a = .ok x) :
    (v = .v1_3 ∧ Since14.get v x = none) ∨ (v ≠ .v1_3 ∧ a = .ok (Since14.get v x)) := by
  cases v with
  | v1_3 => exact .inl ⟨rfl, rfl⟩
  | v1_4 => exact .inr ⟨nofun, h⟩
  | v1_5 => exact .inr ⟨nofun, h⟩

theorem Since15.get_tryPut {α : Type} {v : SpecVersion} {a : Except String (Option α)}
    {x : Since15 v (Option α)} (h : Since15.tryPut v a = .ok x) :
    (v ≠ .v1_5 ∧ Since15.get v x = none) ∨ (v = .v1_5 ∧ a = .ok (Since15.get v x)) := by
  cases v with
  | v1_3 => exact .inl ⟨nofun, rfl⟩
  | v1_4 => exact .inl ⟨nofun, rfl⟩
  | v1_5 => exact .inr ⟨rfl, h⟩

theorem bind_ok {ε α β : Type} {x : Except ε α} {f : α → Except ε β} {b : β} :
    x >>= f = .ok b ↔ ∃ a, x = .ok a ∧ f a = .ok b := by
  cases x with
  | error e =>
    constructor
    · intro h; exact nomatch (show (.error e : Except ε β) = .ok b from h)
    · rintro ⟨a, ha, _⟩; exact nomatch ha
  | ok a =>
    constructor
    · intro h; exact ⟨a, rfl, h⟩
    · rintro ⟨a', ha, h⟩; cases ha; exact h

theorem map_ok {ε α β : Type} {x : Except ε α} {f : α → β} {b : β} :
    x.map f = .ok b ↔ ∃ a, x = .ok a ∧ f a = b := by
  cases x with
  | error e =>
    constructor
    · intro h; exact nomatch (show (.error e : Except ε β) = .ok b from h)
    · rintro ⟨a, ha, _⟩; exact nomatch ha
  | ok a =>
    constructor
    · intro h; exact ⟨a, rfl, by injection h⟩
    · rintro ⟨a', ha, h⟩; cases ha; exact congrArg _ h

theorem tryVec_rt {α β γ : Type} {f : α → Except String β} {g : β → γ} {h : α → γ} {P : α → Prop}
    (hf : ∀ x y, f x = .ok y → (g y = h x ↔ P x)) : ∀ {l : List α} {ys : List β},
    tryVec f l = .ok ys → (ys.map g = l.map h ↔ ∀ x ∈ l, P x)
  | [], ys, e => by
    injection e with e
    subst e
    simp
  | x :: l, ys, e => by
    rw [tryVec, bind_ok] at e
    obtain ⟨y, hy, e⟩ := e
    rw [bind_ok] at e
    obtain ⟨zs, hz, e⟩ := e
    injection e with e
    subst e
    rw [List.map_cons, List.map_cons, List.cons.injEq, hf x y hy, tryVec_rt hf hz, List.forall_mem_cons]

theorem tryOptional_rt {α β γ : Type} {f : α → Except String β} {g : β → γ} {h : α → γ} {P : α → Prop}
    (hf : ∀ x y, f x = .ok y → (g y = h x ↔ P x)) : ∀ {o : Option α} {y : Option β},
    tryOptional f o = .ok y → (y.map g = o.map h ↔ ∀ x, o = some x → P x)
  | none, y, e => by
    injection e with e
    subst e
    simp
  | some x, y, e => by
    rw [tryOptional, map_ok] at e
    obtain ⟨z, hz, rfl⟩ := e
    simp [hf x z hz]

theorem Algorithm.new_again (x : Algorithm) :
    Algorithm.new (Algorithm.new x.display).display = Algorithm.new x.display := by
  cases x <;> rfl

theorem Algorithm.file_rt (x : Algorithm) :
    Algorithm.toModel (Algorithm.toFile x) = x ↔ Stable Algorithm.display Algorithm.new x := by
  unfold Algorithm.toModel Algorithm.toFile Stable
  rw [Algorithm.new_again]

theorem stable_iff {α : Type} {display : α → String} {new : String → α} {x : α} :
    new (display x) = x ↔ Stable display new x := Iff.rfl

/-- The conversions of lists, options and enumerations. -/
macro "file_simp" "[" ls:Lean.Parser.Tactic.simpLemma,* "]" : tactic =>
  `(tactic| simp only [Since14.get_put, Since15.get_put, since14_map, since15_map, since14_inj, since15_inj,
    opt_rt, opt_rt', list_rt, list_rt', stable_iff, Licenses.at, Option.map_some, Option.getD_some, true_and, and_true, implies_true, and_assoc, $ls,*])

theorem SpdxExpression.file_rt (x : SpdxExpression) :
    File.SpdxExpression.toModel (SpdxExpression.toFile x) = x := by
  obtain ⟨a0, a1⟩ := x
  file_simp [SpdxExpression.toFile, File.SpdxExpression.toModel, SpdxExpression.mk.injEq]

theorem AttachedText.file_rt (x : AttachedText) :
    File.AttachedText.toModel (AttachedText.toFile x) = x ↔ AttachedText.Named x := by
  obtain ⟨a0, a1, a2⟩ := x
  file_simp [AttachedText.toFile, File.AttachedText.toModel, AttachedText.Named, AttachedText.mk.injEq]

theorem Attachment.file_rt (x : Attachment) :
    File.Attachment.toModel (Attachment.toFile x) = x := by
  obtain ⟨a0, a1, a2⟩ := x
  file_simp [Attachment.toFile, File.Attachment.toModel, Attachment.mk.injEq]

theorem OrganizationalContact.file_rt (x : OrganizationalContact) :
    File.OrganizationalContact.toModel (OrganizationalContact.toFile x) = x := by
  obtain ⟨a0, a1, a2, a3⟩ := x
  file_simp [OrganizationalContact.toFile, File.OrganizationalContact.toModel, OrganizationalContact.mk.injEq]

theorem OrganizationalEntity.file_rt (x : OrganizationalEntity) :
    File.OrganizationalEntity.toModel (OrganizationalEntity.toFile x) = x := by
  obtain ⟨a0, a1, a2, a3⟩ := x
  file_simp [OrganizationalEntity.toFile, File.OrganizationalEntity.toModel, OrganizationalEntity.mk.injEq, OrganizationalContact.file_rt]

theorem Property.file_rt (x : Property) :
    File.Property.toModel (Property.toFile x) = x := by
  obtain ⟨a0, a1⟩ := x
  file_simp [Property.toFile, File.Property.toModel, Property.mk.injEq]

theorem Hash.file_rt (x : Hash) :
    File.Hash.toModel (Hash.toFile x) = x ↔ Hash.Named x := by
  obtain ⟨a0, a1⟩ := x
  file_simp [Hash.toFile, File.Hash.toModel, Hash.Named, Hash.mk.injEq]

theorem ExternalReference.file_rt (x : ExternalReference) :
    File.ExternalReference.toModel (ExternalReference.toFile x) = x ↔ ExternalReference.Named x := by
  obtain ⟨a0, a1, a2, a3⟩ := x
  file_simp [ExternalReference.toFile, File.ExternalReference.toModel, ExternalReference.Named, ExternalReference.mk.injEq, Hash.file_rt]

theorem LicenseIdentifier.file_rt (x : LicenseIdentifier) :
    File.LicenseIdentifier.toModel (LicenseIdentifier.toFile x) = x := by
  cases x <;> file_simp [LicenseIdentifier.toFile, File.LicenseIdentifier.toModel, LicenseIdentifier.spdxId.injEq, LicenseIdentifier.name.injEq]

theorem LicenseContact.file_rt (x : LicenseContact) :
    File.LicenseContact.toModel (LicenseContact.toFile x) = x := by
  cases x <;> file_simp [LicenseContact.toFile, File.LicenseContact.toModel, LicenseContact.organization.injEq, LicenseContact.contact.injEq, OrganizationalContact.file_rt, OrganizationalEntity.file_rt]

theorem Licensing.file_rt (x : Licensing) :
    File.Licensing.toModel (Licensing.toFile x) = x ↔ Licensing.Named x := by
  obtain ⟨a0, a1, a2, a3, a4, a5, a6, a7⟩ := x
  file_simp [Licensing.toFile, File.Licensing.toModel, Licensing.Named, Licensing.mk.injEq, LicenseContact.file_rt]

theorem License.file_rt (v : SpecVersion) (x : License) :
    File.License.toModel (License.toFile v x) = License.at v x ↔ License.Named v x := by
  obtain ⟨a0, a1, a2, a3, a4, a5⟩ := x
  file_simp [License.toFile, File.License.toModel, License.at, License.Named, License.mk.injEq, AttachedText.file_rt, LicenseIdentifier.file_rt, Licensing.file_rt, Property.file_rt]

theorem LicenseChoice.file_rt (v : SpecVersion) (x : LicenseChoice) :
    File.LicenseChoice.toModel (LicenseChoice.toFile v x) = LicenseChoice.at v x ↔ LicenseChoice.Named v x := by
  cases x <;> file_simp [LicenseChoice.toFile, File.LicenseChoice.toModel, LicenseChoice.at, LicenseChoice.Named, LicenseChoice.license.injEq, LicenseChoice.expression.injEq, License.file_rt, SpdxExpression.file_rt]

theorem IdentifiableAction.file_rt (x : IdentifiableAction) :
    File.IdentifiableAction.toModel (IdentifiableAction.toFile x) = x := by
  obtain ⟨a0, a1, a2⟩ := x
  file_simp [IdentifiableAction.toFile, File.IdentifiableAction.toModel, IdentifiableAction.mk.injEq]

theorem Commit.file_rt (x : Commit) :
    File.Commit.toModel (Commit.toFile x) = x := by
  obtain ⟨a0, a1, a2, a3, a4⟩ := x
  file_simp [Commit.toFile, File.Commit.toModel, Commit.mk.injEq, IdentifiableAction.file_rt]

theorem Diff.file_rt (x : Diff) :
    File.Diff.toModel (Diff.toFile x) = x ↔ Diff.Named x := by
  obtain ⟨a0, a1⟩ := x
  file_simp [Diff.toFile, File.Diff.toModel, Diff.Named, Diff.mk.injEq, AttachedText.file_rt]

theorem Source.file_rt (x : Source) :
    File.Source.toModel (Source.toFile x) = x := by
  obtain ⟨a0, a1⟩ := x
  file_simp [Source.toFile, File.Source.toModel, Source.mk.injEq]

theorem Issue.file_rt (x : Issue) :
    File.Issue.toModel (Issue.toFile x) = x ↔ Issue.Named x := by
  obtain ⟨a0, a1, a2, a3, a4, a5⟩ := x
  file_simp [Issue.toFile, File.Issue.toModel, Issue.Named, Issue.mk.injEq, Source.file_rt]

theorem Patch.file_rt (x : Patch) :
    File.Patch.toModel (Patch.toFile x) = x ↔ Patch.Named x := by
  obtain ⟨a0, a1, a2⟩ := x
  file_simp [Patch.toFile, File.Patch.toModel, Patch.Named, Patch.mk.injEq, Diff.file_rt, Issue.file_rt]

theorem Signer.file_rt (x : Signer) :
    File.Signer.toModel (Signer.toFile x) = x ↔ Signer.Named x := by
  obtain ⟨a0, a1⟩ := x
  file_simp [Signer.toFile, File.Signer.toModel, Signer.Named, Signer.mk.injEq, Algorithm.file_rt]

theorem Signature.file_rt (x : Signature) :
    File.Signature.toModel (Signature.toFile x) = x ↔ Signature.Named x := by
  cases x <;> file_simp [Signature.toFile, File.Signature.toModel, Signature.Named, Signature.signers.injEq, Signature.chain.injEq, Signature.single.injEq, Signer.file_rt]

theorem DataGovernanceResponsibleParty.file_rt (x : DataGovernanceResponsibleParty) :
    File.DataGovernanceResponsibleParty.toModel (DataGovernanceResponsibleParty.toFile x) = x := by
  cases x <;> file_simp [DataGovernanceResponsibleParty.toFile, File.DataGovernanceResponsibleParty.toModel, DataGovernanceResponsibleParty.organization.injEq, DataGovernanceResponsibleParty.contact.injEq, OrganizationalContact.file_rt, OrganizationalEntity.file_rt]

theorem DataGovernance.file_rt (x : DataGovernance) :
    File.DataGovernance.toModel (DataGovernance.toFile x) = x := by
  obtain ⟨a0, a1, a2⟩ := x
  file_simp [DataGovernance.toFile, File.DataGovernance.toModel, DataGovernance.mk.injEq, DataGovernanceResponsibleParty.file_rt]

theorem Graphic.file_rt (x : Graphic) :
    File.Graphic.toModel (Graphic.toFile x) = x := by
  obtain ⟨a0, a1⟩ := x
  file_simp [Graphic.toFile, File.Graphic.toModel, Graphic.mk.injEq, Attachment.file_rt]

theorem GraphicsCollection.file_rt (x : GraphicsCollection) :
    File.GraphicsCollection.toModel (GraphicsCollection.toFile x) = x := by
  obtain ⟨a0, a1⟩ := x
  file_simp [GraphicsCollection.toFile, File.GraphicsCollection.toModel, GraphicsCollection.mk.injEq, Graphic.file_rt]

theorem DataContents.file_rt (x : DataContents) :
    File.DataContents.toModel (DataContents.toFile x) = x := by
  obtain ⟨a0, a1, a2⟩ := x
  file_simp [DataContents.toFile, File.DataContents.toModel, DataContents.mk.injEq, Attachment.file_rt, Property.file_rt]

theorem ComponentData.file_rt (x : ComponentData) :
    File.ComponentData.toModel (ComponentData.toFile x) = x ↔ ComponentData.Named x := by
  obtain ⟨a0, a1, a2, a3, a4, a5, a6, a7, a8⟩ := x
  file_simp [ComponentData.toFile, File.ComponentData.toModel, ComponentData.Named, ComponentData.mk.injEq, DataContents.file_rt, DataGovernance.file_rt, GraphicsCollection.file_rt]

theorem ModelParametersApproach.file_rt (x : ModelParametersApproach) :
    File.ModelParametersApproach.toModel (ModelParametersApproach.toFile x) = x ↔ ModelParametersApproach.Named x := by
  obtain ⟨a0⟩ := x
  file_simp [ModelParametersApproach.toFile, File.ModelParametersApproach.toModel, ModelParametersApproach.Named, ModelParametersApproach.mk.injEq]

theorem Dataset.file_rt (x : Dataset) :
    File.Dataset.toModel (Dataset.toFile x) = x ↔ Dataset.Named x := by
  cases x <;> file_simp [Dataset.toFile, File.Dataset.toModel, Dataset.Named, Dataset.component.injEq, Dataset.reference.injEq, ComponentData.file_rt]

theorem MLParameter.file_rt (x : MLParameter) :
    File.MLParameter.toModel (MLParameter.toFile x) = x := by
  obtain ⟨a0⟩ := x
  file_simp [MLParameter.toFile, File.MLParameter.toModel, MLParameter.mk.injEq]

theorem ModelParameters.file_rt (x : ModelParameters) :
    File.ModelParameters.toModel (ModelParameters.toFile x) = x ↔ ModelParameters.Named x := by
  obtain ⟨a0, a1, a2, a3, a4, a5, a6⟩ := x
  file_simp [ModelParameters.toFile, File.ModelParameters.toModel, ModelParameters.Named, ModelParameters.mk.injEq, Dataset.file_rt, MLParameter.file_rt, ModelParametersApproach.file_rt]

theorem ConfidenceInterval.file_rt (x : ConfidenceInterval) :
    File.ConfidenceInterval.toModel (ConfidenceInterval.toFile x) = x := by
  obtain ⟨a0, a1⟩ := x
  file_simp [ConfidenceInterval.toFile, File.ConfidenceInterval.toModel, ConfidenceInterval.mk.injEq]

theorem PerformanceMetric.file_rt (x : PerformanceMetric) :
    File.PerformanceMetric.toModel (PerformanceMetric.toFile x) = x := by
  obtain ⟨a0, a1, a2, a3⟩ := x
  file_simp [PerformanceMetric.toFile, File.PerformanceMetric.toModel, PerformanceMetric.mk.injEq, ConfidenceInterval.file_rt]

theorem QuantitativeAnalysis.file_rt (x : QuantitativeAnalysis) :
    File.QuantitativeAnalysis.toModel (QuantitativeAnalysis.toFile x) = x := by
  obtain ⟨a0, a1⟩ := x
  file_simp [QuantitativeAnalysis.toFile, File.QuantitativeAnalysis.toModel, QuantitativeAnalysis.mk.injEq, GraphicsCollection.file_rt, PerformanceMetric.file_rt]

theorem Considerations.file_rt (x : Considerations) :
    File.Considerations.toModel (Considerations.toFile x) = x := by
  rfl

theorem ModelCard.file_rt (x : ModelCard) :
    File.ModelCard.toModel (ModelCard.toFile x) = x ↔ ModelCard.Named x := by
  obtain ⟨a0, a1, a2, a3, a4⟩ := x
  file_simp [ModelCard.toFile, File.ModelCard.toModel, ModelCard.Named, ModelCard.mk.injEq, Considerations.file_rt, ModelParameters.file_rt, Property.file_rt, QuantitativeAnalysis.file_rt]

theorem Swid.file_rt (x : Swid) :
    File.Swid.toModel (Swid.toFile x) = x ↔ Swid.Named x := by
  obtain ⟨a0, a1, a2, a3, a4, a5, a6⟩ := x
  file_simp [Swid.toFile, File.Swid.toModel, Swid.Named, Swid.mk.injEq, AttachedText.file_rt]

theorem Occurrence.file_rt (x : Occurrence) :
    File.Occurrence.toModel (Occurrence.toFile x) = x := by
  obtain ⟨a0, a1⟩ := x
  file_simp [Occurrence.toFile, File.Occurrence.toModel, Occurrence.mk.injEq]

theorem Frame.file_rt (x : Frame) :
    File.Frame.toModel (Frame.toFile x) = x := by
  obtain ⟨a0, a1, a2, a3, a4, a5, a6⟩ := x
  file_simp [Frame.toFile, File.Frame.toModel, Frame.mk.injEq]

theorem Callstack.file_rt (x : Callstack) :
    File.Callstack.toModel (Callstack.toFile x) = x := by
  obtain ⟨a0⟩ := x
  file_simp [Callstack.toFile, File.Callstack.toModel, Callstack.mk.injEq, Frame.file_rt]

theorem Method.file_rt (x : Method) :
    File.Method.toModel (Method.toFile x) = x := by
  obtain ⟨a0, a1, a2⟩ := x
  file_simp [Method.toFile, File.Method.toModel, Method.mk.injEq]

theorem Identity.file_rt (x : Identity) :
    File.Identity.toModel (Identity.toFile x) = x ↔ Identity.Named x := by
  obtain ⟨a0, a1, a2, a3⟩ := x
  file_simp [Identity.toFile, File.Identity.toModel, Identity.Named, Identity.mk.injEq, Method.file_rt]

theorem ComponentEvidence.file_rt (v : SpecVersion) (x : ComponentEvidence) :
    File.ComponentEvidence.toModel (ComponentEvidence.toFile v x) = ComponentEvidence.at v x ↔ ComponentEvidence.Named v x := by
  obtain ⟨a0, a1, a2, a3, a4⟩ := x
  file_simp [ComponentEvidence.toFile, File.ComponentEvidence.toModel, ComponentEvidence.at, ComponentEvidence.Named, ComponentEvidence.mk.injEq, Callstack.file_rt, Identity.file_rt, LicenseChoice.file_rt, Occurrence.file_rt]

theorem File.Version.rt {v : SpecVersion} {x : Option String} {y : File.Version v}
    (h : File.Version.ofModel v x = .ok y) : File.Version.toModel v y = x := by
  cases v with
  | v1_3 =>
    cases x with
    | none => exact nomatch h
    | some s => injection h with h; subst h; rfl
  | v1_4 => injection h with h; subst h; rfl
  | v1_5 => injection h with h; subst h; rfl

mutual

theorem Component.file_rtOpt (v : SpecVersion) : ∀ (x : Option (List Component)) (y),
    Component.toFileOpt v x = .ok y → (File.Component.toModelOpt y = Component.atOpt v x ↔ Component.NamedOpt v x)
  | none, y, h => by
    rw [Component.toFileOpt] at h
    injection h with h
    subst h
    simp only [File.Component.toModelOpt, Component.atOpt, Component.NamedOpt]
  | some l, y, h => by
    rw [Component.toFileOpt, map_ok] at h
    obtain ⟨z, hz, rfl⟩ := h
    rw [File.Component.toModelOpt, Component.atOpt, Component.NamedOpt, Option.some.injEq,
      Component.file_rtAll v l z hz]
termination_by structural x => x

theorem Component.file_rtAll (v : SpecVersion) : ∀ (x : List Component) (y),
    Component.toFileAll v x = .ok y → (File.Component.toModelAll y = Component.atAll v x ↔ Component.NamedAll v x)
  | [], y, h => by
    rw [Component.toFileAll] at h
    injection h with h
    subst h
    simp only [File.Component.toModelAll, Component.atAll, Component.NamedAll]
  | x :: l, y, h => by
    rw [Component.toFileAll, bind_ok] at h
    obtain ⟨a, ha, h⟩ := h
    rw [bind_ok] at h
    obtain ⟨b, hb, h⟩ := h
    injection h with h
    subst h
    rw [File.Component.toModelAll, Component.atAll, Component.NamedAll, List.cons.injEq,
      Component.file_rt v x a ha, Component.file_rtAll v l b hb]
termination_by structural x => x

theorem Pedigree.file_rtOpt (v : SpecVersion) : ∀ (x : Option Pedigree) (y),
    Pedigree.toFileOpt v x = .ok y → (File.Pedigree.toModelOpt y = Pedigree.atOpt v x ↔ Pedigree.NamedOpt v x)
  | none, y, h => by
    rw [Pedigree.toFileOpt] at h
    injection h with h
    subst h
    simp only [File.Pedigree.toModelOpt, Pedigree.atOpt, Pedigree.NamedOpt]
  | some l, y, h => by
    rw [Pedigree.toFileOpt, map_ok] at h
    obtain ⟨z, hz, rfl⟩ := h
    rw [File.Pedigree.toModelOpt, Pedigree.atOpt, Pedigree.NamedOpt, Option.some.injEq,
      Pedigree.file_rt v l z hz]
termination_by structural x => x

theorem Pedigree.file_rt (v : SpecVersion) : ∀ (x : Pedigree) (y),
    Pedigree.toFile v x = .ok y → (File.Pedigree.toModel y = Pedigree.at v x ↔ Pedigree.Named v x)
  | ⟨ancestors, descendants, variants, commits, patches, notes⟩, y, h => by
    rw [Pedigree.toFile, bind_ok] at h
    obtain ⟨a, ha, h⟩ := h
    rw [bind_ok] at h
    obtain ⟨b, hb, h⟩ := h
    rw [bind_ok] at h
    obtain ⟨c, hc, h⟩ := h
    injection h with h
    subst h
    have h1 := Component.file_rtOpt v ancestors a ha
    have h2 := Component.file_rtOpt v descendants b hb
    have h3 := Component.file_rtOpt v variants c hc
    file_simp [File.Pedigree.toModel, Pedigree.at, Pedigree.Named, Pedigree.mk.injEq, h1, h2, h3, Commit.file_rt, Patch.file_rt]
termination_by structural x => x

theorem Component.file_rt (v : SpecVersion) : ∀ (x : Component) (y),
    Component.toFile v x = .ok y → (File.Component.toModel y = Component.at v x ↔ Component.Named v x)
  | ⟨componentType, mimeType, bomRef, supplier, author, publisher, group, name, version, description, scope, hashes, licenses, copyright, cpe, purl, swid, modified, pedigree, externalReferences, properties, components, evidence, signature, modelCard, data⟩, y, h => by
    rw [Component.toFile, bind_ok] at h
    obtain ⟨a, ha, h⟩ := h
    rw [bind_ok] at h
    obtain ⟨b, hb, h⟩ := h
    rw [bind_ok] at h
    obtain ⟨c, hc, h⟩ := h
    injection h with h
    subst h
    have h1 := File.Version.rt ha
    have h2 := Pedigree.file_rtOpt v pedigree b hb
    have h3 := Component.file_rtOpt v components c hc
    file_simp [File.Component.toModel, Component.at, Component.Named, Component.mk.injEq, h1, h2, h3, ComponentData.file_rt, ComponentEvidence.file_rt, ExternalReference.file_rt, Hash.file_rt, LicenseChoice.file_rt, ModelCard.file_rt, OrganizationalEntity.file_rt, Property.file_rt, Signature.file_rt, Swid.file_rt]
termination_by structural x => x

end

theorem Component.file_all (v : SpecVersion) : ∀ {o : Option (List Component)} {y},
    tryOptional (tryVec (Component.toFile v)) o = .ok y →
      (y.map (List.map File.Component.toModel) = o.map (List.map (Component.at v)) ↔
        ∀ l, o = some l → ∀ z ∈ l, Component.Named v z) :=
  fun h => tryOptional_rt (P := fun l => ∀ z ∈ l, Component.Named v z)
    (fun _ _ h => tryVec_rt (Component.file_rt v) h) h

theorem DataClassification.file_rt (x : DataClassification) :
    File.DataClassification.toModel (DataClassification.toFile x) = x ↔ DataClassification.Named x := by
  obtain ⟨a0, a1⟩ := x
  file_simp [DataClassification.toFile, File.DataClassification.toModel, DataClassification.Named, DataClassification.mk.injEq]

theorem ServiceData.file_rt (x : ServiceData) :
    File.ServiceData.toModel (ServiceData.toFile x) = x ↔ ServiceData.Named x := by
  obtain ⟨a0, a1, a2, a3, a4, a5⟩ := x
  file_simp [ServiceData.toFile, File.ServiceData.toModel, ServiceData.Named, ServiceData.mk.injEq, DataClassification.file_rt, DataGovernance.file_rt]

theorem ServiceDataChoice.file_rt (v : SpecVersion) (x : ServiceDataChoice) :
    File.ServiceDataChoice.toModel (ServiceDataChoice.toFile v x) = ServiceDataChoice.at v x ↔
      ServiceDataChoice.Named v x := by
  cases x with
  | classification l =>
    file_simp [ServiceDataChoice.toFile, File.ServiceDataChoice.toModel, ServiceDataChoice.at,
      ServiceDataChoice.Named, ServiceDataChoice.classification.injEq, DataClassification.file_rt]
  | serviceData l =>
    cases v <;>
    file_simp [ServiceDataChoice.toFile, File.ServiceDataChoice.toModel, ServiceDataChoice.at, since15,
      ServiceDataChoice.Named, ServiceDataChoice.classification.injEq, ServiceDataChoice.serviceData.injEq,
      DataClassification.file_rt, ServiceData.file_rt, ServiceData.Named]

mutual

theorem Service.file_rtOpt (v : SpecVersion) : ∀ (x : Option (List Service)),
    (File.Service.toModelOpt (Service.toFileOpt v x) = Service.atOpt v x ↔ Service.NamedOpt v x)
  | none => by simp only [Service.toFileOpt, File.Service.toModelOpt, Service.atOpt, Service.NamedOpt]
  | some l => by
    rw [Service.toFileOpt, File.Service.toModelOpt, Service.atOpt, Service.NamedOpt, Option.some.injEq,
      Service.file_rtAll v l]
termination_by structural x => x

theorem Service.file_rtAll (v : SpecVersion) : ∀ (x : List Service),
    (File.Service.toModelAll (Service.toFileAll v x) = Service.atAll v x ↔ Service.NamedAll v x)
  | [] => by simp only [Service.toFileAll, File.Service.toModelAll, Service.atAll, Service.NamedAll]
  | x :: l => by
    rw [Service.toFileAll, File.Service.toModelAll, Service.atAll, Service.NamedAll, List.cons.injEq,
      Service.file_rt v x, Service.file_rtAll v l]
termination_by structural x => x

theorem Service.file_rt (v : SpecVersion) : ∀ (x : Service),
    (File.Service.toModel (Service.toFile v x) = Service.at v x ↔ Service.Named v x)
  | ⟨bomRef, provider, group, name, version, description, endpoints, authenticated, xTrustBoundary, data, licenses, externalReferences, properties, services, signature, trustZone⟩ => by
    have h3 := Service.file_rtOpt v services
    file_simp [Service.toFile, File.Service.toModel, Service.at, Service.Named, Service.mk.injEq, h3, ExternalReference.file_rt, LicenseChoice.file_rt, OrganizationalEntity.file_rt, Property.file_rt, ServiceDataChoice.file_rt, Signature.file_rt]
termination_by structural x => x

end

theorem Tool.file_rt (v : SpecVersion) (x : Tool) :
    File.Tool.toModel (Tool.toFile v x) = Tool.at v x ↔ Tool.Named v x := by
  obtain ⟨a0, a1, a2, a3, a4⟩ := x
  file_simp [Tool.toFile, File.Tool.toModel, Tool.at, Tool.Named, Tool.mk.injEq, ExternalReference.file_rt, Hash.file_rt]

theorem Tools.file_rt (v : SpecVersion) (x : Tools) (y) (h : Tools.toFile v x = .ok y) :
    File.Tools.toModel y = Tools.at v x ↔ Tools.Named v x := by
  cases x with
  | list l =>
    injection h with h
    subst h
    file_simp [File.Tools.toModel, Tools.at, Tools.Named, Tools.list.injEq, Tool.file_rt]
  | object s c =>
    cases v with
    | v1_3 => injection h with h; subst h; simp [File.Tools.toModel, Tools.at, Tools.Named, since15]
    | v1_4 => injection h with h; subst h; simp [File.Tools.toModel, Tools.at, Tools.Named, since15]
    | v1_5 =>
      rw [Tools.toFile] at h
      obtain ⟨a, ha, h⟩ := bind_ok.1 h
      injection h with h
      subst h
      have h1 := Component.file_all .v1_5 ha
      file_simp [File.Tools.toModel, Tools.at, since15, Tools.Named, Tools.object.injEq, h1, Service.file_rt,
        forall_const]

theorem LifecycleDescription.file_rt (x : LifecycleDescription) :
    File.LifecycleDescription.toModel (LifecycleDescription.toFile x) = x := by
  obtain ⟨a0, a1⟩ := x
  file_simp [LifecycleDescription.toFile, File.LifecycleDescription.toModel, LifecycleDescription.mk.injEq]

theorem Lifecycle.file_rt (x : Lifecycle) :
    File.Lifecycle.toModel (Lifecycle.toFile x) = x ↔ Lifecycle.Named x := by
  cases x <;> file_simp [Lifecycle.toFile, File.Lifecycle.toModel, Lifecycle.Named, Lifecycle.phase.injEq, Lifecycle.description.injEq, LifecycleDescription.file_rt]

theorem Metadata.file_rt (v : SpecVersion) (x : Metadata) (y) (h : Metadata.toFile v x = .ok y) :
    File.Metadata.toModel y = Metadata.at v x ↔ Metadata.Named v x := by
  rw [Metadata.toFile] at h
  obtain ⟨b0, h0, h⟩ := bind_ok.1 h
  obtain ⟨b1, h1, h⟩ := bind_ok.1 h
  injection h with h
  subst h
  have e0 := tryOptional_rt (Tools.file_rt v) h0
  have e1 := tryOptional_rt (Component.file_rt v) h1
  obtain ⟨a0, a1, a2, a3, a4, a5, a6, a7, a8⟩ := x
  file_simp [File.Metadata.toModel, Metadata.at, Metadata.Named, Metadata.mk.injEq, e0, e1, LicenseChoice.file_rt, Lifecycle.file_rt, OrganizationalContact.file_rt, OrganizationalEntity.file_rt, Property.file_rt]

theorem Dependency.file_rt (x : Dependency) :
    File.Dependency.toModel (Dependency.toFile x) = x := by
  obtain ⟨a0, a1⟩ := x
  file_simp [Dependency.toFile, File.Dependency.toModel, Dependency.mk.injEq]

theorem Composition.file_rt (v : SpecVersion) (x : Composition) :
    File.Composition.toModel (Composition.toFile v x) = Composition.at v x ↔ Composition.Named v x := by
  obtain ⟨a0, a1, a2, a3, a4, a5⟩ := x
  file_simp [Composition.toFile, File.Composition.toModel, Composition.at, Composition.Named, Composition.mk.injEq, Signature.file_rt]

theorem Advisory.file_rt (x : Advisory) :
    File.Advisory.toModel (Advisory.toFile x) = x := by
  obtain ⟨a0, a1⟩ := x
  file_simp [Advisory.toFile, File.Advisory.toModel, Advisory.mk.injEq]

theorem VulnerabilitySource.file_rt (x : VulnerabilitySource) :
    File.VulnerabilitySource.toModel (VulnerabilitySource.toFile x) = x := by
  obtain ⟨a0, a1⟩ := x
  file_simp [VulnerabilitySource.toFile, File.VulnerabilitySource.toModel, VulnerabilitySource.mk.injEq]

theorem VulnerabilityReference.file_rt (x : VulnerabilityReference) :
    File.VulnerabilityReference.toModel (VulnerabilityReference.toFile x) = x := by
  obtain ⟨a0, a1⟩ := x
  file_simp [VulnerabilityReference.toFile, File.VulnerabilityReference.toModel, VulnerabilityReference.mk.injEq, VulnerabilitySource.file_rt]

theorem VulnerabilityRating.file_rt (x : VulnerabilityRating) :
    File.VulnerabilityRating.toModel (VulnerabilityRating.toFile x) = x ↔ VulnerabilityRating.Named x := by
  obtain ⟨a0, a1, a2, a3, a4, a5⟩ := x
  file_simp [VulnerabilityRating.toFile, File.VulnerabilityRating.toModel, VulnerabilityRating.Named, VulnerabilityRating.mk.injEq, VulnerabilitySource.file_rt]

theorem VulnerabilityCredits.file_rt (x : VulnerabilityCredits) :
    File.VulnerabilityCredits.toModel (VulnerabilityCredits.toFile x) = x := by
  obtain ⟨a0, a1⟩ := x
  file_simp [VulnerabilityCredits.toFile, File.VulnerabilityCredits.toModel, VulnerabilityCredits.mk.injEq, OrganizationalContact.file_rt, OrganizationalEntity.file_rt]

theorem VulnerabilityAnalysis.file_rt (v : SpecVersion) (x : VulnerabilityAnalysis) :
    File.VulnerabilityAnalysis.toModel (VulnerabilityAnalysis.toFile v x) = VulnerabilityAnalysis.at v x ↔ VulnerabilityAnalysis.Named v x := by
  obtain ⟨a0, a1, a2, a3, a4, a5⟩ := x
  file_simp [VulnerabilityAnalysis.toFile, File.VulnerabilityAnalysis.toModel, VulnerabilityAnalysis.at, VulnerabilityAnalysis.Named, VulnerabilityAnalysis.mk.injEq]

theorem VersionRange.file_rt (x : VersionRange) :
    File.VersionRange.toModel (VersionRange.toFile x) = x := by
  cases x <;> file_simp [VersionRange.toFile, File.VersionRange.toModel, VersionRange.version.injEq, VersionRange.range.injEq, VersionRange.undefinedVersionRange.injEq]

theorem TargetVersion.file_rt (x : TargetVersion) :
    File.TargetVersion.toModel (TargetVersion.toFile x) = x ↔ TargetVersion.Named x := by
  obtain ⟨a0, a1⟩ := x
  file_simp [TargetVersion.toFile, File.TargetVersion.toModel, TargetVersion.Named, TargetVersion.mk.injEq, VersionRange.file_rt]

theorem VulnerabilityTarget.file_rt (x : VulnerabilityTarget) :
    File.VulnerabilityTarget.toModel (VulnerabilityTarget.toFile x) = x ↔ VulnerabilityTarget.Named x := by
  obtain ⟨a0, a1⟩ := x
  file_simp [VulnerabilityTarget.toFile, File.VulnerabilityTarget.toModel, VulnerabilityTarget.Named, VulnerabilityTarget.mk.injEq, TargetVersion.file_rt]

theorem VulnerabilityProofOfConcept.file_rt (x : VulnerabilityProofOfConcept) :
    File.VulnerabilityProofOfConcept.toModel (VulnerabilityProofOfConcept.toFile x) = x := by
  obtain ⟨a0, a1, a2⟩ := x
  file_simp [VulnerabilityProofOfConcept.toFile, File.VulnerabilityProofOfConcept.toModel, VulnerabilityProofOfConcept.mk.injEq, Attachment.file_rt]

theorem Vulnerability.file_rt (v : SpecVersion) (x : Vulnerability) (y) (h : Vulnerability.toFile v x = .ok y) :
    File.Vulnerability.toModel y = Vulnerability.at v x ↔ Vulnerability.Named v x := by
  rw [Vulnerability.toFile] at h
  obtain ⟨b0, h0, h⟩ := bind_ok.1 h
  injection h with h
  subst h
  have e0 := tryOptional_rt (Tools.file_rt v) h0
  obtain ⟨a0, a1, a2, a3, a4, a5, a6, a7, a8, a9, a10, a11, a12, a13, a14, a15, a16, a17, a18, a19, a20⟩ := x
  file_simp [File.Vulnerability.toModel, Vulnerability.at, Vulnerability.Named, Vulnerability.mk.injEq, e0, Advisory.file_rt, Property.file_rt, VulnerabilityAnalysis.file_rt, VulnerabilityCredits.file_rt, VulnerabilityProofOfConcept.file_rt, VulnerabilityRating.file_rt, VulnerabilityReference.file_rt, VulnerabilitySource.file_rt, VulnerabilityTarget.file_rt]

theorem Annotator.file_rt (x : Annotator) (y) (h : Annotator.toFile x = .ok y) :
    File.Annotator.toModel y = Annotator.at .v1_5 x ↔ Annotator.Named x := by
  cases x with
  | organization o =>
    injection h with h; subst h
    file_simp [File.Annotator.toModel, Annotator.at, Annotator.Named, OrganizationalEntity.file_rt]
  | individual o =>
    injection h with h; subst h
    file_simp [File.Annotator.toModel, Annotator.at, Annotator.Named, OrganizationalContact.file_rt]
  | component c =>
    obtain ⟨a, ha, rfl⟩ := map_ok.1 h
    have h1 := Component.file_rt .v1_5 c a ha
    file_simp [File.Annotator.toModel, Annotator.at, Annotator.Named, Annotator.component.injEq, h1]
  | service s =>
    injection h with h; subst h
    file_simp [File.Annotator.toModel, Annotator.at, Annotator.Named, Annotator.service.injEq, Service.file_rt]

theorem Annotation.file_rt (x : Annotation) (y) (h : Annotation.toFile x = .ok y) :
    File.Annotation.toModel y = Annotation.at .v1_5 x ↔ Annotation.Named x := by
  rw [Annotation.toFile] at h
  obtain ⟨b0, h0, h⟩ := bind_ok.1 h
  injection h with h
  subst h
  have e0 := Annotator.file_rt _ _ h0
  obtain ⟨a0, a1, a2, a3, a4, a5⟩ := x
  file_simp [File.Annotation.toModel, Annotation.at, Annotation.Named, Annotation.mk.injEq, e0, Signature.file_rt]

theorem ResourceReference.file_rt (x : ResourceReference) :
    File.ResourceReference.toModel (ResourceReference.toFile x) = x ↔ ResourceReference.Named x := by
  cases x <;> file_simp [ResourceReference.toFile, File.ResourceReference.toModel, ResourceReference.Named, ResourceReference.ref.injEq, ResourceReference.externalReference.injEq, ExternalReference.file_rt]

theorem EnvironmentVar.file_rt (x : EnvironmentVar) :
    File.EnvironmentVar.toModel (EnvironmentVar.toFile x) = x := by
  cases x <;> file_simp [EnvironmentVar.toFile, File.EnvironmentVar.toModel, EnvironmentVar.property.injEq, EnvironmentVar.value.injEq]

theorem Parameter.file_rt (x : Parameter) :
    File.Parameter.toModel (Parameter.toFile x) = x := by
  obtain ⟨a0, a1, a2⟩ := x
  file_simp [Parameter.toFile, File.Parameter.toModel, Parameter.mk.injEq]

theorem RequiredInputField.file_rt (x : RequiredInputField) :
    File.RequiredInputField.toModel (RequiredInputField.toFile x) = x ↔ RequiredInputField.Named x := by
  cases x <;> file_simp [RequiredInputField.toFile, File.RequiredInputField.toModel, RequiredInputField.Named, RequiredInputField.resource.injEq, RequiredInputField.parameters.injEq, RequiredInputField.environmentVars.injEq, RequiredInputField.data.injEq, Attachment.file_rt, EnvironmentVar.file_rt, Parameter.file_rt, ResourceReference.file_rt]

theorem Input.file_rt (x : Input) :
    File.Input.toModel (Input.toFile x) = x ↔ Input.Named x := by
  obtain ⟨a0, a1, a2, a3⟩ := x
  file_simp [Input.toFile, File.Input.toModel, Input.Named, Input.mk.injEq, Property.file_rt, RequiredInputField.file_rt, ResourceReference.file_rt]

theorem RequiredOutputField.file_rt (x : RequiredOutputField) :
    File.RequiredOutputField.toModel (RequiredOutputField.toFile x) = x ↔ RequiredOutputField.Named x := by
  cases x <;> file_simp [RequiredOutputField.toFile, File.RequiredOutputField.toModel, RequiredOutputField.Named, RequiredOutputField.resource.injEq, RequiredOutputField.environmentVars.injEq, RequiredOutputField.data.injEq, Attachment.file_rt, EnvironmentVar.file_rt, ResourceReference.file_rt]

theorem Output.file_rt (x : Output) :
    File.Output.toModel (Output.toFile x) = x ↔ Output.Named x := by
  obtain ⟨a0, a1, a2, a3, a4⟩ := x
  file_simp [Output.toFile, File.Output.toModel, Output.Named, Output.mk.injEq, Property.file_rt, RequiredOutputField.file_rt, ResourceReference.file_rt]

theorem Command.file_rt (x : Command) :
    File.Command.toModel (Command.toFile x) = x := by
  obtain ⟨a0, a1⟩ := x
  file_simp [Command.toFile, File.Command.toModel, Command.mk.injEq, Property.file_rt]

theorem Step.file_rt (x : Step) :
    File.Step.toModel (Step.toFile x) = x := by
  obtain ⟨a0, a1, a2, a3⟩ := x
  file_simp [Step.toFile, File.Step.toModel, Step.mk.injEq, Command.file_rt, Property.file_rt]

theorem TriggerEvent.file_rt (x : TriggerEvent) :
    File.TriggerEvent.toModel (TriggerEvent.toFile x) = x ↔ TriggerEvent.Named x := by
  obtain ⟨a0, a1, a2, a3, a4, a5, a6⟩ := x
  file_simp [TriggerEvent.toFile, File.TriggerEvent.toModel, TriggerEvent.Named, TriggerEvent.mk.injEq, Attachment.file_rt, Property.file_rt, ResourceReference.file_rt]

theorem Condition.file_rt (x : Condition) :
    File.Condition.toModel (Condition.toFile x) = x := by
  obtain ⟨a0, a1, a2⟩ := x
  file_simp [Condition.toFile, File.Condition.toModel, Condition.mk.injEq, Property.file_rt]

theorem Trigger.file_rt (x : Trigger) :
    File.Trigger.toModel (Trigger.toFile x) = x ↔ Trigger.Named x := by
  obtain ⟨a0, a1, a2, a3, a4, a5, a6, a7, a8, a9, a10, a11⟩ := x
  file_simp [Trigger.toFile, File.Trigger.toModel, Trigger.Named, Trigger.mk.injEq, Condition.file_rt, Input.file_rt, Output.file_rt, Property.file_rt, ResourceReference.file_rt, TriggerEvent.file_rt]

theorem Volume.file_rt (x : Volume) :
    File.Volume.toModel (Volume.toFile x) = x ↔ Volume.Named x := by
  obtain ⟨a0, a1, a2, a3, a4, a5, a6, a7⟩ := x
  file_simp [Volume.toFile, File.Volume.toModel, Volume.Named, Volume.mk.injEq, Property.file_rt]

theorem Workspace.file_rt (x : Workspace) :
    File.Workspace.toModel (Workspace.toFile x) = x ↔ Workspace.Named x := by
  obtain ⟨a0, a1, a2, a3, a4, a5, a6, a7, a8, a9, a10, a11⟩ := x
  file_simp [Workspace.toFile, File.Workspace.toModel, Workspace.Named, Workspace.mk.injEq, Property.file_rt, ResourceReference.file_rt, Volume.file_rt]

theorem WorkflowTask.file_rt (x : WorkflowTask) :
    File.WorkflowTask.toModel (WorkflowTask.toFile x) = x ↔ WorkflowTask.Named x := by
  obtain ⟨a0, a1, a2, a3, a4, a5, a6, a7, a8, a9, a10, a11, a12, a13, a14⟩ := x
  file_simp [WorkflowTask.toFile, File.WorkflowTask.toModel, WorkflowTask.Named, WorkflowTask.mk.injEq, Dependency.file_rt, Input.file_rt, Output.file_rt, Property.file_rt, ResourceReference.file_rt, Step.file_rt, Trigger.file_rt, Workspace.file_rt]

theorem Workflow.file_rt (x : Workflow) :
    File.Workflow.toModel (Workflow.toFile x) = x ↔ Workflow.Named x := by
  obtain ⟨a0, a1, a2, a3, a4, a5, a6, a7, a8, a9, a10, a11, a12, a13, a14, a15, a16⟩ := x
  file_simp [Workflow.toFile, File.Workflow.toModel, Workflow.Named, Workflow.mk.injEq, Dependency.file_rt, Input.file_rt, Output.file_rt, Property.file_rt, ResourceReference.file_rt, Step.file_rt, Trigger.file_rt, WorkflowTask.file_rt, Workspace.file_rt]

theorem Formula.file_rt (x : Formula) (y) (h : Formula.toFile x = .ok y) :
    File.Formula.toModel y = Formula.at .v1_5 x ↔ Formula.Named x := by
  rw [Formula.toFile] at h
  obtain ⟨b0, h0, h⟩ := bind_ok.1 h
  injection h with h
  subst h
  have e0 := Component.file_all .v1_5 h0
  obtain ⟨a0, a1, a2, a3, a4⟩ := x
  file_simp [File.Formula.toModel, Formula.at, Formula.Named, Formula.mk.injEq, e0, Property.file_rt, Service.file_rt, Workflow.file_rt]

theorem Since14.file_rt {α β γ : Type} {v : SpecVersion} {f : α → Except String β} {g : β → γ} {h : α → γ}
    {P : α → Prop} (hf : v ≠ .v1_3 → ∀ x y, f x = .ok y → (g y = h x ↔ P x)) {o : Option (List α)} {y}
    (e : Since14.tryPut v (tryOptional (tryVec f) o) = .ok y) :
    ((Since14.get v y).map (List.map g) = since14 v (o.map (List.map h)) none ↔
      (v ≠ .v1_3 → ∀ l, o = some l → ∀ z ∈ l, P z)) := by
  rcases Since14.get_tryPut e with ⟨rfl, e⟩ | ⟨hv, e⟩
  · rw [e]; simp [since14]
  · rw [show since14 v (o.map (List.map h)) none = o.map (List.map h) by cases v <;> first | exact absurd rfl hv | rfl,
      tryOptional_rt (P := fun l => ∀ z ∈ l, P z) (fun _ _ h => tryVec_rt (hf hv) h) e]
    simp [hv]

theorem Since15.file_rt {α β γ : Type} {v : SpecVersion} {f : α → Except String β} {g : β → γ} {h : α → γ}
    {P : α → Prop} (hf : v = .v1_5 → ∀ x y, f x = .ok y → (g y = h x ↔ P x)) {o : Option (List α)} {y}
    (e : Since15.tryPut v (tryOptional (tryVec f) o) = .ok y) :
    ((Since15.get v y).map (List.map g) = since15 v (o.map (List.map h)) none ↔
      (v = .v1_5 → ∀ l, o = some l → ∀ z ∈ l, P z)) := by
  rcases Since15.get_tryPut e with ⟨hv, e⟩ | ⟨rfl, e⟩
  · rw [e]; cases v <;> simp [since15] at hv ⊢
  · rw [show since15 .v1_5 (o.map (List.map h)) none = o.map (List.map h) from rfl,
      tryOptional_rt (P := fun l => ∀ z ∈ l, P z) (fun _ _ h => tryVec_rt (hf rfl) h) e]
    simp

theorem Bom.file_rt (v : SpecVersion) (x : Bom) (y) (h : Bom.toFile v x = .ok y) :
    File.Bom.toModel y = Bom.at v x ↔ Bom.Named v x := by
  rw [Bom.toFile] at h
  obtain ⟨b0, h0, h⟩ := bind_ok.1 h
  obtain ⟨b1, h1, h⟩ := bind_ok.1 h
  obtain ⟨b2, h2, h⟩ := bind_ok.1 h
  obtain ⟨b3, h3, h⟩ := bind_ok.1 h
  obtain ⟨b4, h4, h⟩ := bind_ok.1 h
  injection h with h
  subst h
  have e0 := tryOptional_rt (Metadata.file_rt v) h0
  have e1 := Component.file_all v h1
  have e2 := Since14.file_rt (fun _ => Vulnerability.file_rt v) h2
  have e3 := Since15.file_rt (h := Annotation.at v) (fun hv => by subst hv; exact Annotation.file_rt) h3
  have e4 := Since15.file_rt (h := Formula.at v) (fun hv => by subst hv; exact Formula.file_rt) h4
  file_simp [File.Bom.toModel, Bom.at, Bom.Named, Bom.mk.injEq, e0, e1, e2, e3, e4, Service.file_rt,
    ExternalReference.file_rt, Composition.file_rt, Dependency.file_rt, Property.file_rt, Signature.file_rt]

end Cdx
