import Verif.Lemmas.Ends.Basic
import Verif.Lemmas.Format.Bom

set_option linter.unusedSectionVars false
set_option linter.unusedVariables false

/-!
# The readers of the elements come to an end
-/

namespace Cdx

open Spec

variable [F32Format] [ReadLimit] {m : Nat}

/-- Nested components and services may be as deep as there are events. -/
class Enough (m : Nat) [ReadLimit] : Prop where
  lt : m < ReadLimit.limit

variable [Enough m]

theorem AttachedText.xml_proper : Proper m AttachedText.readXml :=
  readWith_proper readInner_proper

theorem Property.xml_proper : Proper m Property.readXml :=
  readWith_proper readSimple_proper

theorem Hash.xml_proper : Proper m Hash.readXml :=
  readWith_proper readSimple_proper

theorem OrganizationalContact.arms_proper :
    ∀ p ∈ OrganizationalContact.arms, ProperArm m p.2 :=
  (parmsCons (arm_proper readSimple_proper _)
    (parmsCons (arm_proper readSimple_proper _)
    (parmsCons (arm_proper readSimple_proper _)
    parmsNil)))

theorem OrganizationalContact.xml_proper :
    Proper m OrganizationalContact.readXml :=
  readStruct_proper (OrganizationalContact.arms_proper)

theorem OrganizationalEntity.arms_proper :
    ∀ p ∈ OrganizationalEntity.arms, ProperArm m p.2 :=
  (parmsCons (arm_proper readSimple_proper _)
    (parmsCons (arm_proper readSimple_proper _)
    (parmsCons (arm_proper OrganizationalContact.xml_proper _)
    parmsNil)))

theorem OrganizationalEntity.xml_proper :
    Proper m OrganizationalEntity.readXml :=
  readStruct_proper (OrganizationalEntity.arms_proper)

theorem ExternalReference.arms_proper :
    ∀ p ∈ ExternalReference.arms, ProperArm m p.2 :=
  (parmsCons (arm_proper (map_proper readSimple_proper RefUri.ofUrl) _)
    (parmsCons (arm_proper readSimple_proper _)
    (parmsCons (arm_proper (readList_proper Hash.xml_proper) _)
    parmsNil)))

theorem ExternalReference.xml_proper :
    Proper m ExternalReference.readXml :=
  readStruct_proper (ExternalReference.arms_proper)

theorem VulnerabilitySource.arms_proper :
    ∀ p ∈ VulnerabilitySource.arms, ProperArm m p.2 :=
  (parmsCons (arm_proper readSimple_proper _)
    (parmsCons (arm_proper readSimple_proper _)
    parmsNil))

theorem VulnerabilitySource.xml_proper :
    Proper m VulnerabilitySource.readXml :=
  readStruct_proper (VulnerabilitySource.arms_proper)

theorem VulnerabilityReference.arms_proper :
    ∀ p ∈ VulnerabilityReference.arms, ProperArm m p.2 :=
  (parmsCons (arm_proper readSimple_proper _)
    (parmsCons (arm_proper VulnerabilitySource.xml_proper _)
    parmsNil))

theorem VulnerabilityReference.xml_proper :
    Proper m VulnerabilityReference.readXml :=
  readStruct_proper (VulnerabilityReference.arms_proper)

theorem Advisory.arms_proper :
    ∀ p ∈ Advisory.arms, ProperArm m p.2 :=
  (parmsCons (arm_proper readSimple_proper _)
    (parmsCons (arm_proper readSimple_proper _)
    parmsNil))

theorem Advisory.xml_proper :
    Proper m Advisory.readXml :=
  readStruct_proper (Advisory.arms_proper)

theorem VulnerabilityCredits.arms_proper :
    ∀ p ∈ VulnerabilityCredits.arms, ProperArm m p.2 :=
  (parmsCons (arm_proper (readList_proper OrganizationalEntity.xml_proper) _)
    (parmsCons (arm_proper (readList_proper OrganizationalContact.xml_proper) _)
    parmsNil))

theorem VulnerabilityCredits.xml_proper :
    Proper m VulnerabilityCredits.readXml :=
  readStruct_proper (VulnerabilityCredits.arms_proper)

theorem LicenseContact.arms_proper :
    ∀ p ∈ LicenseContact.arms, ProperArm m p.2 :=
  (parmsCons (arm_proper OrganizationalEntity.xml_proper _)
    (parmsCons (arm_proper OrganizationalContact.xml_proper _)
    parmsNil))

theorem LicenseContact.xml_proper :
    Proper m LicenseContact.readXml :=
  readStruct_proper (LicenseContact.arms_proper)

theorem Licensing.arms_proper :
    ∀ p ∈ Licensing.arms, ProperArm m p.2 :=
  (parmsCons (arm_proper (readList_proper readSimple_proper) _)
    (parmsCons (arm_proper LicenseContact.xml_proper _)
    (parmsCons (arm_proper LicenseContact.xml_proper _)
    (parmsCons (arm_proper LicenseContact.xml_proper _)
    (parmsCons (arm_proper readSimple_proper _)
    (parmsCons (arm_proper (readList_proper (map_proper readSimple_proper LicenseType.new)) _)
    (parmsCons (arm_proper readSimple_proper _)
    (parmsCons (arm_proper readSimple_proper _)
    parmsNil))))))))

theorem Licensing.xml_proper :
    Proper m Licensing.readXml :=
  readStruct_proper (Licensing.arms_proper)

theorem License.arms_proper (v : SpecVersion) :
    ∀ p ∈ License.arms v, ProperArm m p.2 :=
  (parmsAppend (parmsCons (armOnce_proper readInner_proper _ _)
    (parmsCons (armOnce_proper readInner_proper _ _)
    (parmsCons (arm_proper AttachedText.xml_proper _)
    (parmsCons (arm_proper readSimple_proper _)
    parmsNil))))
    (parmsSince15 (parmsCons (arm_proper Licensing.xml_proper _)
    (parmsCons (arm_proper (readListLax_proper Property.xml_proper) _)
    parmsNil))))

theorem License.xml_proper (v : SpecVersion) :
    Proper m (License.readXml v) :=
  readStruct_proper (License.arms_proper v)

theorem SpdxExpression.xml_proper : Proper m SpdxExpression.readXml :=
  readWith_proper readSimple_proper

theorem Licenses.xml_proper (v : SpecVersion) : Proper m (Licenses.readXml v) :=
  readStruct_proper (parmsCons (arm_proper (License.xml_proper v) _)
    (parmsCons (arm_proper SpdxExpression.xml_proper _) parmsNil))

theorem Signer.arms_proper :
    ∀ p ∈ Signer.arms, ProperArm m p.2 :=
  (parmsCons (arm_proper (map_proper readSimple_proper Algorithm.ofSpecName) _)
    (parmsCons (arm_proper readSimple_proper _)
    parmsNil))

theorem Signer.xml_proper :
    Proper m Signer.readXml :=
  readStruct_proper (Signer.arms_proper)

theorem Signature.arms_proper : ∀ p ∈ Signature.arms, ProperArm m p.2 :=
  parmsCons (arm_proper (readList_proper Signer.xml_proper) _)
    (parmsCons (arm_proper (readList_proper Signer.xml_proper) _)
    (parmsCons (arm_proper readSimple_proper _) (parmsCons (arm_proper readSimple_proper _) parmsNil)))

theorem Signature.other_ends (el : XName) (st : Signature.Vars) (l : List XEvent) (hl : l.length ≤ m) :
    match Signature.other el st l with
    | .ok (_, _, l') => ∃ used, l = used ++ l'
    | .error e => e ≠ .stuck ∧ e ≠ .depth := by
  have h := Signer.xml_proper el [] l hl
  simp only [Signature.other]
  cases hs : Signer.readXml el [] l with
  | error e => rw [hs] at h; exact h
  | ok p =>
    rw [hs] at h
    obtain ⟨used, _, hu⟩ := h
    exact ⟨used, hu⟩

theorem Signature.step_ends (el : XName) (st : Signature.Vars) (e : XEvent) (l : List XEvent) (hl : l.length ≤ m) :
    match Signature.step el st e l with
    | .ok (_, _, l') => ∃ used, l = used ++ l'
    | .error e => e ≠ .stuck ∧ e ≠ .depth := by
  have ho := Signature.other_ends el st l hl
  cases e with
  | start n attrs ns =>
    simp only [Signature.step]
    cases harm : Signature.arms.lookup n.localName with
    | none => exact ho
    | some act =>
      have ha : Ends l (act n attrs st l) :=
        Signature.arms_proper _ (mem_of_lookup harm) n attrs st l hl
      simp only [bind, Except.bind]
      cases hact : act n attrs st l with
      | error x => rw [hact] at ha; exact ha
      | ok r =>
        rw [hact] at ha
        obtain ⟨used, _, hu⟩ := ha
        exact ⟨used, hu⟩
  | stop n =>
    simp only [Signature.step]
    split
    · rename_i h
      split at h
      · cases h
        exact ⟨[], rfl⟩
      · rw [h] at ho
        exact ho
    · rename_i h
      split at h
      · cases h
      · rw [h] at ho
        exact ho
  | _ => exact ho

theorem Signature.loop_ends (el : XName) : ∀ (fuel : Nat) (st : Signature.Vars) (evs : List XEvent),
    evs.length < fuel → evs.length ≤ m → Ends evs (Signature.loop el fuel st evs)
  | 0, _, _, h, _ => by omega
  | fuel + 1, st, [], _, _ => ⟨nofun, nofun⟩
  | fuel + 1, st, e :: l, hf, hm => by
    simp only [List.length_cons] at hf hm
    have h := Signature.step_ends el st e l (by omega : l.length ≤ m)
    simp only [Signature.loop]
    cases hs : Signature.step el st e l with
    | error x => rw [hs] at h; exact h
    | ok r =>
      obtain ⟨b, st', l'⟩ := r
      rw [hs] at h
      obtain ⟨used, rfl⟩ := h
      cases b with
      | true => exact ⟨e :: used, nofun, rfl⟩
      | false =>
        simp only
        rw [if_pos (by simp)]
        simp only [List.length_append] at hf hm
        exact ends_cons (ends_append (Signature.loop_ends el fuel st' l' (by omega) (by omega)))

theorem Signature.xml_proper : Proper m Signature.readXml := fun el _ evs he =>
  ends_bind (Signature.loop_ends el _ {} evs (Nat.lt_succ_self _) he) (f := Signature.fin el)
    fun st => Fine.out (by
      simp only [Signature.fin]
      fine)

theorem Dependency.arms_proper :
    ∀ p ∈ Dependency.arms, ProperArm m p.2 :=
  (parmsCons (arm_proper readRef_proper _)
    parmsNil)

theorem Dependency.xml_proper :
    Proper m Dependency.readXml :=
  readStruct_proper (Dependency.arms_proper)

theorem Composition.arms_proper (v : SpecVersion) :
    ∀ p ∈ Composition.arms v, ProperArm m p.2 :=
  (parmsAppend (parmsAppend (parmsCons (arm_proper (map_proper readSimple_proper AggregateType.new) _)
    (parmsCons (arm_proper (readListLax_proper readRef_proper) _)
    (parmsCons (arm_proper (readListLax_proper readRef_proper) _)
    parmsNil)))
    (parmsSince14 (parmsCons (arm_proper Signature.xml_proper _)
    parmsNil)))
    (parmsSince15 (parmsCons (arm_proper (readListLax_proper readRef_proper) _)
    parmsNil)))

theorem Composition.xml_proper (v : SpecVersion) :
    Proper m (Composition.readXml v) :=
  readStruct_proper (Composition.arms_proper v)

theorem IdentifiableAction.arms_proper :
    ∀ p ∈ IdentifiableAction.arms, ProperArm m p.2 :=
  (parmsCons (arm_proper readSimple_proper _)
    (parmsCons (arm_proper readSimple_proper _)
    (parmsCons (arm_proper readSimple_proper _)
    parmsNil)))

theorem IdentifiableAction.xml_proper :
    Proper m IdentifiableAction.readXml :=
  readStruct_proper (IdentifiableAction.arms_proper)

theorem Commit.arms_proper :
    ∀ p ∈ Commit.arms, ProperArm m p.2 :=
  (parmsCons (arm_proper readSimple_proper _)
    (parmsCons (arm_proper readSimple_proper _)
    (parmsCons (arm_proper IdentifiableAction.xml_proper _)
    (parmsCons (arm_proper IdentifiableAction.xml_proper _)
    (parmsCons (arm_proper readSimple_proper _)
    parmsNil)))))

theorem Commit.xml_proper :
    Proper m Commit.readXml :=
  readStruct_proper (Commit.arms_proper)

theorem Diff.arms_proper :
    ∀ p ∈ Diff.arms, ProperArm m p.2 :=
  (parmsCons (arm_proper AttachedText.xml_proper _)
    (parmsCons (arm_proper readSimple_proper _)
    parmsNil))

theorem Diff.xml_proper :
    Proper m Diff.readXml :=
  readStruct_proper (Diff.arms_proper)

theorem Source.arms_proper :
    ∀ p ∈ Source.arms, ProperArm m p.2 :=
  (parmsCons (arm_proper readSimple_proper _)
    (parmsCons (arm_proper readSimple_proper _)
    parmsNil))

theorem Source.xml_proper :
    Proper m Source.readXml :=
  readStruct_proper (Source.arms_proper)

theorem Issue.arms_proper :
    ∀ p ∈ Issue.arms, ProperArm m p.2 :=
  (parmsCons (arm_proper readSimple_proper _)
    (parmsCons (arm_proper readSimple_proper _)
    (parmsCons (arm_proper readSimple_proper _)
    (parmsCons (arm_proper Source.xml_proper _)
    (parmsCons (arm_proper (readList_proper readSimple_proper) _)
    parmsNil)))))

theorem Issue.xml_proper :
    Proper m Issue.readXml :=
  readStruct_proper (Issue.arms_proper)

theorem Patch.arms_proper :
    ∀ p ∈ Patch.arms, ProperArm m p.2 :=
  (parmsCons (arm_proper Diff.xml_proper _)
    (parmsCons (arm_proper (readList_proper Issue.xml_proper) _)
    parmsNil))

theorem Patch.xml_proper :
    Proper m Patch.readXml :=
  readStruct_proper (Patch.arms_proper)

theorem VulnerabilityAnalysis.arms_proper (v : SpecVersion) :
    ∀ p ∈ VulnerabilityAnalysis.arms v, ProperArm m p.2 :=
  (parmsAppend (parmsCons (arm_proper (map_proper readSimple_proper ImpactAnalysisState.new) _)
    (parmsCons (arm_proper (map_proper readSimple_proper ImpactAnalysisJustification.new) _)
    (parmsCons (arm_proper (readList_proper (map_proper readSimple_proper ImpactAnalysisResponse.new)) _)
    (parmsCons (arm_proper readSimple_proper _)
    parmsNil))))
    (parmsSince15 (parmsCons (arm_proper readSimple_proper _)
    (parmsCons (arm_proper readSimple_proper _)
    parmsNil))))

theorem VulnerabilityAnalysis.xml_proper (v : SpecVersion) :
    Proper m (VulnerabilityAnalysis.readXml v) :=
  readStruct_proper (VulnerabilityAnalysis.arms_proper v)

theorem TargetVersion.arms_proper :
    ∀ p ∈ TargetVersion.arms, ProperArm m p.2 :=
  (parmsCons (arm_proper readSimple_proper _)
    (parmsCons (arm_proper readSimple_proper _)
    (parmsCons (arm_proper (map_proper readSimple_proper Status.new) _)
    parmsNil)))

theorem TargetVersion.xml_proper :
    Proper m TargetVersion.readXml :=
  readStruct_proper (TargetVersion.arms_proper)

theorem VulnerabilityTarget.arms_proper :
    ∀ p ∈ VulnerabilityTarget.arms, ProperArm m p.2 :=
  (parmsCons (arm_proper readSimple_proper _)
    (parmsCons (arm_proper (readListLax_proper TargetVersion.xml_proper) _)
    parmsNil))

theorem VulnerabilityTarget.xml_proper :
    Proper m VulnerabilityTarget.readXml :=
  readStruct_proper (VulnerabilityTarget.arms_proper)

theorem DataGovernanceResponsibleParty.arms_proper :
    ∀ p ∈ DataGovernanceResponsibleParty.arms, ProperArm m p.2 :=
  (parmsCons (arm_proper OrganizationalEntity.xml_proper _)
    (parmsCons (arm_proper OrganizationalContact.xml_proper _)
    parmsNil))

theorem DataGovernanceResponsibleParty.xml_proper :
    Proper m DataGovernanceResponsibleParty.readXml :=
  readStruct_proper (DataGovernanceResponsibleParty.arms_proper)

theorem DataGovernance.arms_proper :
    ∀ p ∈ DataGovernance.arms, ProperArm m p.2 :=
  (parmsCons (arm_proper (readList_proper DataGovernanceResponsibleParty.xml_proper) _)
    (parmsCons (arm_proper (readList_proper DataGovernanceResponsibleParty.xml_proper) _)
    (parmsCons (arm_proper (readList_proper DataGovernanceResponsibleParty.xml_proper) _)
    parmsNil)))

theorem DataGovernance.xml_proper :
    Proper m DataGovernance.readXml :=
  readStruct_proper (DataGovernance.arms_proper)

theorem Attachment.lastText_ends {el : XName} : ∀ (evs : List XEvent) (st : Option String),
    Ends evs (Attachment.lastText el st evs)
  | [], _ => ⟨nofun, nofun⟩
  | e :: l, st => by
    cases e with
    | stop n =>
      simp only [Attachment.lastText]
      split
      · exact ⟨[.stop n], nofun, rfl⟩
      · exact ends_cons (Attachment.lastText_ends l st)
    | chars s => exact ends_cons (Attachment.lastText_ends l (some s))
    | _ => exact ends_cons (Attachment.lastText_ends l st)

theorem Attachment.readContent_proper : Proper m Attachment.readContent := fun el _ evs _ =>
  ends_bind (Attachment.lastText_ends evs none) (f := required "inner characters" el)
    fun _ _ h => required_proper h

theorem Attachment.xml_proper :
    Proper m Attachment.readXml := readWith_proper (Attachment.readContent_proper)

theorem Graphic.arms_proper :
    ∀ p ∈ Graphic.arms, ProperArm m p.2 :=
  (parmsCons (arm_proper readSimple_proper _)
    (parmsCons (arm_proper (Attachment.xml_proper) _)
    parmsNil))

theorem Graphic.xml_proper :
    Proper m Graphic.readXml :=
  readStruct_proper (Graphic.arms_proper)

theorem GraphicsCollection.arms_proper :
    ∀ p ∈ GraphicsCollection.arms, ProperArm m p.2 :=
  (parmsCons (arm_proper readSimple_proper _)
    (parmsCons (arm_proper (readListWith_proper (Graphic.xml_proper)) _)
    parmsNil))

theorem GraphicsCollection.xml_proper :
    Proper m GraphicsCollection.readXml :=
  readStruct_proper (GraphicsCollection.arms_proper)

theorem DataContents.arms_proper :
    ∀ p ∈ DataContents.arms, ProperArm m p.2 :=
  (parmsCons (arm_proper (Attachment.xml_proper) _)
    (parmsCons (arm_proper readSimple_proper _)
    (parmsCons (arm_proper (readListLax_proper Property.xml_proper) _)
    parmsNil)))

theorem DataContents.xml_proper :
    Proper m DataContents.readXml :=
  readStruct_proper (DataContents.arms_proper)

theorem ComponentData.arms_proper :
    ∀ p ∈ ComponentData.arms, ProperArm m p.2 :=
  (parmsCons (arm_proper (map_proper readSimple_proper ComponentDataType.new) _)
    (parmsCons (arm_proper readSimple_proper _)
    (parmsCons (arm_proper (DataContents.xml_proper) _)
    (parmsCons (arm_proper readSimple_proper _)
    (parmsCons (arm_proper readSimple_proper _)
    (parmsCons (arm_proper (GraphicsCollection.xml_proper) _)
    (parmsCons (arm_proper readSimple_proper _)
    (parmsCons (arm_proper (DataGovernance.xml_proper) _)
    parmsNil))))))))

theorem ComponentData.xml_proper :
    Proper m ComponentData.readXml :=
  readStruct_proper (ComponentData.arms_proper)

theorem ModelParametersApproach.arms_proper :
    ∀ p ∈ ModelParametersApproach.arms, ProperArm m p.2 :=
  (parmsCons (arm_proper (map_proper readSimple_proper ApproachType.new) _)
    parmsNil)

theorem ModelParametersApproach.xml_proper :
    Proper m ModelParametersApproach.readXml :=
  readStruct_proper (ModelParametersApproach.arms_proper)

theorem Dataset.xml_proper : Proper m Dataset.readXml :=
  map_proper (ComponentData.xml_proper) _

theorem MLParameter.arms_proper :
    ∀ p ∈ MLParameter.arms, ProperArm m p.2 :=
  (parmsCons (arm_proper readSimple_proper _)
    parmsNil)

theorem MLParameter.xml_proper :
    Proper m MLParameter.readXml :=
  readStruct_proper (MLParameter.arms_proper)

theorem ModelParameters.arms_proper :
    ∀ p ∈ ModelParameters.arms, ProperArm m p.2 :=
  (parmsCons (arm_proper (ModelParametersApproach.xml_proper) _)
    (parmsCons (arm_proper readSimple_proper _)
    (parmsCons (arm_proper readSimple_proper _)
    (parmsCons (arm_proper readSimple_proper _)
    (parmsCons (arm_proper (readList_proper (Dataset.xml_proper)) _)
    (parmsCons (arm_proper (readListWith_proper (MLParameter.xml_proper)) _)
    (parmsCons (arm_proper (readListWith_proper (MLParameter.xml_proper)) _)
    parmsNil)))))))

theorem ModelParameters.xml_proper :
    Proper m ModelParameters.readXml :=
  readStruct_proper (ModelParameters.arms_proper)

theorem ConfidenceInterval.arms_proper :
    ∀ p ∈ ConfidenceInterval.arms, ProperArm m p.2 :=
  (parmsCons (arm_proper readSimple_proper _)
    (parmsCons (arm_proper readSimple_proper _)
    parmsNil))

theorem ConfidenceInterval.xml_proper :
    Proper m ConfidenceInterval.readXml :=
  readStruct_proper (ConfidenceInterval.arms_proper)

theorem PerformanceMetric.arms_proper :
    ∀ p ∈ PerformanceMetric.arms, ProperArm m p.2 :=
  (parmsCons (arm_proper readSimple_proper _)
    (parmsCons (arm_proper readSimple_proper _)
    (parmsCons (arm_proper readSimple_proper _)
    (parmsCons (arm_proper (ConfidenceInterval.xml_proper) _)
    parmsNil))))

theorem PerformanceMetric.xml_proper :
    Proper m PerformanceMetric.readXml :=
  readStruct_proper (PerformanceMetric.arms_proper)

theorem QuantitativeAnalysis.arms_proper :
    ∀ p ∈ QuantitativeAnalysis.arms, ProperArm m p.2 :=
  (parmsCons (arm_proper (readListWith_proper (PerformanceMetric.xml_proper)) _)
    (parmsCons (arm_proper (GraphicsCollection.xml_proper) _)
    parmsNil))

theorem QuantitativeAnalysis.xml_proper :
    Proper m QuantitativeAnalysis.readXml :=
  readStruct_proper (QuantitativeAnalysis.arms_proper)

theorem ModelCard.arms_proper :
    ∀ p ∈ ModelCard.arms, ProperArm m p.2 :=
  (parmsCons (arm_proper (ModelParameters.xml_proper) _)
    (parmsCons (arm_proper (QuantitativeAnalysis.xml_proper) _)
    parmsNil))

theorem ModelCard.xml_proper :
    Proper m ModelCard.readXml :=
  readStruct_proper (ModelCard.arms_proper)

theorem VulnerabilityProofOfConcept.arms_proper :
    ∀ p ∈ VulnerabilityProofOfConcept.arms, ProperArm m p.2 :=
  (parmsCons (arm_proper readSimple_proper _)
    (parmsCons (arm_proper readSimple_proper _)
    (parmsCons (arm_proper (readList_proper (Attachment.xml_proper)) _)
    parmsNil)))

theorem VulnerabilityProofOfConcept.xml_proper :
    Proper m VulnerabilityProofOfConcept.readXml :=
  readStruct_proper (VulnerabilityProofOfConcept.arms_proper)

theorem DataClassification.xml_proper : Proper m DataClassification.readXml :=
  readWith_proper readSimple_proper

theorem ServiceData.xml_proper :
    Proper m ServiceData.readXml :=
  readStruct_proper (parmsCons (arm_proper DataClassification.xml_proper _)
    (parmsCons (arm_proper (DataGovernance.xml_proper) _)
    (parmsCons (arm_proper (readList_proper readSimple_proper) _)
    (parmsCons (arm_proper (readList_proper readSimple_proper) _) parmsNil))))

theorem ServiceDataChoice.xml_proper (v : SpecVersion) :
    Proper m (ServiceDataChoice.readXml v) :=
  readStruct_proper (parmsAppend
    (parmsCons (arm_proper DataClassification.xml_proper _) parmsNil)
    (parmsSince15 (parmsCons (arm_proper (ServiceData.xml_proper) _) parmsNil)))

theorem Swid.xml_proper : Proper m Swid.readXml :=
  readStruct_proper (parmsCons (arm_proper AttachedText.xml_proper _)
    (parmsCons (arm_proper readSimple_proper _) parmsNil))

theorem Lifecycle.xml_proper : Proper m Lifecycle.readXml :=
  readStruct_proper (parmsCons (arm_proper readSimple_proper _)
    (parmsCons (arm_proper readSimple_proper _) (parmsCons (arm_proper readSimple_proper _) parmsNil)))

theorem VulnerabilityRating.arms_proper :
    ∀ p ∈ VulnerabilityRating.arms, ProperArm m p.2 :=
  (parmsCons (arm_proper VulnerabilitySource.xml_proper _)
    (parmsCons (arm_proper readScore_proper _)
    (parmsCons (arm_proper (map_proper readSimple_proper Severity.new) _)
    (parmsCons (arm_proper (map_proper readSimple_proper ScoreMethod.new) _)
    (parmsCons (arm_proper readSimple_proper _)
    (parmsCons (arm_proper readSimple_proper _)
    parmsNil))))))

theorem VulnerabilityRating.xml_proper :
    Proper m VulnerabilityRating.readXml :=
  readStruct_proper (VulnerabilityRating.arms_proper)

theorem toolRefs_ends {el : XName} : ∀ (evs : List XEvent) (acc : List String),
    Ends evs (toolRefsLoop el acc evs)
  | [], _ => ⟨nofun, nofun⟩
  | e :: l, acc => by
    cases e with
    | start n attrs ns =>
      simp only [toolRefsLoop]
      split
      · cases h : reqAttr n attrs "ref" with
        | error x => exact reqAttr_proper h
        | ok r => exact ends_cons (toolRefs_ends l _)
      · exact ⟨nofun, nofun⟩
    | stop n =>
      simp only [toolRefsLoop]
      split
      · exact ends_cons (toolRefs_ends l acc)
      · split
        · exact ⟨[.stop n], nofun, rfl⟩
        · exact ⟨nofun, nofun⟩
    | _ => exact ⟨nofun, nofun⟩

theorem readToolRefs_proper : Proper m readToolRefs := fun _ _ evs _ => toolRefs_ends evs []

theorem Occurrence.arms_proper :
    ∀ p ∈ Occurrence.arms, ProperArm m p.2 :=
  (parmsCons (arm_proper readSimple_proper _)
    parmsNil)

theorem Occurrence.xml_proper :
    Proper m Occurrence.readXml :=
  readStruct_proper (Occurrence.arms_proper)

theorem Frame.arms_proper :
    ∀ p ∈ Frame.arms, ProperArm m p.2 :=
  (parmsCons (arm_proper readSimple_proper _)
    (parmsCons (arm_proper readSimple_proper _)
    (parmsCons (arm_proper readSimple_proper _)
    (parmsCons (arm_proper (readList_proper readSimple_proper) _)
    (parmsCons (arm_proper readU32_proper _)
    (parmsCons (arm_proper readU32_proper _)
    (parmsCons (arm_proper readSimple_proper _)
    parmsNil)))))))

theorem Frame.xml_proper :
    Proper m Frame.readXml :=
  readStruct_proper (Frame.arms_proper)

theorem Callstack.xml_proper : Proper m Callstack.readXml :=
  readStruct_proper
    (parmsCons (arm_proper (Frame.xml_proper) _) parmsNil)

theorem Method.arms_proper :
    ∀ p ∈ Method.arms, ProperArm m p.2 :=
  (parmsCons (arm_proper readSimple_proper _)
    (parmsCons (arm_proper readF32_proper _)
    (parmsCons (arm_proper readSimple_proper _)
    parmsNil)))

theorem Method.xml_proper :
    Proper m Method.readXml :=
  readStruct_proper (Method.arms_proper)

theorem Identity.arms_proper :
    ∀ p ∈ Identity.arms, ProperArm m p.2 :=
  (parmsCons (arm_proper (map_proper readSimple_proper IdentityField.new) _)
    (parmsCons (arm_proper readF32_proper _)
    (parmsCons (arm_proper (readList_proper (Method.xml_proper)) _)
    (parmsCons (arm_proper readToolRefs_proper _)
    parmsNil))))

theorem Identity.xml_proper :
    Proper m Identity.readXml :=
  readStruct_proper (Identity.arms_proper)

theorem ComponentEvidence.arms_proper (v : SpecVersion) :
    ∀ p ∈ ComponentEvidence.arms v, ProperArm m p.2 :=
  (parmsAppend (parmsCons (arm_proper (Licenses.xml_proper v) _)
    (parmsCons (arm_proper (readList_proper readSimple_proper) _)
    parmsNil))
    (parmsSince15 (parmsCons (arm_proper (readList_proper Occurrence.xml_proper) _)
    (parmsCons (arm_proper (Callstack.xml_proper) _)
    (parmsCons (arm_proper (Identity.xml_proper) _)
    parmsNil)))))

theorem ComponentEvidence.xml_proper (v : SpecVersion) :
    Proper m (ComponentEvidence.readXml v) :=
  readStruct_proper (ComponentEvidence.arms_proper v)

theorem Service.arms_properWith (v : SpecVersion) {sub : XElem Service}
    (hs : Proper m sub) :
    ∀ p ∈ Service.armsWith sub v, ProperArm m p.2 :=
  (parmsAppend (parmsAppend (parmsCons (arm_proper OrganizationalEntity.xml_proper _)
    (parmsCons (arm_proper readSimple_proper _)
    (parmsCons (arm_proper readSimple_proper _)
    (parmsCons (arm_proper readSimple_proper _)
    (parmsCons (arm_proper readSimple_proper _)
    (parmsCons (arm_proper (readList_proper readSimple_proper) _)
    (parmsCons (arm_proper readBool_proper _)
    (parmsCons (arm_proper readBool_proper _)
    (parmsCons (arm_proper (ServiceDataChoice.xml_proper v) _)
    (parmsCons (arm_proper (Licenses.xml_proper v) _)
    (parmsCons (arm_proper (readList_proper ExternalReference.xml_proper) _)
    (parmsCons (arm_proper (readListLax_proper Property.xml_proper) _)
    (parmsCons (arm_proper (readListLax_proper hs) _)
    parmsNil)))))))))))))
    (parmsSince14 (parmsCons (arm_proper Signature.xml_proper _)
    parmsNil)))
    (parmsSince15 (parmsCons (arm_proper readSimple_proper _)
    parmsNil)))

theorem Service.xml_properWith (v : SpecVersion) {sub : XElem Service}
    (hs : Proper m sub) :
    Proper (m + 1) (Service.readXmlWith sub v) :=
  readStruct_above (Service.arms_properWith v hs)

theorem Service.xml_properN (v : SpecVersion) : ∀ {n m : Nat} [Enough m], m < n →
    Proper m (Service.readXmlN v n)
  | 0, _, _, h => by omega
  | n + 1, 0, _, _ => show Proper 0 (Service.readXmlWith (Service.readXmlN v n) v) from readStruct_nil
  | _ + 1, m + 1, h₁, h =>
    haveI : Enough m := ⟨Nat.lt_of_succ_lt h₁.lt⟩
    Service.xml_properWith v (Service.xml_properN v (by omega))

theorem Service.xml_proper (v : SpecVersion) : Proper m (Service.readXml v) := Service.xml_properN v Enough.lt

theorem Pedigree.arms_properWith (v : SpecVersion) {sub : XElem Component}
    (hs : Proper m sub) :
    ∀ p ∈ Pedigree.armsWith sub v, ProperArm m p.2 :=
  (parmsCons (arm_proper (readListLax_proper hs) _)
    (parmsCons (arm_proper (readListLax_proper hs) _)
    (parmsCons (arm_proper (readListLax_proper hs) _)
    (parmsCons (arm_proper (readListLax_proper Commit.xml_proper) _)
    (parmsCons (arm_proper (readListLax_proper Patch.xml_proper) _)
    (parmsCons (arm_proper readSimple_proper _)
    parmsNil))))))

theorem Pedigree.xml_properWith (v : SpecVersion) {sub : XElem Component}
    (hs : Proper m sub) :
    Proper m (Pedigree.readXmlWith sub v) :=
  readStruct_proper (Pedigree.arms_properWith v hs)

theorem Component.arms_properWith (v : SpecVersion) {sub : XElem Component}
    (hs : Proper m sub) :
    ∀ p ∈ Component.armsWith sub v, ProperArm m p.2 :=
  (parmsAppend (parmsAppend (parmsCons (arm_proper OrganizationalEntity.xml_proper _)
    (parmsCons (arm_proper readSimple_proper _)
    (parmsCons (arm_proper readSimple_proper _)
    (parmsCons (arm_proper readSimple_proper _)
    (parmsCons (arm_proper readSimple_proper _)
    (parmsCons (arm_proper readSimple_proper _)
    (parmsCons (arm_proper readSimple_proper _)
    (parmsCons (arm_proper (map_proper readSimple_proper Scope.new) _)
    (parmsCons (arm_proper (readList_proper Hash.xml_proper) _)
    (parmsCons (arm_proper (Licenses.xml_proper v) _)
    (parmsCons (arm_proper readSimple_proper _)
    (parmsCons (arm_proper readSimple_proper _)
    (parmsCons (arm_proper readSimple_proper _)
    (parmsCons (arm_proper Swid.xml_proper _)
    (parmsCons (arm_proper readBool_proper _)
    (parmsCons (arm_proper (Pedigree.xml_properWith v hs) _)
    (parmsCons (arm_proper (readList_proper ExternalReference.xml_proper) _)
    (parmsCons (arm_proper (readListLax_proper Property.xml_proper) _)
    (parmsCons (arm_proper (readListLax_proper hs) _)
    (parmsCons (arm_proper (ComponentEvidence.xml_proper v) _)
    parmsNil))))))))))))))))))))
    (parmsSince14 (parmsCons (arm_proper Signature.xml_proper _)
    parmsNil)))
    (parmsSince15 (parmsCons (arm_proper (ModelCard.xml_proper) _)
    (parmsCons (arm_proper (ComponentData.xml_proper) _)
    parmsNil))))

theorem Component.xml_properWith (v : SpecVersion) {sub : XElem Component}
    (hs : Proper m sub) :
    Proper (m + 1) (Component.readXmlWith sub v) :=
  readStruct_above (Component.arms_properWith v hs)

theorem Component.xml_properN (v : SpecVersion) : ∀ {n m : Nat} [Enough m], m < n →
    Proper m (Component.readXmlN v n)
  | 0, _, _, h => by omega
  | n + 1, 0, _, _ => show Proper 0 (Component.readXmlWith (Component.readXmlN v n) v) from readStruct_nil
  | _ + 1, m + 1, h₁, h =>
    haveI : Enough m := ⟨Nat.lt_of_succ_lt h₁.lt⟩
    Component.xml_properWith v (Component.xml_properN v (by omega))

theorem Component.xml_proper (v : SpecVersion) : Proper m (Component.readXml v) := Component.xml_properN v Enough.lt

theorem ResourceReference.xml_proper : Proper m ResourceReference.readXml :=
  readStruct_proper (parmsCons (arm_proper readSimple_proper _)
    (parmsCons (arm_proper ExternalReference.xml_proper _) parmsNil))

theorem EnvironmentVar.all_proper : Proper m EnvironmentVar.readAll :=
  readStruct_proper (parmsCons (arm_proper (bind_proper readSimple_proper fun el attrs s =>
      (reqAttr el attrs "name").map fun n => EnvironmentVar.property n s) _)
    (parmsCons (arm_proper readSimple_proper _) parmsNil))

theorem Parameter.arms_proper :
    ∀ p ∈ Parameter.arms, ProperArm m p.2 :=
  (parmsCons (arm_proper readSimple_proper _)
    (parmsCons (arm_proper readSimple_proper _)
    (parmsCons (arm_proper readSimple_proper _)
    parmsNil)))

theorem Parameter.xml_proper :
    Proper m Parameter.readXml :=
  readStruct_proper (Parameter.arms_proper)

theorem Input.arms_proper :
    ∀ p ∈ Input.arms, ProperArm m p.2 :=
  (parmsCons (arm_proper ResourceReference.xml_proper _)
    (parmsCons (arm_proper EnvironmentVar.all_proper _)
    (parmsCons (arm_proper (Attachment.xml_proper) _)
    (parmsCons (arm_proper ResourceReference.xml_proper _)
    (parmsCons (arm_proper ResourceReference.xml_proper _)
    (parmsCons (arm_proper (readListLax_proper Property.xml_proper) _)
    parmsNil))))))

theorem Input.xml_proper :
    Proper m Input.readXml :=
  readStruct_proper (Input.arms_proper)

theorem Output.arms_proper :
    ∀ p ∈ Output.arms, ProperArm m p.2 :=
  (parmsCons (arm_proper ResourceReference.xml_proper _)
    (parmsCons (arm_proper EnvironmentVar.all_proper _)
    (parmsCons (arm_proper (Attachment.xml_proper) _)
    (parmsCons (arm_proper (map_proper readSimple_proper OutputType.new) _)
    (parmsCons (arm_proper ResourceReference.xml_proper _)
    (parmsCons (arm_proper ResourceReference.xml_proper _)
    (parmsCons (arm_proper (readListLax_proper Property.xml_proper) _)
    parmsNil)))))))

theorem Output.xml_proper :
    Proper m Output.readXml :=
  readStruct_proper (Output.arms_proper)

theorem Command.arms_proper :
    ∀ p ∈ Command.arms, ProperArm m p.2 :=
  (parmsCons (arm_proper readSimple_proper _)
    (parmsCons (arm_proper (readListLax_proper Property.xml_proper) _)
    parmsNil))

theorem Command.xml_proper :
    Proper m Command.readXml :=
  readStruct_proper (Command.arms_proper)

theorem Step.arms_proper :
    ∀ p ∈ Step.arms, ProperArm m p.2 :=
  (parmsCons (arm_proper (readList_proper Command.xml_proper) _)
    (parmsCons (arm_proper readSimple_proper _)
    (parmsCons (arm_proper readSimple_proper _)
    (parmsCons (arm_proper (readListLax_proper Property.xml_proper) _)
    parmsNil))))

theorem Step.xml_proper :
    Proper m Step.readXml :=
  readStruct_proper (Step.arms_proper)

theorem TriggerEvent.arms_proper :
    ∀ p ∈ TriggerEvent.arms, ProperArm m p.2 :=
  (parmsCons (arm_proper readSimple_proper _)
    (parmsCons (arm_proper readSimple_proper _)
    (parmsCons (arm_proper readSimple_proper _)
    (parmsCons (arm_proper (Attachment.xml_proper) _)
    (parmsCons (arm_proper ResourceReference.xml_proper _)
    (parmsCons (arm_proper ResourceReference.xml_proper _)
    (parmsCons (arm_proper (readListLax_proper Property.xml_proper) _)
    parmsNil)))))))

theorem TriggerEvent.xml_proper :
    Proper m TriggerEvent.readXml :=
  readStruct_proper (TriggerEvent.arms_proper)

theorem Condition.arms_proper :
    ∀ p ∈ Condition.arms, ProperArm m p.2 :=
  (parmsCons (arm_proper readSimple_proper _)
    (parmsCons (arm_proper readSimple_proper _)
    (parmsCons (arm_proper (readListLax_proper Property.xml_proper) _)
    parmsNil)))

theorem Condition.xml_proper :
    Proper m Condition.readXml :=
  readStruct_proper (Condition.arms_proper)

theorem Trigger.arms_proper :
    ∀ p ∈ Trigger.arms, ProperArm m p.2 :=
  (parmsCons (arm_proper readSimple_proper _)
    (parmsCons (arm_proper readSimple_proper _)
    (parmsCons (arm_proper readSimple_proper _)
    (parmsCons (arm_proper (readListLax_proper ResourceReference.xml_proper) _)
    (parmsCons (arm_proper (map_proper readSimple_proper TriggerType.new) _)
    (parmsCons (arm_proper TriggerEvent.xml_proper _)
    (parmsCons (arm_proper (readList_proper Condition.xml_proper) _)
    (parmsCons (arm_proper readSimple_proper _)
    (parmsCons (arm_proper (readList_proper Input.xml_proper) _)
    (parmsCons (arm_proper (readList_proper Output.xml_proper) _)
    (parmsCons (arm_proper (readListLax_proper Property.xml_proper) _)
    parmsNil)))))))))))

theorem Trigger.xml_proper :
    Proper m Trigger.readXml :=
  readStruct_proper (Trigger.arms_proper)

theorem Volume.arms_proper :
    ∀ p ∈ Volume.arms, ProperArm m p.2 :=
  (parmsCons (arm_proper readSimple_proper _)
    (parmsCons (arm_proper readSimple_proper _)
    (parmsCons (arm_proper (map_proper readSimple_proper VolumeMode.new) _)
    (parmsCons (arm_proper readSimple_proper _)
    (parmsCons (arm_proper readSimple_proper _)
    (parmsCons (arm_proper readBool_proper _)
    (parmsCons (arm_proper readBool_proper _)
    (parmsCons (arm_proper (readListLax_proper Property.xml_proper) _)
    parmsNil))))))))

theorem Volume.xml_proper :
    Proper m Volume.readXml :=
  readStruct_proper (Volume.arms_proper)

theorem Workspace.arms_proper :
    ∀ p ∈ Workspace.arms, ProperArm m p.2 :=
  (parmsCons (arm_proper readSimple_proper _)
    (parmsCons (arm_proper readSimple_proper _)
    (parmsCons (arm_proper (readList_proper readSimple_proper) _)
    (parmsCons (arm_proper readSimple_proper _)
    (parmsCons (arm_proper (readListLax_proper ResourceReference.xml_proper) _)
    (parmsCons (arm_proper (map_proper readSimple_proper AccessMode.new) _)
    (parmsCons (arm_proper readSimple_proper _)
    (parmsCons (arm_proper readSimple_proper _)
    (parmsCons (arm_proper readSimple_proper _)
    (parmsCons (arm_proper Volume.xml_proper _)
    (parmsCons (arm_proper (readListLax_proper Property.xml_proper) _)
    parmsNil)))))))))))

theorem Workspace.xml_proper :
    Proper m Workspace.readXml :=
  readStruct_proper (Workspace.arms_proper)

theorem WorkflowTask.arms_proper :
    ∀ p ∈ WorkflowTask.arms, ProperArm m p.2 :=
  (parmsCons (arm_proper readSimple_proper _)
    (parmsCons (arm_proper readSimple_proper _)
    (parmsCons (arm_proper readSimple_proper _)
    (parmsCons (arm_proper (readListLax_proper ResourceReference.xml_proper) _)
    (parmsCons (arm_proper (readList_proper (map_proper readSimple_proper TaskType.new)) _)
    (parmsCons (arm_proper Trigger.xml_proper _)
    (parmsCons (arm_proper (readList_proper Step.xml_proper) _)
    (parmsCons (arm_proper (readList_proper Input.xml_proper) _)
    (parmsCons (arm_proper (readList_proper Output.xml_proper) _)
    (parmsCons (arm_proper readSimple_proper _)
    (parmsCons (arm_proper readSimple_proper _)
    (parmsCons (arm_proper (readList_proper Workspace.xml_proper) _)
    (parmsCons (arm_proper (readList_proper Dependency.xml_proper) _)
    (parmsCons (arm_proper (readListLax_proper Property.xml_proper) _)
    parmsNil))))))))))))))

theorem WorkflowTask.xml_proper :
    Proper m WorkflowTask.readXml :=
  readStruct_proper (WorkflowTask.arms_proper)

theorem Workflow.arms_proper :
    ∀ p ∈ Workflow.arms, ProperArm m p.2 :=
  (parmsCons (arm_proper readSimple_proper _)
    (parmsCons (arm_proper readSimple_proper _)
    (parmsCons (arm_proper readSimple_proper _)
    (parmsCons (arm_proper (readListLax_proper ResourceReference.xml_proper) _)
    (parmsCons (arm_proper (readList_proper WorkflowTask.xml_proper) _)
    (parmsCons (arm_proper (readList_proper Dependency.xml_proper) _)
    (parmsCons (arm_proper (readList_proper (map_proper readSimple_proper TaskType.new)) _)
    (parmsCons (arm_proper Trigger.xml_proper _)
    (parmsCons (arm_proper (readList_proper Step.xml_proper) _)
    (parmsCons (arm_proper (readList_proper Input.xml_proper) _)
    (parmsCons (arm_proper (readList_proper Output.xml_proper) _)
    (parmsCons (arm_proper readSimple_proper _)
    (parmsCons (arm_proper readSimple_proper _)
    (parmsCons (arm_proper (readList_proper Workspace.xml_proper) _)
    (parmsCons (arm_proper (readList_proper Dependency.xml_proper) _)
    (parmsCons (arm_proper (readListLax_proper Property.xml_proper) _)
    parmsNil))))))))))))))))

theorem Workflow.xml_proper :
    Proper m Workflow.readXml :=
  readStruct_proper (Workflow.arms_proper)

theorem Formula.arms_proper (v : SpecVersion) :
    ∀ p ∈ Formula.arms v, ProperArm m p.2 :=
  (parmsCons (arm_proper (readListLax_proper (Component.xml_proper v)) _)
    (parmsCons (arm_proper (readListLax_proper (Service.xml_proper v)) _)
    (parmsCons (arm_proper (readList_proper Workflow.xml_proper) _)
    (parmsCons (arm_proper (readListLax_proper Property.xml_proper) _)
    parmsNil))))

theorem Formula.xml_proper (v : SpecVersion) :
    Proper m (Formula.readXml v) :=
  readStruct_proper (Formula.arms_proper v)

theorem Tool.arms_proper (v : SpecVersion) :
    ∀ p ∈ Tool.arms v, ProperArm m p.2 :=
  (parmsAppend (parmsCons (arm_proper readSimple_proper _)
    (parmsCons (arm_proper readSimple_proper _)
    (parmsCons (arm_proper readSimple_proper _)
    (parmsCons (arm_proper (readList_proper Hash.xml_proper) _)
    parmsNil))))
    (parmsSince14 (parmsCons (arm_proper (readList_proper ExternalReference.xml_proper) _)
    parmsNil)))

theorem Tool.xml_proper (v : SpecVersion) :
    Proper m (Tool.readXml v) :=
  readStruct_proper (Tool.arms_proper v)

theorem Tools.xml_proper (v : SpecVersion) : Proper m (Tools.readXml v) :=
  readStruct_proper (parmsAppend (parmsCons (arm_proper (Tool.xml_proper v) _) parmsNil)
    (parmsSince15 (parmsCons (arm_proper (readListLax_proper (Component.xml_proper v)) _)
      (parmsCons (arm_proper (readListLax_proper (Service.xml_proper v)) _) parmsNil))))

theorem Metadata.arms_proper (v : SpecVersion) :
    ∀ p ∈ Metadata.arms v, ProperArm m p.2 :=
  (parmsAppend (parmsCons (arm_proper readSimple_proper _)
    (parmsCons (arm_proper (Tools.xml_proper v) _)
    (parmsCons (arm_proper (readList_proper OrganizationalContact.xml_proper) _)
    (parmsCons (arm_proper (Component.xml_proper v) _)
    (parmsCons (arm_proper OrganizationalEntity.xml_proper _)
    (parmsCons (arm_proper OrganizationalEntity.xml_proper _)
    (parmsCons (arm_proper (Licenses.xml_proper v) _)
    (parmsCons (arm_proper (readListLax_proper Property.xml_proper) _)
    parmsNil))))))))
    (parmsSince15 (parmsCons (arm_proper (readList_proper Lifecycle.xml_proper) _)
    parmsNil)))

theorem Metadata.xml_proper (v : SpecVersion) :
    Proper m (Metadata.readXml v) :=
  readStruct_proper (Metadata.arms_proper v)

theorem Vulnerability.arms_proper (v : SpecVersion) :
    ∀ p ∈ Vulnerability.arms v, ProperArm m p.2 :=
  (parmsAppend (parmsCons (arm_proper readSimple_proper _)
    (parmsCons (arm_proper VulnerabilitySource.xml_proper _)
    (parmsCons (arm_proper (readListLax_proper VulnerabilityReference.xml_proper) _)
    (parmsCons (arm_proper (readListLax_proper VulnerabilityRating.xml_proper) _)
    (parmsCons (arm_proper (readList_proper readU32_proper) _)
    (parmsCons (arm_proper readSimple_proper _)
    (parmsCons (arm_proper readOptional_proper _)
    (parmsCons (arm_proper readSimple_proper _)
    (parmsCons (arm_proper (readListLax_proper Advisory.xml_proper) _)
    (parmsCons (arm_proper readSimple_proper _)
    (parmsCons (arm_proper readSimple_proper _)
    (parmsCons (arm_proper readSimple_proper _)
    (parmsCons (arm_proper VulnerabilityCredits.xml_proper _)
    (parmsCons (arm_proper (Tools.xml_proper v) _)
    (parmsCons (arm_proper (VulnerabilityAnalysis.xml_proper v) _)
    (parmsCons (arm_proper (readListLax_proper VulnerabilityTarget.xml_proper) _)
    (parmsCons (arm_proper (readListLax_proper Property.xml_proper) _)
    parmsNil)))))))))))))))))
    (parmsSince15 (parmsCons (arm_proper (VulnerabilityProofOfConcept.xml_proper) _)
    (parmsCons (arm_proper readSimple_proper _)
    (parmsCons (arm_proper readSimple_proper _)
    parmsNil)))))

theorem Vulnerability.xml_proper (v : SpecVersion) :
    Proper m (Vulnerability.readXml v) :=
  readStruct_proper (Vulnerability.arms_proper v)

theorem Annotator.arms_proper (v : SpecVersion) :
    ∀ p ∈ Annotator.arms v, ProperArm m p.2 :=
  (parmsCons (arm_proper OrganizationalEntity.xml_proper _)
    (parmsCons (arm_proper OrganizationalContact.xml_proper _)
    (parmsCons (arm_proper (Component.xml_proper v) _)
    (parmsCons (arm_proper (Service.xml_proper v) _)
    parmsNil))))

theorem Annotator.xml_proper (v : SpecVersion) :
    Proper m (Annotator.readXml v) :=
  readStruct_proper (Annotator.arms_proper v)

theorem Annotation.arms_proper (v : SpecVersion) :
    ∀ p ∈ Annotation.arms v, ProperArm m p.2 :=
  (parmsCons (arm_proper (readList_proper readRef_proper) _)
    (parmsCons (arm_proper (Annotator.xml_proper v) _)
    (parmsCons (arm_proper readSimple_proper _)
    (parmsCons (arm_proper readSimple_proper _)
    (parmsCons (arm_proper Signature.xml_proper _)
    parmsNil)))))

theorem Annotation.xml_proper (v : SpecVersion) :
    Proper m (Annotation.readXml v) :=
  readStruct_proper (Annotation.arms_proper v)

theorem Bom.arms_proper (v : SpecVersion) :
    ∀ p ∈ Bom.arms v, ProperArm m p.2 :=
  (parmsAppend (parmsAppend (parmsCons (arm_proper (Metadata.xml_proper v) _)
    (parmsCons (arm_proper (readListLax_proper (Component.xml_proper v)) _)
    (parmsCons (arm_proper (readListLax_proper (Service.xml_proper v)) _)
    (parmsCons (arm_proper (readList_proper ExternalReference.xml_proper) _)
    (parmsCons (arm_proper (readList_proper Dependency.xml_proper) _)
    (parmsCons (arm_proper (readListLax_proper (Composition.xml_proper v)) _)
    parmsNil))))))
    (parmsSince14 (parmsCons (arm_proper (readListLax_proper (Vulnerability.xml_proper v)) _)
    (parmsCons (arm_proper Signature.xml_proper _)
    parmsNil))))
    (parmsSince15 (parmsCons (arm_proper (readListLax_proper Property.xml_proper) _)
    (parmsCons (arm_proper (readList_proper (Annotation.xml_proper v)) _)
    (parmsCons (arm_proper (readList_proper (Formula.xml_proper v)) _)
    parmsNil)))))

end Cdx
