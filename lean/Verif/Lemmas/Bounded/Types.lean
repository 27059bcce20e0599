import Verif.Lemmas.Bounded.Basic
import Verif.Lemmas.Format.Bom

set_option linter.unusedSectionVars false
set_option linter.unusedVariables false

/-!
# The readers of the elements do not go beyond them
-/

namespace Cdx

variable [F32Format] [ReadLimit]

theorem AttachedText.xml_bounded {tag : String} : BoundedAt tag AttachedText.readXml :=
  readWith_bounded readInner_bounded

theorem Property.xml_bounded {tag : String} : BoundedAt tag Property.readXml :=
  readWith_bounded readSimple_bounded

theorem Hash.xml_bounded {tag : String} : BoundedAt tag Hash.readXml :=
  readWith_bounded readSimple_bounded

theorem OrganizationalContact.arms_bounded :
    ∀ p ∈ OrganizationalContact.arms, BoundedArm p.1 p.2 :=
  (barmsCons (arm_bounded readSimple_bounded _)
    (barmsCons (arm_bounded readSimple_bounded _)
    (barmsCons (arm_bounded readSimple_bounded _)
    barmsNil)))

theorem OrganizationalContact.xml_bounded {tag : String} :
    BoundedAt tag OrganizationalContact.readXml :=
  readStruct_bounded (OrganizationalContact.arms_bounded)

theorem OrganizationalEntity.arms_bounded :
    ∀ p ∈ OrganizationalEntity.arms, BoundedArm p.1 p.2 :=
  (barmsCons (arm_bounded readSimple_bounded _)
    (barmsCons (arm_bounded readSimple_bounded _)
    (barmsCons (arm_bounded OrganizationalContact.xml_bounded _)
    barmsNil)))

theorem OrganizationalEntity.xml_bounded {tag : String} :
    BoundedAt tag OrganizationalEntity.readXml :=
  readStruct_bounded (OrganizationalEntity.arms_bounded)

theorem ExternalReference.arms_bounded :
    ∀ p ∈ ExternalReference.arms, BoundedArm p.1 p.2 :=
  (barmsCons (arm_bounded (map_bounded readSimple_bounded RefUri.ofUrl) _)
    (barmsCons (arm_bounded readSimple_bounded _)
    (barmsCons (arm_bounded (readList_bounded Hash.xml_bounded) _)
    barmsNil)))

theorem ExternalReference.xml_bounded {tag : String} :
    BoundedAt tag ExternalReference.readXml :=
  readStruct_bounded (ExternalReference.arms_bounded)

theorem VulnerabilitySource.arms_bounded :
    ∀ p ∈ VulnerabilitySource.arms, BoundedArm p.1 p.2 :=
  (barmsCons (arm_bounded readSimple_bounded _)
    (barmsCons (arm_bounded readSimple_bounded _)
    barmsNil))

theorem VulnerabilitySource.xml_bounded {tag : String} :
    BoundedAt tag VulnerabilitySource.readXml :=
  readStruct_bounded (VulnerabilitySource.arms_bounded)

theorem VulnerabilityReference.arms_bounded :
    ∀ p ∈ VulnerabilityReference.arms, BoundedArm p.1 p.2 :=
  (barmsCons (arm_bounded readSimple_bounded _)
    (barmsCons (arm_bounded VulnerabilitySource.xml_bounded _)
    barmsNil))

theorem VulnerabilityReference.xml_bounded {tag : String} :
    BoundedAt tag VulnerabilityReference.readXml :=
  readStruct_bounded (VulnerabilityReference.arms_bounded)

theorem Advisory.arms_bounded :
    ∀ p ∈ Advisory.arms, BoundedArm p.1 p.2 :=
  (barmsCons (arm_bounded readSimple_bounded _)
    (barmsCons (arm_bounded readSimple_bounded _)
    barmsNil))

theorem Advisory.xml_bounded {tag : String} :
    BoundedAt tag Advisory.readXml :=
  readStruct_bounded (Advisory.arms_bounded)

theorem VulnerabilityCredits.arms_bounded :
    ∀ p ∈ VulnerabilityCredits.arms, BoundedArm p.1 p.2 :=
  (barmsCons (arm_bounded (readList_bounded OrganizationalEntity.xml_bounded) _)
    (barmsCons (arm_bounded (readList_bounded OrganizationalContact.xml_bounded) _)
    barmsNil))

theorem VulnerabilityCredits.xml_bounded {tag : String} :
    BoundedAt tag VulnerabilityCredits.readXml :=
  readStruct_bounded (VulnerabilityCredits.arms_bounded)

theorem LicenseContact.arms_bounded :
    ∀ p ∈ LicenseContact.arms, BoundedArm p.1 p.2 :=
  (barmsCons (arm_bounded OrganizationalEntity.xml_bounded _)
    (barmsCons (arm_bounded OrganizationalContact.xml_bounded _)
    barmsNil))

theorem LicenseContact.xml_bounded {tag : String} :
    BoundedAt tag LicenseContact.readXml :=
  readStruct_bounded (LicenseContact.arms_bounded)

theorem Licensing.arms_bounded :
    ∀ p ∈ Licensing.arms, BoundedArm p.1 p.2 :=
  (barmsCons (arm_bounded (readList_bounded readSimple_bounded) _)
    (barmsCons (arm_bounded LicenseContact.xml_bounded _)
    (barmsCons (arm_bounded LicenseContact.xml_bounded _)
    (barmsCons (arm_bounded LicenseContact.xml_bounded _)
    (barmsCons (arm_bounded readSimple_bounded _)
    (barmsCons (arm_bounded (readList_bounded (map_bounded readSimple_bounded LicenseType.new)) _)
    (barmsCons (arm_bounded readSimple_bounded _)
    (barmsCons (arm_bounded readSimple_bounded _)
    barmsNil))))))))

theorem Licensing.xml_bounded {tag : String} :
    BoundedAt tag Licensing.readXml :=
  readStruct_bounded (Licensing.arms_bounded)

theorem License.arms_bounded (v : SpecVersion) :
    ∀ p ∈ License.arms v, BoundedArm p.1 p.2 :=
  (barmsAppend (barmsCons (armOnce_bounded readInner_bounded _ _)
    (barmsCons (armOnce_bounded readInner_bounded _ _)
    (barmsCons (arm_bounded AttachedText.xml_bounded _)
    (barmsCons (arm_bounded readSimple_bounded _)
    barmsNil))))
    (barmsSince15 (barmsCons (arm_bounded Licensing.xml_bounded _)
    (barmsCons (arm_bounded (readListLax_bounded Property.xml_bounded) _)
    barmsNil))))

theorem License.xml_bounded (v : SpecVersion) {tag : String} :
    BoundedAt tag (License.readXml v) :=
  readStruct_bounded (License.arms_bounded v)

theorem SpdxExpression.xml_bounded {tag : String} : BoundedAt tag SpdxExpression.readXml :=
  readWith_bounded readSimple_bounded

theorem Licenses.xml_bounded (v : SpecVersion) {tag : String} : BoundedAt tag (Licenses.readXml v) :=
  readStruct_bounded (barmsCons (arm_bounded (License.xml_bounded v) _)
    (barmsCons (arm_bounded SpdxExpression.xml_bounded _) barmsNil))

theorem Signer.arms_bounded :
    ∀ p ∈ Signer.arms, BoundedArm p.1 p.2 :=
  (barmsCons (arm_bounded (map_bounded readSimple_bounded Algorithm.ofSpecName) _)
    (barmsCons (arm_bounded readSimple_bounded _)
    barmsNil))

theorem Signer.xml_bounded {tag : String} :
    BoundedAt tag Signer.readXml :=
  readStruct_bounded (Signer.arms_bounded)

theorem Signer.xml_plain {tag : String} : PlainAt tag Signer.readXml :=
  readStruct_plain (plainCons (arm_plain (map_plain readSimple_plain _) _)
    (plainCons (arm_plain readSimple_plain _) plainNil))

theorem Signature.arms_plain : ∀ p ∈ Signature.arms, PlainArm p.1 p.2 :=
  plainCons (arm_plain (readList_plain Signer.xml_plain) _)
    (plainCons (arm_plain (readList_plain Signer.xml_plain) _)
    (plainCons (arm_plain readSimple_plain _) (plainCons (arm_plain readSimple_plain _) plainNil)))

theorem Signature.loop_plain (el : XName) (hel : el.localName = "signature") :
    ∀ (content : List XNode) (st : Signature.Vars),
    (∀ x ∈ content, x.isElem = true) →
    (∃ e, ∀ rest, Signature.loop el ((XNode.eventsAll content ++ .stop el :: rest).length + 1) st
      (XNode.eventsAll content ++ .stop el :: rest) = .error e) ∨
    (∃ st', ∀ rest, Signature.loop el ((XNode.eventsAll content ++ .stop el :: rest).length + 1) st
      (XNode.eventsAll content ++ .stop el :: rest) = .ok (st', rest))
  | [], st, _ => .inr ⟨st, fun rest => by simp [XNode.eventsAll, Signature.loop, Signature.step]⟩
  | .chars s :: l, st, he => absurd (he _ (.head _)) (by simp [XNode.isElem])
  | .cdata s :: l, st, he => absurd (he _ (.head _)) (by simp [XNode.isElem])
  | .other :: l, st, he => absurd (he _ (.head _)) (by simp [XNode.isElem])
  | .elem n attrs ns c :: l, st, he => by
    have hev : ∀ rest, XNode.eventsAll (.elem n attrs ns c :: l) ++ .stop el :: rest =
        .start n attrs ns ::
          (XNode.eventsAll c ++ .stop n :: (XNode.eventsAll l ++ .stop el :: rest)) := by
      intro rest
      simp [XNode.events, XNode.eventsAll]
    have next : (∃ e, ∀ rest, Signature.step el st (.start n attrs ns)
          (XNode.eventsAll c ++ .stop n :: rest) = .error e) ∨
        (∃ st', ∀ rest, Signature.step el st (.start n attrs ns)
          (XNode.eventsAll c ++ .stop n :: rest) = .ok (false, st', rest)) := by
      simp only [Signature.step]
      cases harm : Signature.arms.lookup n.localName with
      | some act =>
        obtain ⟨o, ho⟩ := Signature.arms_plain _ (mem_of_lookup harm) n attrs st c rfl
        cases o with
        | error e => exact .inl ⟨e, fun rest => by
            simp only; rw [show act n attrs st _ = _ from ho rest]; rfl⟩
        | ok st' => exact .inr ⟨st', fun rest => by
            simp only; rw [show act n attrs st _ = _ from ho rest]; rfl⟩
      | none =>
        simp only [Signature.other]
        by_cases hn : n = el
        · subst hn
          obtain ⟨o, ho⟩ := Signer.xml_plain n [] c rfl
          cases o with
          | error e => exact .inl ⟨e, fun rest => by rw [ho]; rfl⟩
          | ok s => exact .inr ⟨{ st with signature := some (.single s) }, fun rest => by
              rw [ho]; rfl⟩
        · left
          have harms : ∀ p ∈ Signer.arms, PlainArm p.1 p.2 :=
            plainCons (arm_plain (map_plain readSimple_plain _) _)
              (plainCons (arm_plain readSimple_plain _) plainNil)
          rcases plain_eventsAll (el := el) harms c {}
            with ⟨e, h⟩ | ⟨st', h⟩
          · exact ⟨e, fun rest => by
              simp only [Signer.readXml, readStruct, bind, Except.bind]; rw [h]⟩
          · exact ⟨_, fun rest => by
              simp only [Signer.readXml, readStruct, bind, Except.bind]
              rw [h, readFields_stop_other _ _ _ _ _ _ hn, if_neg nofun]⟩
    rcases next with ⟨e, h⟩ | ⟨st', h⟩
    · exact .inl ⟨e, fun rest => by rw [hev, Signature.loop, h]⟩
    · rcases Signature.loop_plain el hel l st' (fun x hx => he x (.tail _ hx)) with
        ⟨e, h'⟩ | ⟨st'', h'⟩
      · exact .inl ⟨e, fun rest => by
          rw [hev, Signature.loop_next (by simp; omega) (h _)]; exact h' rest⟩
      · exact .inr ⟨st'', fun rest => by
          rw [hev, Signature.loop_next (by simp; omega) (h _)]; exact h' rest⟩

theorem Signature.xml_bounded : BoundedAt "signature" Signature.readXml := by
  intro el attrs content rest x left h1 h2 _ h4
  rcases Signature.loop_plain el h1 content {} (h2 rfl) with ⟨e, h⟩ | ⟨st, h⟩
  · simp only [Signature.readXml, bind, Except.bind] at h4
    rw [h] at h4
    cases h4
  · simp only [Signature.readXml, bind, Except.bind] at h4
    rw [h] at h4
    simp only at h4
    split at h4
    · cases h4
    · rename_i y hy
      cases h4
      refine ⟨XNode.eventsAll content ++ [.stop el], [], by simp, by simp, rfl, fun other => ?_⟩
      simp only [Signature.readXml, bind, Except.bind]
      rw [List.append_assoc, List.cons_append, List.nil_append, h]
      simp only [hy]

theorem Dependency.arms_bounded :
    ∀ p ∈ Dependency.arms, BoundedArm p.1 p.2 :=
  (barmsCons (arm_bounded readRef_bounded _)
    barmsNil)

theorem Dependency.xml_bounded {tag : String} :
    BoundedAt tag Dependency.readXml :=
  readStruct_bounded (Dependency.arms_bounded)

theorem Composition.arms_bounded (v : SpecVersion) :
    ∀ p ∈ Composition.arms v, BoundedArm p.1 p.2 :=
  (barmsAppend (barmsAppend (barmsCons (arm_bounded (map_bounded readSimple_bounded AggregateType.new) _)
    (barmsCons (arm_bounded (readListLax_bounded readRef_bounded) _)
    (barmsCons (arm_bounded (readListLax_bounded readRef_bounded) _)
    barmsNil)))
    (barmsSince14 (barmsCons (arm_bounded Signature.xml_bounded _)
    barmsNil)))
    (barmsSince15 (barmsCons (arm_bounded (readListLax_bounded readRef_bounded) _)
    barmsNil)))

theorem Composition.xml_bounded (v : SpecVersion) {tag : String} :
    BoundedAt tag (Composition.readXml v) :=
  readStruct_bounded (Composition.arms_bounded v)

theorem IdentifiableAction.arms_bounded :
    ∀ p ∈ IdentifiableAction.arms, BoundedArm p.1 p.2 :=
  (barmsCons (arm_bounded readSimple_bounded _)
    (barmsCons (arm_bounded readSimple_bounded _)
    (barmsCons (arm_bounded readSimple_bounded _)
    barmsNil)))

theorem IdentifiableAction.xml_bounded {tag : String} :
    BoundedAt tag IdentifiableAction.readXml :=
  readStruct_bounded (IdentifiableAction.arms_bounded)

theorem Commit.arms_bounded :
    ∀ p ∈ Commit.arms, BoundedArm p.1 p.2 :=
  (barmsCons (arm_bounded readSimple_bounded _)
    (barmsCons (arm_bounded readSimple_bounded _)
    (barmsCons (arm_bounded IdentifiableAction.xml_bounded _)
    (barmsCons (arm_bounded IdentifiableAction.xml_bounded _)
    (barmsCons (arm_bounded readSimple_bounded _)
    barmsNil)))))

theorem Commit.xml_bounded {tag : String} :
    BoundedAt tag Commit.readXml :=
  readStruct_bounded (Commit.arms_bounded)

theorem Diff.arms_bounded :
    ∀ p ∈ Diff.arms, BoundedArm p.1 p.2 :=
  (barmsCons (arm_bounded AttachedText.xml_bounded _)
    (barmsCons (arm_bounded readSimple_bounded _)
    barmsNil))

theorem Diff.xml_bounded {tag : String} :
    BoundedAt tag Diff.readXml :=
  readStruct_bounded (Diff.arms_bounded)

theorem Source.arms_bounded :
    ∀ p ∈ Source.arms, BoundedArm p.1 p.2 :=
  (barmsCons (arm_bounded readSimple_bounded _)
    (barmsCons (arm_bounded readSimple_bounded _)
    barmsNil))

theorem Source.xml_bounded {tag : String} :
    BoundedAt tag Source.readXml :=
  readStruct_bounded (Source.arms_bounded)

theorem Issue.arms_bounded :
    ∀ p ∈ Issue.arms, BoundedArm p.1 p.2 :=
  (barmsCons (arm_bounded readSimple_bounded _)
    (barmsCons (arm_bounded readSimple_bounded _)
    (barmsCons (arm_bounded readSimple_bounded _)
    (barmsCons (arm_bounded Source.xml_bounded _)
    (barmsCons (arm_bounded (readList_bounded readSimple_bounded) _)
    barmsNil)))))

theorem Issue.xml_bounded {tag : String} :
    BoundedAt tag Issue.readXml :=
  readStruct_bounded (Issue.arms_bounded)

theorem Patch.arms_bounded :
    ∀ p ∈ Patch.arms, BoundedArm p.1 p.2 :=
  (barmsCons (arm_bounded Diff.xml_bounded _)
    (barmsCons (arm_bounded (readList_bounded Issue.xml_bounded) _)
    barmsNil))

theorem Patch.xml_bounded {tag : String} :
    BoundedAt tag Patch.readXml :=
  readStruct_bounded (Patch.arms_bounded)

theorem VulnerabilityAnalysis.arms_bounded (v : SpecVersion) :
    ∀ p ∈ VulnerabilityAnalysis.arms v, BoundedArm p.1 p.2 :=
  (barmsAppend (barmsCons (arm_bounded (map_bounded readSimple_bounded ImpactAnalysisState.new) _)
    (barmsCons (arm_bounded (map_bounded readSimple_bounded ImpactAnalysisJustification.new) _)
    (barmsCons (arm_bounded (readList_bounded (map_bounded readSimple_bounded ImpactAnalysisResponse.new)) _)
    (barmsCons (arm_bounded readSimple_bounded _)
    barmsNil))))
    (barmsSince15 (barmsCons (arm_bounded readSimple_bounded _)
    (barmsCons (arm_bounded readSimple_bounded _)
    barmsNil))))

theorem VulnerabilityAnalysis.xml_bounded (v : SpecVersion) {tag : String} :
    BoundedAt tag (VulnerabilityAnalysis.readXml v) :=
  readStruct_bounded (VulnerabilityAnalysis.arms_bounded v)

theorem TargetVersion.arms_bounded :
    ∀ p ∈ TargetVersion.arms, BoundedArm p.1 p.2 :=
  (barmsCons (arm_bounded readSimple_bounded _)
    (barmsCons (arm_bounded readSimple_bounded _)
    (barmsCons (arm_bounded (map_bounded readSimple_bounded Status.new) _)
    barmsNil)))

theorem TargetVersion.xml_bounded {tag : String} :
    BoundedAt tag TargetVersion.readXml :=
  readStruct_bounded (TargetVersion.arms_bounded)

theorem VulnerabilityTarget.arms_bounded :
    ∀ p ∈ VulnerabilityTarget.arms, BoundedArm p.1 p.2 :=
  (barmsCons (arm_bounded readSimple_bounded _)
    (barmsCons (arm_bounded (readListLax_bounded TargetVersion.xml_bounded) _)
    barmsNil))

theorem VulnerabilityTarget.xml_bounded {tag : String} :
    BoundedAt tag VulnerabilityTarget.readXml :=
  readStruct_bounded (VulnerabilityTarget.arms_bounded)

theorem DataGovernanceResponsibleParty.arms_bounded :
    ∀ p ∈ DataGovernanceResponsibleParty.arms, BoundedArm p.1 p.2 :=
  (barmsCons (arm_bounded OrganizationalEntity.xml_bounded _)
    (barmsCons (arm_bounded OrganizationalContact.xml_bounded _)
    barmsNil))

theorem DataGovernanceResponsibleParty.xml_bounded {tag : String} :
    BoundedAt tag DataGovernanceResponsibleParty.readXml :=
  readStruct_bounded (DataGovernanceResponsibleParty.arms_bounded)

theorem DataGovernance.arms_bounded :
    ∀ p ∈ DataGovernance.arms, BoundedArm p.1 p.2 :=
  (barmsCons (arm_bounded (readList_bounded DataGovernanceResponsibleParty.xml_bounded) _)
    (barmsCons (arm_bounded (readList_bounded DataGovernanceResponsibleParty.xml_bounded) _)
    (barmsCons (arm_bounded (readList_bounded DataGovernanceResponsibleParty.xml_bounded) _)
    barmsNil)))

theorem DataGovernance.xml_bounded {tag : String} :
    BoundedAt tag DataGovernance.readXml :=
  readStruct_bounded (DataGovernance.arms_bounded)

theorem Attachment.lastText_bounded {el : XName} {content : List XNode} :
    ∀ (q : List XEvent) (st : Option String) (rest : List XEvent) (st' : Option String)
      (left : List XEvent), RestOf content el q →
    Attachment.lastText el st (q ++ rest) = .ok (st', left) →
    ∃ used unread, used ≠ [] ∧ q = used ++ unread ∧ left = unread ++ rest ∧
      ∀ other, Attachment.lastText el st (used ++ other) = .ok (st', other)
  | [], _, _, _, _, hq, _ => absurd rfl hq.1
  | e :: q, st, rest, st', left, hq, h => by
    have next : ∀ st₁, e ≠ .stop el →
        (∀ l, Attachment.lastText el st (e :: l) = Attachment.lastText el st₁ l) →
        ∃ used unread, used ≠ [] ∧ e :: q = used ++ unread ∧ left = unread ++ rest ∧
          ∀ other, Attachment.lastText el st (used ++ other) = .ok (st', other) := by
      intro st₁ he hk
      rw [List.cons_append, hk] at h
      obtain ⟨used, unread, h1, h2, h3, h4⟩ :=
        Attachment.lastText_bounded q st₁ rest st' left (hq.tail he) h
      exact ⟨e :: used, unread, nofun, by rw [h2]; rfl, h3, fun other => by
        rw [List.cons_append, hk]; exact h4 other⟩
    cases e with
    | stop n =>
      by_cases hn : n = el
      · subst hn
        rw [List.cons_append, Attachment.lastText, if_pos rfl] at h
        cases h
        exact ⟨[.stop n], q, nofun, rfl, rfl, fun other => by
          rw [List.cons_append, Attachment.lastText, if_pos rfl]; rfl⟩
      · exact next st (by simpa using hn) fun l => by rw [Attachment.lastText, if_neg hn]
    | chars s => exact next (some s) nofun fun l => rfl
    | _ => exact next st nofun fun l => rfl

theorem Attachment.readContent_bounded {tag : String} : BoundedAt tag Attachment.readContent := by
  intro el attrs content rest x left h1 h2 h3 h4
  simp only [Attachment.readContent, bind, Except.bind] at h4
  split at h4
  · cases h4
  · rename_i p hp
    split at h4
    · cases h4
    · rename_i y hy
      cases h4
      obtain ⟨used, unread, e1, e2, e3, e4⟩ := Attachment.lastText_bounded _ none rest p.1 p.2
        (restOf_all (content := content)) (by rw [List.append_assoc]; exact hp)
      refine ⟨used, unread, e1, e2.symm, e3, fun other => ?_⟩
      simp only [Attachment.readContent, bind, Except.bind]
      rw [e4]
      simp only [hy]

theorem Attachment.xml_bounded {tag : String} :
    BoundedAt tag Attachment.readXml := readWith_bounded (Attachment.readContent_bounded)

theorem Graphic.arms_bounded :
    ∀ p ∈ Graphic.arms, BoundedArm p.1 p.2 :=
  (barmsCons (arm_bounded readSimple_bounded _)
    (barmsCons (arm_bounded (Attachment.xml_bounded (tag := "image")) _)
    barmsNil))

theorem Graphic.xml_bounded {tag : String} :
    BoundedAt tag Graphic.readXml :=
  readStruct_bounded (Graphic.arms_bounded)

theorem GraphicsCollection.arms_bounded :
    ∀ p ∈ GraphicsCollection.arms, BoundedArm p.1 p.2 :=
  (barmsCons (arm_bounded readSimple_bounded _)
    (barmsCons (arm_bounded (readListWith_bounded (tag := "collection") (Graphic.xml_bounded (tag := "graphic"))) _)
    barmsNil))

theorem GraphicsCollection.xml_bounded {tag : String} :
    BoundedAt tag GraphicsCollection.readXml :=
  readStruct_bounded (GraphicsCollection.arms_bounded)

theorem DataContents.arms_bounded :
    ∀ p ∈ DataContents.arms, BoundedArm p.1 p.2 :=
  (barmsCons (arm_bounded (Attachment.xml_bounded (tag := "attachment")) _)
    (barmsCons (arm_bounded readSimple_bounded _)
    (barmsCons (arm_bounded (readListLax_bounded Property.xml_bounded) _)
    barmsNil)))

theorem DataContents.xml_bounded {tag : String} :
    BoundedAt tag DataContents.readXml :=
  readStruct_bounded (DataContents.arms_bounded)

theorem ComponentData.arms_bounded :
    ∀ p ∈ ComponentData.arms, BoundedArm p.1 p.2 :=
  (barmsCons (arm_bounded (map_bounded readSimple_bounded ComponentDataType.new) _)
    (barmsCons (arm_bounded readSimple_bounded _)
    (barmsCons (arm_bounded (DataContents.xml_bounded (tag := "contents")) _)
    (barmsCons (arm_bounded readSimple_bounded _)
    (barmsCons (arm_bounded readSimple_bounded _)
    (barmsCons (arm_bounded (GraphicsCollection.xml_bounded (tag := "graphics")) _)
    (barmsCons (arm_bounded readSimple_bounded _)
    (barmsCons (arm_bounded (DataGovernance.xml_bounded (tag := "governance")) _)
    barmsNil))))))))

theorem ComponentData.xml_bounded {tag : String} :
    BoundedAt tag ComponentData.readXml :=
  readStruct_bounded (ComponentData.arms_bounded)

theorem ModelParametersApproach.arms_bounded :
    ∀ p ∈ ModelParametersApproach.arms, BoundedArm p.1 p.2 :=
  (barmsCons (arm_bounded (map_bounded readSimple_bounded ApproachType.new) _)
    barmsNil)

theorem ModelParametersApproach.xml_bounded {tag : String} :
    BoundedAt tag ModelParametersApproach.readXml :=
  readStruct_bounded (ModelParametersApproach.arms_bounded)

theorem Dataset.xml_bounded {tag : String} : BoundedAt tag Dataset.readXml :=
  map_bounded (ComponentData.xml_bounded) _

theorem MLParameter.arms_bounded :
    ∀ p ∈ MLParameter.arms, BoundedArm p.1 p.2 :=
  (barmsCons (arm_bounded readSimple_bounded _)
    barmsNil)

theorem MLParameter.xml_bounded {tag : String} :
    BoundedAt tag MLParameter.readXml :=
  readStruct_bounded (MLParameter.arms_bounded)

theorem ModelParameters.arms_bounded :
    ∀ p ∈ ModelParameters.arms, BoundedArm p.1 p.2 :=
  (barmsCons (arm_bounded (ModelParametersApproach.xml_bounded (tag := "approach")) _)
    (barmsCons (arm_bounded readSimple_bounded _)
    (barmsCons (arm_bounded readSimple_bounded _)
    (barmsCons (arm_bounded readSimple_bounded _)
    (barmsCons (arm_bounded (readList_bounded (Dataset.xml_bounded (tag := "dataset"))) _)
    (barmsCons (arm_bounded (readListWith_bounded (tag := "inputs") (MLParameter.xml_bounded (tag := "input"))) _)
    (barmsCons (arm_bounded (readListWith_bounded (tag := "outputs") (MLParameter.xml_bounded (tag := "output"))) _)
    barmsNil)))))))

theorem ModelParameters.xml_bounded {tag : String} :
    BoundedAt tag ModelParameters.readXml :=
  readStruct_bounded (ModelParameters.arms_bounded)

theorem ConfidenceInterval.arms_bounded :
    ∀ p ∈ ConfidenceInterval.arms, BoundedArm p.1 p.2 :=
  (barmsCons (arm_bounded readSimple_bounded _)
    (barmsCons (arm_bounded readSimple_bounded _)
    barmsNil))

theorem ConfidenceInterval.xml_bounded {tag : String} :
    BoundedAt tag ConfidenceInterval.readXml :=
  readStruct_bounded (ConfidenceInterval.arms_bounded)

theorem PerformanceMetric.arms_bounded :
    ∀ p ∈ PerformanceMetric.arms, BoundedArm p.1 p.2 :=
  (barmsCons (arm_bounded readSimple_bounded _)
    (barmsCons (arm_bounded readSimple_bounded _)
    (barmsCons (arm_bounded readSimple_bounded _)
    (barmsCons (arm_bounded (ConfidenceInterval.xml_bounded (tag := "confidenceInterval")) _)
    barmsNil))))

theorem PerformanceMetric.xml_bounded {tag : String} :
    BoundedAt tag PerformanceMetric.readXml :=
  readStruct_bounded (PerformanceMetric.arms_bounded)

theorem QuantitativeAnalysis.arms_bounded :
    ∀ p ∈ QuantitativeAnalysis.arms, BoundedArm p.1 p.2 :=
  (barmsCons (arm_bounded (readListWith_bounded (tag := "performanceMetrics") (PerformanceMetric.xml_bounded (tag := "performanceMetric"))) _)
    (barmsCons (arm_bounded (GraphicsCollection.xml_bounded (tag := "graphics")) _)
    barmsNil))

theorem QuantitativeAnalysis.xml_bounded {tag : String} :
    BoundedAt tag QuantitativeAnalysis.readXml :=
  readStruct_bounded (QuantitativeAnalysis.arms_bounded)

theorem ModelCard.arms_bounded :
    ∀ p ∈ ModelCard.arms, BoundedArm p.1 p.2 :=
  (barmsCons (arm_bounded (ModelParameters.xml_bounded (tag := "modelParameters")) _)
    (barmsCons (arm_bounded (QuantitativeAnalysis.xml_bounded (tag := "quantitativeAnalysis")) _)
    barmsNil))

theorem ModelCard.xml_bounded {tag : String} :
    BoundedAt tag ModelCard.readXml :=
  readStruct_bounded (ModelCard.arms_bounded)

theorem VulnerabilityProofOfConcept.arms_bounded :
    ∀ p ∈ VulnerabilityProofOfConcept.arms, BoundedArm p.1 p.2 :=
  (barmsCons (arm_bounded readSimple_bounded _)
    (barmsCons (arm_bounded readSimple_bounded _)
    (barmsCons (arm_bounded (readList_bounded (Attachment.xml_bounded (tag := "attachment"))) _)
    barmsNil)))

theorem VulnerabilityProofOfConcept.xml_bounded {tag : String} :
    BoundedAt tag VulnerabilityProofOfConcept.readXml :=
  readStruct_bounded (VulnerabilityProofOfConcept.arms_bounded)

theorem DataClassification.xml_bounded {tag : String} : BoundedAt tag DataClassification.readXml :=
  readWith_bounded readSimple_bounded

theorem ServiceData.xml_bounded {tag : String} :
    BoundedAt tag ServiceData.readXml :=
  readStruct_bounded (barmsCons (arm_bounded DataClassification.xml_bounded _)
    (barmsCons (arm_bounded (DataGovernance.xml_bounded (tag := "governance")) _)
    (barmsCons (arm_bounded (readList_bounded readSimple_bounded) _)
    (barmsCons (arm_bounded (readList_bounded readSimple_bounded) _) barmsNil))))

theorem ServiceDataChoice.xml_bounded (v : SpecVersion) {tag : String} :
    BoundedAt tag (ServiceDataChoice.readXml v) :=
  readStruct_bounded (barmsAppend
    (barmsCons (arm_bounded DataClassification.xml_bounded _) barmsNil)
    (barmsSince15 (barmsCons (arm_bounded (ServiceData.xml_bounded (tag := "dataflow")) _) barmsNil)))

theorem Swid.xml_bounded {tag : String} : BoundedAt tag Swid.readXml :=
  readStruct_bounded (barmsCons (arm_bounded AttachedText.xml_bounded _)
    (barmsCons (arm_bounded readSimple_bounded _) barmsNil))

theorem Lifecycle.xml_bounded {tag : String} : BoundedAt tag Lifecycle.readXml :=
  readStruct_bounded (barmsCons (arm_bounded readSimple_bounded _)
    (barmsCons (arm_bounded readSimple_bounded _) (barmsCons (arm_bounded readSimple_bounded _) barmsNil)))

theorem VulnerabilityRating.arms_bounded :
    ∀ p ∈ VulnerabilityRating.arms, BoundedArm p.1 p.2 :=
  (barmsCons (arm_bounded VulnerabilitySource.xml_bounded _)
    (barmsCons (arm_bounded readScore_bounded _)
    (barmsCons (arm_bounded (map_bounded readSimple_bounded Severity.new) _)
    (barmsCons (arm_bounded (map_bounded readSimple_bounded ScoreMethod.new) _)
    (barmsCons (arm_bounded readSimple_bounded _)
    (barmsCons (arm_bounded readSimple_bounded _)
    barmsNil))))))

theorem VulnerabilityRating.xml_bounded {tag : String} :
    BoundedAt tag VulnerabilityRating.readXml :=
  readStruct_bounded (VulnerabilityRating.arms_bounded)

theorem readToolRefs_bounded : BoundedAt "tools" readToolRefs := by
  refine PlainAt.bounded ?_
  intro el attrs content h1
  rcases toolRefs_eventsAll (el := el) content [] with ⟨acc, h⟩ | ⟨e, h⟩
  · refine ⟨.ok acc, fun rest => ?_⟩
    rw [readToolRefs, h, toolRefsLoop, if_neg (by rw [h1]; decide), if_pos rfl]
    rfl
  · exact ⟨.error e, fun rest => h _⟩

theorem Occurrence.arms_bounded :
    ∀ p ∈ Occurrence.arms, BoundedArm p.1 p.2 :=
  (barmsCons (arm_bounded readSimple_bounded _)
    barmsNil)

theorem Occurrence.xml_bounded {tag : String} :
    BoundedAt tag Occurrence.readXml :=
  readStruct_bounded (Occurrence.arms_bounded)

theorem Frame.arms_bounded :
    ∀ p ∈ Frame.arms, BoundedArm p.1 p.2 :=
  (barmsCons (arm_bounded readSimple_bounded _)
    (barmsCons (arm_bounded readSimple_bounded _)
    (barmsCons (arm_bounded readSimple_bounded _)
    (barmsCons (arm_bounded (readList_bounded readSimple_bounded) _)
    (barmsCons (arm_bounded readU32_bounded _)
    (barmsCons (arm_bounded readU32_bounded _)
    (barmsCons (arm_bounded readSimple_bounded _)
    barmsNil)))))))

theorem Frame.xml_bounded {tag : String} :
    BoundedAt tag Frame.readXml :=
  readStruct_bounded (Frame.arms_bounded)

theorem Callstack.xml_bounded {tag : String} : BoundedAt tag Callstack.readXml :=
  readStruct_bounded
    (barmsCons (arm_bounded (Frame.xml_bounded (tag := "frame")) _) barmsNil)

theorem Method.arms_bounded :
    ∀ p ∈ Method.arms, BoundedArm p.1 p.2 :=
  (barmsCons (arm_bounded readSimple_bounded _)
    (barmsCons (arm_bounded readF32_bounded _)
    (barmsCons (arm_bounded readSimple_bounded _)
    barmsNil)))

theorem Method.xml_bounded {tag : String} :
    BoundedAt tag Method.readXml :=
  readStruct_bounded (Method.arms_bounded)

theorem Identity.arms_bounded :
    ∀ p ∈ Identity.arms, BoundedArm p.1 p.2 :=
  (barmsCons (arm_bounded (map_bounded readSimple_bounded IdentityField.new) _)
    (barmsCons (arm_bounded readF32_bounded _)
    (barmsCons (arm_bounded (readList_bounded (Method.xml_bounded (tag := "method"))) _)
    (barmsCons (arm_bounded readToolRefs_bounded _)
    barmsNil))))

theorem Identity.xml_bounded {tag : String} :
    BoundedAt tag Identity.readXml :=
  readStruct_bounded (Identity.arms_bounded)

theorem ComponentEvidence.arms_bounded (v : SpecVersion) :
    ∀ p ∈ ComponentEvidence.arms v, BoundedArm p.1 p.2 :=
  (barmsAppend (barmsCons (arm_bounded (Licenses.xml_bounded v) _)
    (barmsCons (arm_bounded (readList_bounded readSimple_bounded) _)
    barmsNil))
    (barmsSince15 (barmsCons (arm_bounded (readList_bounded Occurrence.xml_bounded) _)
    (barmsCons (arm_bounded (Callstack.xml_bounded (tag := "callstack")) _)
    (barmsCons (arm_bounded (Identity.xml_bounded (tag := "identity")) _)
    barmsNil)))))

theorem ComponentEvidence.xml_bounded (v : SpecVersion) {tag : String} :
    BoundedAt tag (ComponentEvidence.readXml v) :=
  readStruct_bounded (ComponentEvidence.arms_bounded v)

theorem Service.arms_boundedWith (v : SpecVersion) {sub : XElem Service}
    (hs : ∀ {t}, BoundedAt t sub) :
    ∀ p ∈ Service.armsWith sub v, BoundedArm p.1 p.2 :=
  (barmsAppend (barmsAppend (barmsCons (arm_bounded OrganizationalEntity.xml_bounded _)
    (barmsCons (arm_bounded readSimple_bounded _)
    (barmsCons (arm_bounded readSimple_bounded _)
    (barmsCons (arm_bounded readSimple_bounded _)
    (barmsCons (arm_bounded readSimple_bounded _)
    (barmsCons (arm_bounded (readList_bounded readSimple_bounded) _)
    (barmsCons (arm_bounded readBool_bounded _)
    (barmsCons (arm_bounded readBool_bounded _)
    (barmsCons (arm_bounded (ServiceDataChoice.xml_bounded v (tag := "data")) _)
    (barmsCons (arm_bounded (Licenses.xml_bounded v) _)
    (barmsCons (arm_bounded (readList_bounded ExternalReference.xml_bounded) _)
    (barmsCons (arm_bounded (readListLax_bounded Property.xml_bounded) _)
    (barmsCons (arm_bounded (readListLax_bounded hs) _)
    barmsNil)))))))))))))
    (barmsSince14 (barmsCons (arm_bounded Signature.xml_bounded _)
    barmsNil)))
    (barmsSince15 (barmsCons (arm_bounded readSimple_bounded _)
    barmsNil)))

theorem Service.xml_boundedWith (v : SpecVersion) {sub : XElem Service}
    (hs : ∀ {t}, BoundedAt t sub) {tag : String} :
    BoundedAt tag (Service.readXmlWith sub v) :=
  readStruct_bounded (Service.arms_boundedWith v hs)

theorem Service.xml_boundedN (v : SpecVersion) : ∀ {n : Nat} {tag : String},
    BoundedAt tag (Service.readXmlN v n)
  | 0, _ => fun _ _ _ _ _ _ _ _ _ h => nomatch h
  | _ + 1, _ => Service.xml_boundedWith v (Service.xml_boundedN v)

theorem Service.xml_bounded (v : SpecVersion) {tag : String} : BoundedAt tag (Service.readXml v) :=
  Service.xml_boundedN v

theorem Pedigree.arms_boundedWith (v : SpecVersion) {sub : XElem Component}
    (hs : ∀ {t}, BoundedAt t sub) :
    ∀ p ∈ Pedigree.armsWith sub v, BoundedArm p.1 p.2 :=
  (barmsCons (arm_bounded (readListLax_bounded hs) _)
    (barmsCons (arm_bounded (readListLax_bounded hs) _)
    (barmsCons (arm_bounded (readListLax_bounded hs) _)
    (barmsCons (arm_bounded (readListLax_bounded Commit.xml_bounded) _)
    (barmsCons (arm_bounded (readListLax_bounded Patch.xml_bounded) _)
    (barmsCons (arm_bounded readSimple_bounded _)
    barmsNil))))))

theorem Pedigree.xml_boundedWith (v : SpecVersion) {sub : XElem Component}
    (hs : ∀ {t}, BoundedAt t sub) {tag : String} :
    BoundedAt tag (Pedigree.readXmlWith sub v) :=
  readStruct_bounded (Pedigree.arms_boundedWith v hs)

theorem Component.arms_boundedWith (v : SpecVersion) {sub : XElem Component}
    (hs : ∀ {t}, BoundedAt t sub) :
    ∀ p ∈ Component.armsWith sub v, BoundedArm p.1 p.2 :=
  (barmsAppend (barmsAppend (barmsCons (arm_bounded OrganizationalEntity.xml_bounded _)
    (barmsCons (arm_bounded readSimple_bounded _)
    (barmsCons (arm_bounded readSimple_bounded _)
    (barmsCons (arm_bounded readSimple_bounded _)
    (barmsCons (arm_bounded readSimple_bounded _)
    (barmsCons (arm_bounded readSimple_bounded _)
    (barmsCons (arm_bounded readSimple_bounded _)
    (barmsCons (arm_bounded (map_bounded readSimple_bounded Scope.new) _)
    (barmsCons (arm_bounded (readList_bounded Hash.xml_bounded) _)
    (barmsCons (arm_bounded (Licenses.xml_bounded v) _)
    (barmsCons (arm_bounded readSimple_bounded _)
    (barmsCons (arm_bounded readSimple_bounded _)
    (barmsCons (arm_bounded readSimple_bounded _)
    (barmsCons (arm_bounded Swid.xml_bounded _)
    (barmsCons (arm_bounded readBool_bounded _)
    (barmsCons (arm_bounded (Pedigree.xml_boundedWith v hs) _)
    (barmsCons (arm_bounded (readList_bounded ExternalReference.xml_bounded) _)
    (barmsCons (arm_bounded (readListLax_bounded Property.xml_bounded) _)
    (barmsCons (arm_bounded (readListLax_bounded hs) _)
    (barmsCons (arm_bounded (ComponentEvidence.xml_bounded v (tag := "evidence")) _)
    barmsNil))))))))))))))))))))
    (barmsSince14 (barmsCons (arm_bounded Signature.xml_bounded _)
    barmsNil)))
    (barmsSince15 (barmsCons (arm_bounded (ModelCard.xml_bounded (tag := "modelCard")) _)
    (barmsCons (arm_bounded (ComponentData.xml_bounded (tag := "data")) _)
    barmsNil))))

theorem Component.xml_boundedWith (v : SpecVersion) {sub : XElem Component}
    (hs : ∀ {t}, BoundedAt t sub) {tag : String} :
    BoundedAt tag (Component.readXmlWith sub v) :=
  readStruct_bounded (Component.arms_boundedWith v hs)

theorem Component.xml_boundedN (v : SpecVersion) : ∀ {n : Nat} {tag : String},
    BoundedAt tag (Component.readXmlN v n)
  | 0, _ => fun _ _ _ _ _ _ _ _ _ h => nomatch h
  | _ + 1, _ => Component.xml_boundedWith v (Component.xml_boundedN v)

theorem Component.xml_bounded (v : SpecVersion) {tag : String} : BoundedAt tag (Component.readXml v) :=
  Component.xml_boundedN v

theorem ResourceReference.xml_bounded {tag : String} : BoundedAt tag ResourceReference.readXml :=
  readStruct_bounded (barmsCons (arm_bounded readSimple_bounded _)
    (barmsCons (arm_bounded ExternalReference.xml_bounded _) barmsNil))

theorem EnvironmentVar.all_bounded {tag : String} : BoundedAt tag EnvironmentVar.readAll :=
  readStruct_bounded (barmsCons (arm_bounded (bind_bounded readSimple_bounded fun el attrs s =>
      (reqAttr el attrs "name").map fun n => EnvironmentVar.property n s) _)
    (barmsCons (arm_bounded readSimple_bounded _) barmsNil))

theorem Parameter.arms_bounded :
    ∀ p ∈ Parameter.arms, BoundedArm p.1 p.2 :=
  (barmsCons (arm_bounded readSimple_bounded _)
    (barmsCons (arm_bounded readSimple_bounded _)
    (barmsCons (arm_bounded readSimple_bounded _)
    barmsNil)))

theorem Parameter.xml_bounded {tag : String} :
    BoundedAt tag Parameter.readXml :=
  readStruct_bounded (Parameter.arms_bounded)

theorem Input.arms_bounded :
    ∀ p ∈ Input.arms, BoundedArm p.1 p.2 :=
  (barmsCons (arm_bounded ResourceReference.xml_bounded _)
    (barmsCons (arm_bounded EnvironmentVar.all_bounded _)
    (barmsCons (arm_bounded (Attachment.xml_bounded (tag := "data")) _)
    (barmsCons (arm_bounded ResourceReference.xml_bounded _)
    (barmsCons (arm_bounded ResourceReference.xml_bounded _)
    (barmsCons (arm_bounded (readListLax_bounded Property.xml_bounded) _)
    barmsNil))))))

theorem Input.xml_bounded {tag : String} :
    BoundedAt tag Input.readXml :=
  readStruct_bounded (Input.arms_bounded)

theorem Output.arms_bounded :
    ∀ p ∈ Output.arms, BoundedArm p.1 p.2 :=
  (barmsCons (arm_bounded ResourceReference.xml_bounded _)
    (barmsCons (arm_bounded EnvironmentVar.all_bounded _)
    (barmsCons (arm_bounded (Attachment.xml_bounded (tag := "data")) _)
    (barmsCons (arm_bounded (map_bounded readSimple_bounded OutputType.new) _)
    (barmsCons (arm_bounded ResourceReference.xml_bounded _)
    (barmsCons (arm_bounded ResourceReference.xml_bounded _)
    (barmsCons (arm_bounded (readListLax_bounded Property.xml_bounded) _)
    barmsNil)))))))

theorem Output.xml_bounded {tag : String} :
    BoundedAt tag Output.readXml :=
  readStruct_bounded (Output.arms_bounded)

theorem Command.arms_bounded :
    ∀ p ∈ Command.arms, BoundedArm p.1 p.2 :=
  (barmsCons (arm_bounded readSimple_bounded _)
    (barmsCons (arm_bounded (readListLax_bounded Property.xml_bounded) _)
    barmsNil))

theorem Command.xml_bounded {tag : String} :
    BoundedAt tag Command.readXml :=
  readStruct_bounded (Command.arms_bounded)

theorem Step.arms_bounded :
    ∀ p ∈ Step.arms, BoundedArm p.1 p.2 :=
  (barmsCons (arm_bounded (readList_bounded Command.xml_bounded) _)
    (barmsCons (arm_bounded readSimple_bounded _)
    (barmsCons (arm_bounded readSimple_bounded _)
    (barmsCons (arm_bounded (readListLax_bounded Property.xml_bounded) _)
    barmsNil))))

theorem Step.xml_bounded {tag : String} :
    BoundedAt tag Step.readXml :=
  readStruct_bounded (Step.arms_bounded)

theorem TriggerEvent.arms_bounded :
    ∀ p ∈ TriggerEvent.arms, BoundedArm p.1 p.2 :=
  (barmsCons (arm_bounded readSimple_bounded _)
    (barmsCons (arm_bounded readSimple_bounded _)
    (barmsCons (arm_bounded readSimple_bounded _)
    (barmsCons (arm_bounded (Attachment.xml_bounded (tag := "data")) _)
    (barmsCons (arm_bounded ResourceReference.xml_bounded _)
    (barmsCons (arm_bounded ResourceReference.xml_bounded _)
    (barmsCons (arm_bounded (readListLax_bounded Property.xml_bounded) _)
    barmsNil)))))))

theorem TriggerEvent.xml_bounded {tag : String} :
    BoundedAt tag TriggerEvent.readXml :=
  readStruct_bounded (TriggerEvent.arms_bounded)

theorem Condition.arms_bounded :
    ∀ p ∈ Condition.arms, BoundedArm p.1 p.2 :=
  (barmsCons (arm_bounded readSimple_bounded _)
    (barmsCons (arm_bounded readSimple_bounded _)
    (barmsCons (arm_bounded (readListLax_bounded Property.xml_bounded) _)
    barmsNil)))

theorem Condition.xml_bounded {tag : String} :
    BoundedAt tag Condition.readXml :=
  readStruct_bounded (Condition.arms_bounded)

theorem Trigger.arms_bounded :
    ∀ p ∈ Trigger.arms, BoundedArm p.1 p.2 :=
  (barmsCons (arm_bounded readSimple_bounded _)
    (barmsCons (arm_bounded readSimple_bounded _)
    (barmsCons (arm_bounded readSimple_bounded _)
    (barmsCons (arm_bounded (readListLax_bounded ResourceReference.xml_bounded) _)
    (barmsCons (arm_bounded (map_bounded readSimple_bounded TriggerType.new) _)
    (barmsCons (arm_bounded TriggerEvent.xml_bounded _)
    (barmsCons (arm_bounded (readList_bounded Condition.xml_bounded) _)
    (barmsCons (arm_bounded readSimple_bounded _)
    (barmsCons (arm_bounded (readList_bounded Input.xml_bounded) _)
    (barmsCons (arm_bounded (readList_bounded Output.xml_bounded) _)
    (barmsCons (arm_bounded (readListLax_bounded Property.xml_bounded) _)
    barmsNil)))))))))))

theorem Trigger.xml_bounded {tag : String} :
    BoundedAt tag Trigger.readXml :=
  readStruct_bounded (Trigger.arms_bounded)

theorem Volume.arms_bounded :
    ∀ p ∈ Volume.arms, BoundedArm p.1 p.2 :=
  (barmsCons (arm_bounded readSimple_bounded _)
    (barmsCons (arm_bounded readSimple_bounded _)
    (barmsCons (arm_bounded (map_bounded readSimple_bounded VolumeMode.new) _)
    (barmsCons (arm_bounded readSimple_bounded _)
    (barmsCons (arm_bounded readSimple_bounded _)
    (barmsCons (arm_bounded readBool_bounded _)
    (barmsCons (arm_bounded readBool_bounded _)
    (barmsCons (arm_bounded (readListLax_bounded Property.xml_bounded) _)
    barmsNil))))))))

theorem Volume.xml_bounded {tag : String} :
    BoundedAt tag Volume.readXml :=
  readStruct_bounded (Volume.arms_bounded)

theorem Workspace.arms_bounded :
    ∀ p ∈ Workspace.arms, BoundedArm p.1 p.2 :=
  (barmsCons (arm_bounded readSimple_bounded _)
    (barmsCons (arm_bounded readSimple_bounded _)
    (barmsCons (arm_bounded (readList_bounded readSimple_bounded) _)
    (barmsCons (arm_bounded readSimple_bounded _)
    (barmsCons (arm_bounded (readListLax_bounded ResourceReference.xml_bounded) _)
    (barmsCons (arm_bounded (map_bounded readSimple_bounded AccessMode.new) _)
    (barmsCons (arm_bounded readSimple_bounded _)
    (barmsCons (arm_bounded readSimple_bounded _)
    (barmsCons (arm_bounded readSimple_bounded _)
    (barmsCons (arm_bounded Volume.xml_bounded _)
    (barmsCons (arm_bounded (readListLax_bounded Property.xml_bounded) _)
    barmsNil)))))))))))

theorem Workspace.xml_bounded {tag : String} :
    BoundedAt tag Workspace.readXml :=
  readStruct_bounded (Workspace.arms_bounded)

theorem WorkflowTask.arms_bounded :
    ∀ p ∈ WorkflowTask.arms, BoundedArm p.1 p.2 :=
  (barmsCons (arm_bounded readSimple_bounded _)
    (barmsCons (arm_bounded readSimple_bounded _)
    (barmsCons (arm_bounded readSimple_bounded _)
    (barmsCons (arm_bounded (readListLax_bounded ResourceReference.xml_bounded) _)
    (barmsCons (arm_bounded (readList_bounded (map_bounded readSimple_bounded TaskType.new)) _)
    (barmsCons (arm_bounded Trigger.xml_bounded _)
    (barmsCons (arm_bounded (readList_bounded Step.xml_bounded) _)
    (barmsCons (arm_bounded (readList_bounded Input.xml_bounded) _)
    (barmsCons (arm_bounded (readList_bounded Output.xml_bounded) _)
    (barmsCons (arm_bounded readSimple_bounded _)
    (barmsCons (arm_bounded readSimple_bounded _)
    (barmsCons (arm_bounded (readList_bounded Workspace.xml_bounded) _)
    (barmsCons (arm_bounded (readList_bounded Dependency.xml_bounded) _)
    (barmsCons (arm_bounded (readListLax_bounded Property.xml_bounded) _)
    barmsNil))))))))))))))

theorem WorkflowTask.xml_bounded {tag : String} :
    BoundedAt tag WorkflowTask.readXml :=
  readStruct_bounded (WorkflowTask.arms_bounded)

theorem Workflow.arms_bounded :
    ∀ p ∈ Workflow.arms, BoundedArm p.1 p.2 :=
  (barmsCons (arm_bounded readSimple_bounded _)
    (barmsCons (arm_bounded readSimple_bounded _)
    (barmsCons (arm_bounded readSimple_bounded _)
    (barmsCons (arm_bounded (readListLax_bounded ResourceReference.xml_bounded) _)
    (barmsCons (arm_bounded (readList_bounded WorkflowTask.xml_bounded) _)
    (barmsCons (arm_bounded (readList_bounded Dependency.xml_bounded) _)
    (barmsCons (arm_bounded (readList_bounded (map_bounded readSimple_bounded TaskType.new)) _)
    (barmsCons (arm_bounded Trigger.xml_bounded _)
    (barmsCons (arm_bounded (readList_bounded Step.xml_bounded) _)
    (barmsCons (arm_bounded (readList_bounded Input.xml_bounded) _)
    (barmsCons (arm_bounded (readList_bounded Output.xml_bounded) _)
    (barmsCons (arm_bounded readSimple_bounded _)
    (barmsCons (arm_bounded readSimple_bounded _)
    (barmsCons (arm_bounded (readList_bounded Workspace.xml_bounded) _)
    (barmsCons (arm_bounded (readList_bounded Dependency.xml_bounded) _)
    (barmsCons (arm_bounded (readListLax_bounded Property.xml_bounded) _)
    barmsNil))))))))))))))))

theorem Workflow.xml_bounded {tag : String} :
    BoundedAt tag Workflow.readXml :=
  readStruct_bounded (Workflow.arms_bounded)

theorem Formula.arms_bounded (v : SpecVersion) :
    ∀ p ∈ Formula.arms v, BoundedArm p.1 p.2 :=
  (barmsCons (arm_bounded (readListLax_bounded (Component.xml_bounded v)) _)
    (barmsCons (arm_bounded (readListLax_bounded (Service.xml_bounded v)) _)
    (barmsCons (arm_bounded (readList_bounded Workflow.xml_bounded) _)
    (barmsCons (arm_bounded (readListLax_bounded Property.xml_bounded) _)
    barmsNil))))

theorem Formula.xml_bounded (v : SpecVersion) {tag : String} :
    BoundedAt tag (Formula.readXml v) :=
  readStruct_bounded (Formula.arms_bounded v)

theorem Tool.arms_bounded (v : SpecVersion) :
    ∀ p ∈ Tool.arms v, BoundedArm p.1 p.2 :=
  (barmsAppend (barmsCons (arm_bounded readSimple_bounded _)
    (barmsCons (arm_bounded readSimple_bounded _)
    (barmsCons (arm_bounded readSimple_bounded _)
    (barmsCons (arm_bounded (readList_bounded Hash.xml_bounded) _)
    barmsNil))))
    (barmsSince14 (barmsCons (arm_bounded (readList_bounded ExternalReference.xml_bounded) _)
    barmsNil)))

theorem Tool.xml_bounded (v : SpecVersion) {tag : String} :
    BoundedAt tag (Tool.readXml v) :=
  readStruct_bounded (Tool.arms_bounded v)

theorem Tools.xml_bounded (v : SpecVersion) {tag : String} : BoundedAt tag (Tools.readXml v) :=
  readStruct_bounded (barmsAppend (barmsCons (arm_bounded (Tool.xml_bounded v) _) barmsNil)
    (barmsSince15 (barmsCons (arm_bounded (readListLax_bounded (Component.xml_bounded v)) _)
      (barmsCons (arm_bounded (readListLax_bounded (Service.xml_bounded v)) _) barmsNil))))

theorem Metadata.arms_bounded (v : SpecVersion) :
    ∀ p ∈ Metadata.arms v, BoundedArm p.1 p.2 :=
  (barmsAppend (barmsCons (arm_bounded readSimple_bounded _)
    (barmsCons (arm_bounded (Tools.xml_bounded v) _)
    (barmsCons (arm_bounded (readList_bounded OrganizationalContact.xml_bounded) _)
    (barmsCons (arm_bounded (Component.xml_bounded v) _)
    (barmsCons (arm_bounded OrganizationalEntity.xml_bounded _)
    (barmsCons (arm_bounded OrganizationalEntity.xml_bounded _)
    (barmsCons (arm_bounded (Licenses.xml_bounded v) _)
    (barmsCons (arm_bounded (readListLax_bounded Property.xml_bounded) _)
    barmsNil))))))))
    (barmsSince15 (barmsCons (arm_bounded (readList_bounded Lifecycle.xml_bounded) _)
    barmsNil)))

theorem Metadata.xml_bounded (v : SpecVersion) {tag : String} :
    BoundedAt tag (Metadata.readXml v) :=
  readStruct_bounded (Metadata.arms_bounded v)

theorem Vulnerability.arms_bounded (v : SpecVersion) :
    ∀ p ∈ Vulnerability.arms v, BoundedArm p.1 p.2 :=
  (barmsAppend (barmsCons (arm_bounded readSimple_bounded _)
    (barmsCons (arm_bounded VulnerabilitySource.xml_bounded _)
    (barmsCons (arm_bounded (readListLax_bounded VulnerabilityReference.xml_bounded) _)
    (barmsCons (arm_bounded (readListLax_bounded VulnerabilityRating.xml_bounded) _)
    (barmsCons (arm_bounded (readList_bounded readU32_bounded) _)
    (barmsCons (arm_bounded readSimple_bounded _)
    (barmsCons (arm_bounded readOptional_bounded _)
    (barmsCons (arm_bounded readSimple_bounded _)
    (barmsCons (arm_bounded (readListLax_bounded Advisory.xml_bounded) _)
    (barmsCons (arm_bounded readSimple_bounded _)
    (barmsCons (arm_bounded readSimple_bounded _)
    (barmsCons (arm_bounded readSimple_bounded _)
    (barmsCons (arm_bounded VulnerabilityCredits.xml_bounded _)
    (barmsCons (arm_bounded (Tools.xml_bounded v) _)
    (barmsCons (arm_bounded (VulnerabilityAnalysis.xml_bounded v) _)
    (barmsCons (arm_bounded (readListLax_bounded VulnerabilityTarget.xml_bounded) _)
    (barmsCons (arm_bounded (readListLax_bounded Property.xml_bounded) _)
    barmsNil)))))))))))))))))
    (barmsSince15 (barmsCons (arm_bounded (VulnerabilityProofOfConcept.xml_bounded (tag := "proofOfConcept")) _)
    (barmsCons (arm_bounded readSimple_bounded _)
    (barmsCons (arm_bounded readSimple_bounded _)
    barmsNil)))))

theorem Vulnerability.xml_bounded (v : SpecVersion) {tag : String} :
    BoundedAt tag (Vulnerability.readXml v) :=
  readStruct_bounded (Vulnerability.arms_bounded v)

theorem Annotator.arms_bounded (v : SpecVersion) :
    ∀ p ∈ Annotator.arms v, BoundedArm p.1 p.2 :=
  (barmsCons (arm_bounded OrganizationalEntity.xml_bounded _)
    (barmsCons (arm_bounded OrganizationalContact.xml_bounded _)
    (barmsCons (arm_bounded (Component.xml_bounded v) _)
    (barmsCons (arm_bounded (Service.xml_bounded v) _)
    barmsNil))))

theorem Annotator.xml_bounded (v : SpecVersion) {tag : String} :
    BoundedAt tag (Annotator.readXml v) :=
  readStruct_bounded (Annotator.arms_bounded v)

theorem Annotation.arms_bounded (v : SpecVersion) :
    ∀ p ∈ Annotation.arms v, BoundedArm p.1 p.2 :=
  (barmsCons (arm_bounded (readList_bounded readRef_bounded) _)
    (barmsCons (arm_bounded (Annotator.xml_bounded v) _)
    (barmsCons (arm_bounded readSimple_bounded _)
    (barmsCons (arm_bounded readSimple_bounded _)
    (barmsCons (arm_bounded Signature.xml_bounded _)
    barmsNil)))))

theorem Annotation.xml_bounded (v : SpecVersion) {tag : String} :
    BoundedAt tag (Annotation.readXml v) :=
  readStruct_bounded (Annotation.arms_bounded v)

theorem Bom.arms_bounded (v : SpecVersion) :
    ∀ p ∈ Bom.arms v, BoundedArm p.1 p.2 :=
  (barmsAppend (barmsAppend (barmsCons (arm_bounded (Metadata.xml_bounded v) _)
    (barmsCons (arm_bounded (readListLax_bounded (Component.xml_bounded v)) _)
    (barmsCons (arm_bounded (readListLax_bounded (Service.xml_bounded v)) _)
    (barmsCons (arm_bounded (readList_bounded ExternalReference.xml_bounded) _)
    (barmsCons (arm_bounded (readList_bounded Dependency.xml_bounded) _)
    (barmsCons (arm_bounded (readListLax_bounded (Composition.xml_bounded v)) _)
    barmsNil))))))
    (barmsSince14 (barmsCons (arm_bounded (readListLax_bounded (Vulnerability.xml_bounded v)) _)
    (barmsCons (arm_bounded Signature.xml_bounded _)
    barmsNil))))
    (barmsSince15 (barmsCons (arm_bounded (readListLax_bounded Property.xml_bounded) _)
    (barmsCons (arm_bounded (readList_bounded (Annotation.xml_bounded v)) _)
    (barmsCons (arm_bounded (readList_bounded (Formula.xml_bounded v)) _)
    barmsNil)))))

theorem Bom.xml_bounded (v : SpecVersion) {tag : String} :
    BoundedAt tag (Bom.readXml v) :=
  readStruct_bounded (Bom.arms_bounded v)

end Cdx
