import Verif.Lemmas.XOnly.Metadata
import Verif.Lemmas.Format.Vulnerability

set_option linter.unusedSectionVars false
set_option linter.unusedSimpArgs false
set_option linter.unusedVariables false

/-!
# What has to hold for a value to come back from XML (Vulnerability)

The converse of `Verif.Lemmas.Format.Vulnerability`: a value that is read back from the element that was written
for it meets the conditions under which it was shown to be read back.
-/

namespace Cdx

variable [F32Format]

variable [ReadLimit]

theorem Vulnerability.xml_only (v : SpecVersion) {ns : Option String} {x : Vulnerability} :
    Tells ns (Vulnerability.writeXml v x) "vulnerability" (Vulnerability.readXml v) (fun y => y = x.at v → Vulnerability.XmlOk v x) := by
  cases v with
  | v1_3 =>
    have hn : ["id", "source", "references", "ratings", "cwes", "description", "detail", "recommendation", "advisories", "created", "published", "updated", "credits", "tools", "analysis", "affects", "properties"].Nodup := by decide
    have ha : ["bom-ref"].Nodup := by decide
    refine tells_struct (p := (x.bomRef)) (Vulnerability.xml_body_wf (fun _ => rfl)) ?_ ?_
    · exact congrArg Except.ok (optAttr_mk ha (.head _))
    · refine Turns.then (writeOpt_wf fun _ _ => writeSimple_wf) (Turns.opt (fun o => ({ id := o } : Vulnerability.Vars)) (.head _) hn (fun _ => rfl) rfl (fun _ _ => tells_simple.part)) ?_
      rintro _ ⟨o1, rfl, h1⟩
      refine Turns.then (writeOpt_wf fun _ _ => VulnerabilitySource.xml_wf) (Turns.opt (fun o => ({ id := o1, vulnerabilitySource := o } : Vulnerability.Vars)) (.tail _ (.head _)) hn (fun _ => rfl) rfl (fun _ _ => VulnerabilitySource.xml_only.part)) ?_
      rintro _ ⟨o2, rfl, h2⟩
      refine Turns.then (writeOpt_wf fun _ _ => (writeList_wf fun _ _ => VulnerabilityReference.xml_wf)) (Turns.opt (fun o => ({ id := o1, vulnerabilitySource := o2, vulnerabilityReferences := o } : Vulnerability.Vars)) (.tail _ (.tail _ (.head _))) hn (fun _ => rfl) rfl (fun _ _ => (tells_listLax (fun _ _ => VulnerabilityReference.xml_only.part) (fun _ _ => VulnerabilityReference.xml_wf)).part)) ?_
      rintro _ ⟨o3, rfl, h3⟩
      refine Turns.then (writeOpt_wf fun _ _ => (writeList_wf fun _ _ => VulnerabilityRating.xml_wf)) (Turns.opt (fun o => ({ id := o1, vulnerabilitySource := o2, vulnerabilityReferences := o3, vulnerabilityRatings := o } : Vulnerability.Vars)) (.tail _ (.tail _ (.tail _ (.head _)))) hn (fun _ => rfl) rfl (fun _ _ => (tells_listLax (fun _ _ => VulnerabilityRating.xml_only.part) (fun _ _ => VulnerabilityRating.xml_wf)).part)) ?_
      rintro _ ⟨o4, rfl, h4⟩
      refine Turns.then (writeOpt_wf fun _ _ => (writeList_wf fun _ _ => writeSimple_wf)) (Turns.opt (fun o => ({ id := o1, vulnerabilitySource := o2, vulnerabilityReferences := o3, vulnerabilityRatings := o4, cwes := o } : Vulnerability.Vars)) (.tail _ (.tail _ (.tail _ (.tail _ (.head _))))) hn (fun _ => rfl) rfl (fun _ _ => (tells_list (fun _ _ => tells_u32.part) (fun _ _ => writeSimple_wf)).part)) ?_
      rintro _ ⟨o5, rfl, h5⟩
      refine Turns.then (writeOpt_wf fun _ _ => writeSimple_wf) (Turns.opt (fun o => ({ id := o1, vulnerabilitySource := o2, vulnerabilityReferences := o3, vulnerabilityRatings := o4, cwes := o5, description := o } : Vulnerability.Vars)) (.tail _ (.tail _ (.tail _ (.tail _ (.tail _ (.head _)))))) hn (fun _ => rfl) rfl (fun _ _ => tells_simple.part)) ?_
      rintro _ ⟨o6, rfl, h6⟩
      refine Turns.then writeSimple_wf (Turns.req (fun o => ({ id := o1, vulnerabilitySource := o2, vulnerabilityReferences := o3, vulnerabilityRatings := o4, cwes := o5, description := o6, detail := o } : Vulnerability.Vars)) (.tail _ (.tail _ (.tail _ (.tail _ (.tail _ (.tail _ (.head _))))))) hn (fun _ => rfl) tells_always) ?_
      rintro _ ⟨o7, rfl, h7⟩
      refine Turns.then (writeOpt_wf fun _ _ => writeSimple_wf) (Turns.opt (fun o => ({ id := o1, vulnerabilitySource := o2, vulnerabilityReferences := o3, vulnerabilityRatings := o4, cwes := o5, description := o6, detail := o7, recommendation := o } : Vulnerability.Vars)) (.tail _ (.tail _ (.tail _ (.tail _ (.tail _ (.tail _ (.tail _ (.head _)))))))) hn (fun _ => rfl) rfl (fun _ _ => tells_simple.part)) ?_
      rintro _ ⟨o8, rfl, h8⟩
      refine Turns.then (writeOpt_wf fun _ _ => (writeList_wf fun _ _ => Advisory.xml_wf)) (Turns.opt (fun o => ({ id := o1, vulnerabilitySource := o2, vulnerabilityReferences := o3, vulnerabilityRatings := o4, cwes := o5, description := o6, detail := o7, recommendation := o8, advisories := o } : Vulnerability.Vars)) (.tail _ (.tail _ (.tail _ (.tail _ (.tail _ (.tail _ (.tail _ (.tail _ (.head _))))))))) hn (fun _ => rfl) rfl (fun _ _ => (tells_listLax (fun _ _ => Advisory.xml_only.part) (fun _ _ => Advisory.xml_wf)).part)) ?_
      rintro _ ⟨o9, rfl, h9⟩
      refine Turns.then (writeOpt_wf fun _ _ => writeSimple_wf) (Turns.opt (fun o => ({ id := o1, vulnerabilitySource := o2, vulnerabilityReferences := o3, vulnerabilityRatings := o4, cwes := o5, description := o6, detail := o7, recommendation := o8, advisories := o9, created := o } : Vulnerability.Vars)) (.tail _ (.tail _ (.tail _ (.tail _ (.tail _ (.tail _ (.tail _ (.tail _ (.tail _ (.head _)))))))))) hn (fun _ => rfl) rfl (fun _ _ => tells_simple.part)) ?_
      rintro _ ⟨o10, rfl, h10⟩
      refine Turns.then (writeOpt_wf fun _ _ => writeSimple_wf) (Turns.opt (fun o => ({ id := o1, vulnerabilitySource := o2, vulnerabilityReferences := o3, vulnerabilityRatings := o4, cwes := o5, description := o6, detail := o7, recommendation := o8, advisories := o9, created := o10, published := o } : Vulnerability.Vars)) (.tail _ (.tail _ (.tail _ (.tail _ (.tail _ (.tail _ (.tail _ (.tail _ (.tail _ (.tail _ (.head _))))))))))) hn (fun _ => rfl) rfl (fun _ _ => tells_simple.part)) ?_
      rintro _ ⟨o11, rfl, h11⟩
      refine Turns.then (writeOpt_wf fun _ _ => writeSimple_wf) (Turns.opt (fun o => ({ id := o1, vulnerabilitySource := o2, vulnerabilityReferences := o3, vulnerabilityRatings := o4, cwes := o5, description := o6, detail := o7, recommendation := o8, advisories := o9, created := o10, published := o11, updated := o } : Vulnerability.Vars)) (.tail _ (.tail _ (.tail _ (.tail _ (.tail _ (.tail _ (.tail _ (.tail _ (.tail _ (.tail _ (.tail _ (.head _)))))))))))) hn (fun _ => rfl) rfl (fun _ _ => tells_simple.part)) ?_
      rintro _ ⟨o12, rfl, h12⟩
      refine Turns.then .nil (Turns.nil (Q := fun s => s = _) rfl) ?_
      rintro _ rfl
      refine Turns.then (writeOpt_wf fun _ _ => VulnerabilityCredits.xml_wf) (Turns.opt (fun o => ({ id := o1, vulnerabilitySource := o2, vulnerabilityReferences := o3, vulnerabilityRatings := o4, cwes := o5, description := o6, detail := o7, recommendation := o8, advisories := o9, created := o10, published := o11, updated := o12, vulnerabilityCredits := o } : Vulnerability.Vars)) (.tail _ (.tail _ (.tail _ (.tail _ (.tail _ (.tail _ (.tail _ (.tail _ (.tail _ (.tail _ (.tail _ (.tail _ (.head _))))))))))))) hn (fun _ => rfl) rfl (fun _ _ => VulnerabilityCredits.xml_only.part)) ?_
      rintro _ ⟨o14, rfl, h14⟩
      refine Turns.then (writeOpt_wf fun _ _ => (Tools.xml_wf fun _ => rfl)) (Turns.opt_at (fun o => ({ id := o1, vulnerabilitySource := o2, vulnerabilityReferences := o3, vulnerabilityRatings := o4, cwes := o5, description := o6, detail := o7, recommendation := o8, advisories := o9, created := o10, published := o11, updated := o12, vulnerabilityCredits := o14, tools := o } : Vulnerability.Vars)) (.tail _ (.tail _ (.tail _ (.tail _ (.tail _ (.tail _ (.tail _ (.tail _ (.tail _ (.tail _ (.tail _ (.tail _ (.tail _ (.head _)))))))))))))) hn (fun _ => rfl) rfl (fun _ _ => (Tools.xml_only .v1_3).part)) ?_
      rintro _ ⟨o15, rfl, h15⟩
      refine Turns.then (writeOpt_wf fun _ _ => VulnerabilityAnalysis.xml_wf) (Turns.opt_at (fun o => ({ id := o1, vulnerabilitySource := o2, vulnerabilityReferences := o3, vulnerabilityRatings := o4, cwes := o5, description := o6, detail := o7, recommendation := o8, advisories := o9, created := o10, published := o11, updated := o12, vulnerabilityCredits := o14, tools := o15, vulnerabilityAnalysis := o } : Vulnerability.Vars)) (.tail _ (.tail _ (.tail _ (.tail _ (.tail _ (.tail _ (.tail _ (.tail _ (.tail _ (.tail _ (.tail _ (.tail _ (.tail _ (.tail _ (.head _))))))))))))))) hn (fun _ => rfl) rfl (fun _ _ => (VulnerabilityAnalysis.xml_only .v1_3).part)) ?_
      rintro _ ⟨o16, rfl, h16⟩
      refine Turns.then (writeOpt_wf fun _ _ => (writeList_wf fun _ _ => VulnerabilityTarget.xml_wf)) (Turns.opt (fun o => ({ id := o1, vulnerabilitySource := o2, vulnerabilityReferences := o3, vulnerabilityRatings := o4, cwes := o5, description := o6, detail := o7, recommendation := o8, advisories := o9, created := o10, published := o11, updated := o12, vulnerabilityCredits := o14, tools := o15, vulnerabilityAnalysis := o16, vulnerabilityTargets := o } : Vulnerability.Vars)) (.tail _ (.tail _ (.tail _ (.tail _ (.tail _ (.tail _ (.tail _ (.tail _ (.tail _ (.tail _ (.tail _ (.tail _ (.tail _ (.tail _ (.tail _ (.head _)))))))))))))))) hn (fun _ => rfl) rfl (fun _ _ => (tells_listLax (fun _ _ => VulnerabilityTarget.xml_only.part) (fun _ _ => VulnerabilityTarget.xml_wf)).part)) ?_
      rintro _ ⟨o17, rfl, h17⟩
      refine Turns.then (writeOpt_wf fun _ _ => (writeList_wf fun _ _ => Property.xml_wf)) (Turns.opt (fun o => ({ id := o1, vulnerabilitySource := o2, vulnerabilityReferences := o3, vulnerabilityRatings := o4, cwes := o5, description := o6, detail := o7, recommendation := o8, advisories := o9, created := o10, published := o11, updated := o12, vulnerabilityCredits := o14, tools := o15, vulnerabilityAnalysis := o16, vulnerabilityTargets := o17, properties := o } : Vulnerability.Vars)) (.tail _ (.tail _ (.tail _ (.tail _ (.tail _ (.tail _ (.tail _ (.tail _ (.tail _ (.tail _ (.tail _ (.tail _ (.tail _ (.tail _ (.tail _ (.tail _ (.head _))))))))))))))))) hn (fun _ => rfl) rfl (fun _ _ => (tells_listLax (fun _ _ => Property.xml_only.part) (fun _ _ => Property.xml_wf)).part)) ?_
      rintro _ ⟨o18, rfl, h18⟩
      refine Turns.nil ?_
      intro e
      have e := Except.ok.inj e
      exact {
        proofOfConcept := nofun
        id := h1 (congrArg Vulnerability.id e)
        vulnerabilitySource := h2 (congrArg Vulnerability.vulnerabilitySource e)
        vulnerabilityReferences := h3 (congrArg Vulnerability.vulnerabilityReferences e)
        vulnerabilityRatings := h4 (congrArg Vulnerability.vulnerabilityRatings e)
        cwes := h5 (congrArg Vulnerability.cwes e)
        description := h6 (congrArg Vulnerability.description e)
        detail := h7 (congrArg Vulnerability.detail e)
        recommendation := h8 (congrArg Vulnerability.recommendation e)
        advisories := h9 (congrArg Vulnerability.advisories e)
        created := h10 (congrArg Vulnerability.created e)
        published := h11 (congrArg Vulnerability.published e)
        updated := h12 (congrArg Vulnerability.updated e)
        rejected := nofun
        vulnerabilityCredits := h14 (congrArg Vulnerability.vulnerabilityCredits e)
        tools := h15 (congrArg Vulnerability.tools e)
        vulnerabilityAnalysis := h16 (congrArg Vulnerability.vulnerabilityAnalysis e)
        vulnerabilityTargets := h17 (congrArg Vulnerability.vulnerabilityTargets e)
        properties := h18 (congrArg Vulnerability.properties e)
        workaround := nofun }
  | v1_4 =>
    have hn : ["id", "source", "references", "ratings", "cwes", "description", "detail", "recommendation", "advisories", "created", "published", "updated", "credits", "tools", "analysis", "affects", "properties"].Nodup := by decide
    have ha : ["bom-ref"].Nodup := by decide
    refine tells_struct (p := (x.bomRef)) (Vulnerability.xml_body_wf (fun _ => rfl)) ?_ ?_
    · exact congrArg Except.ok (optAttr_mk ha (.head _))
    · refine Turns.then (writeOpt_wf fun _ _ => writeSimple_wf) (Turns.opt (fun o => ({ id := o } : Vulnerability.Vars)) (.head _) hn (fun _ => rfl) rfl (fun _ _ => tells_simple.part)) ?_
      rintro _ ⟨o1, rfl, h1⟩
      refine Turns.then (writeOpt_wf fun _ _ => VulnerabilitySource.xml_wf) (Turns.opt (fun o => ({ id := o1, vulnerabilitySource := o } : Vulnerability.Vars)) (.tail _ (.head _)) hn (fun _ => rfl) rfl (fun _ _ => VulnerabilitySource.xml_only.part)) ?_
      rintro _ ⟨o2, rfl, h2⟩
      refine Turns.then (writeOpt_wf fun _ _ => (writeList_wf fun _ _ => VulnerabilityReference.xml_wf)) (Turns.opt (fun o => ({ id := o1, vulnerabilitySource := o2, vulnerabilityReferences := o } : Vulnerability.Vars)) (.tail _ (.tail _ (.head _))) hn (fun _ => rfl) rfl (fun _ _ => (tells_listLax (fun _ _ => VulnerabilityReference.xml_only.part) (fun _ _ => VulnerabilityReference.xml_wf)).part)) ?_
      rintro _ ⟨o3, rfl, h3⟩
      refine Turns.then (writeOpt_wf fun _ _ => (writeList_wf fun _ _ => VulnerabilityRating.xml_wf)) (Turns.opt (fun o => ({ id := o1, vulnerabilitySource := o2, vulnerabilityReferences := o3, vulnerabilityRatings := o } : Vulnerability.Vars)) (.tail _ (.tail _ (.tail _ (.head _)))) hn (fun _ => rfl) rfl (fun _ _ => (tells_listLax (fun _ _ => VulnerabilityRating.xml_only.part) (fun _ _ => VulnerabilityRating.xml_wf)).part)) ?_
      rintro _ ⟨o4, rfl, h4⟩
      refine Turns.then (writeOpt_wf fun _ _ => (writeList_wf fun _ _ => writeSimple_wf)) (Turns.opt (fun o => ({ id := o1, vulnerabilitySource := o2, vulnerabilityReferences := o3, vulnerabilityRatings := o4, cwes := o } : Vulnerability.Vars)) (.tail _ (.tail _ (.tail _ (.tail _ (.head _))))) hn (fun _ => rfl) rfl (fun _ _ => (tells_list (fun _ _ => tells_u32.part) (fun _ _ => writeSimple_wf)).part)) ?_
      rintro _ ⟨o5, rfl, h5⟩
      refine Turns.then (writeOpt_wf fun _ _ => writeSimple_wf) (Turns.opt (fun o => ({ id := o1, vulnerabilitySource := o2, vulnerabilityReferences := o3, vulnerabilityRatings := o4, cwes := o5, description := o } : Vulnerability.Vars)) (.tail _ (.tail _ (.tail _ (.tail _ (.tail _ (.head _)))))) hn (fun _ => rfl) rfl (fun _ _ => tells_simple.part)) ?_
      rintro _ ⟨o6, rfl, h6⟩
      refine Turns.then writeSimple_wf (Turns.req (fun o => ({ id := o1, vulnerabilitySource := o2, vulnerabilityReferences := o3, vulnerabilityRatings := o4, cwes := o5, description := o6, detail := o } : Vulnerability.Vars)) (.tail _ (.tail _ (.tail _ (.tail _ (.tail _ (.tail _ (.head _))))))) hn (fun _ => rfl) tells_always) ?_
      rintro _ ⟨o7, rfl, h7⟩
      refine Turns.then (writeOpt_wf fun _ _ => writeSimple_wf) (Turns.opt (fun o => ({ id := o1, vulnerabilitySource := o2, vulnerabilityReferences := o3, vulnerabilityRatings := o4, cwes := o5, description := o6, detail := o7, recommendation := o } : Vulnerability.Vars)) (.tail _ (.tail _ (.tail _ (.tail _ (.tail _ (.tail _ (.tail _ (.head _)))))))) hn (fun _ => rfl) rfl (fun _ _ => tells_simple.part)) ?_
      rintro _ ⟨o8, rfl, h8⟩
      refine Turns.then (writeOpt_wf fun _ _ => (writeList_wf fun _ _ => Advisory.xml_wf)) (Turns.opt (fun o => ({ id := o1, vulnerabilitySource := o2, vulnerabilityReferences := o3, vulnerabilityRatings := o4, cwes := o5, description := o6, detail := o7, recommendation := o8, advisories := o } : Vulnerability.Vars)) (.tail _ (.tail _ (.tail _ (.tail _ (.tail _ (.tail _ (.tail _ (.tail _ (.head _))))))))) hn (fun _ => rfl) rfl (fun _ _ => (tells_listLax (fun _ _ => Advisory.xml_only.part) (fun _ _ => Advisory.xml_wf)).part)) ?_
      rintro _ ⟨o9, rfl, h9⟩
      refine Turns.then (writeOpt_wf fun _ _ => writeSimple_wf) (Turns.opt (fun o => ({ id := o1, vulnerabilitySource := o2, vulnerabilityReferences := o3, vulnerabilityRatings := o4, cwes := o5, description := o6, detail := o7, recommendation := o8, advisories := o9, created := o } : Vulnerability.Vars)) (.tail _ (.tail _ (.tail _ (.tail _ (.tail _ (.tail _ (.tail _ (.tail _ (.tail _ (.head _)))))))))) hn (fun _ => rfl) rfl (fun _ _ => tells_simple.part)) ?_
      rintro _ ⟨o10, rfl, h10⟩
      refine Turns.then (writeOpt_wf fun _ _ => writeSimple_wf) (Turns.opt (fun o => ({ id := o1, vulnerabilitySource := o2, vulnerabilityReferences := o3, vulnerabilityRatings := o4, cwes := o5, description := o6, detail := o7, recommendation := o8, advisories := o9, created := o10, published := o } : Vulnerability.Vars)) (.tail _ (.tail _ (.tail _ (.tail _ (.tail _ (.tail _ (.tail _ (.tail _ (.tail _ (.tail _ (.head _))))))))))) hn (fun _ => rfl) rfl (fun _ _ => tells_simple.part)) ?_
      rintro _ ⟨o11, rfl, h11⟩
      refine Turns.then (writeOpt_wf fun _ _ => writeSimple_wf) (Turns.opt (fun o => ({ id := o1, vulnerabilitySource := o2, vulnerabilityReferences := o3, vulnerabilityRatings := o4, cwes := o5, description := o6, detail := o7, recommendation := o8, advisories := o9, created := o10, published := o11, updated := o } : Vulnerability.Vars)) (.tail _ (.tail _ (.tail _ (.tail _ (.tail _ (.tail _ (.tail _ (.tail _ (.tail _ (.tail _ (.tail _ (.head _)))))))))))) hn (fun _ => rfl) rfl (fun _ _ => tells_simple.part)) ?_
      rintro _ ⟨o12, rfl, h12⟩
      refine Turns.then .nil (Turns.nil (Q := fun s => s = _) rfl) ?_
      rintro _ rfl
      refine Turns.then (writeOpt_wf fun _ _ => VulnerabilityCredits.xml_wf) (Turns.opt (fun o => ({ id := o1, vulnerabilitySource := o2, vulnerabilityReferences := o3, vulnerabilityRatings := o4, cwes := o5, description := o6, detail := o7, recommendation := o8, advisories := o9, created := o10, published := o11, updated := o12, vulnerabilityCredits := o } : Vulnerability.Vars)) (.tail _ (.tail _ (.tail _ (.tail _ (.tail _ (.tail _ (.tail _ (.tail _ (.tail _ (.tail _ (.tail _ (.tail _ (.head _))))))))))))) hn (fun _ => rfl) rfl (fun _ _ => VulnerabilityCredits.xml_only.part)) ?_
      rintro _ ⟨o14, rfl, h14⟩
      refine Turns.then (writeOpt_wf fun _ _ => (Tools.xml_wf fun _ => rfl)) (Turns.opt_at (fun o => ({ id := o1, vulnerabilitySource := o2, vulnerabilityReferences := o3, vulnerabilityRatings := o4, cwes := o5, description := o6, detail := o7, recommendation := o8, advisories := o9, created := o10, published := o11, updated := o12, vulnerabilityCredits := o14, tools := o } : Vulnerability.Vars)) (.tail _ (.tail _ (.tail _ (.tail _ (.tail _ (.tail _ (.tail _ (.tail _ (.tail _ (.tail _ (.tail _ (.tail _ (.tail _ (.head _)))))))))))))) hn (fun _ => rfl) rfl (fun _ _ => (Tools.xml_only .v1_4).part)) ?_
      rintro _ ⟨o15, rfl, h15⟩
      refine Turns.then (writeOpt_wf fun _ _ => VulnerabilityAnalysis.xml_wf) (Turns.opt_at (fun o => ({ id := o1, vulnerabilitySource := o2, vulnerabilityReferences := o3, vulnerabilityRatings := o4, cwes := o5, description := o6, detail := o7, recommendation := o8, advisories := o9, created := o10, published := o11, updated := o12, vulnerabilityCredits := o14, tools := o15, vulnerabilityAnalysis := o } : Vulnerability.Vars)) (.tail _ (.tail _ (.tail _ (.tail _ (.tail _ (.tail _ (.tail _ (.tail _ (.tail _ (.tail _ (.tail _ (.tail _ (.tail _ (.tail _ (.head _))))))))))))))) hn (fun _ => rfl) rfl (fun _ _ => (VulnerabilityAnalysis.xml_only .v1_4).part)) ?_
      rintro _ ⟨o16, rfl, h16⟩
      refine Turns.then (writeOpt_wf fun _ _ => (writeList_wf fun _ _ => VulnerabilityTarget.xml_wf)) (Turns.opt (fun o => ({ id := o1, vulnerabilitySource := o2, vulnerabilityReferences := o3, vulnerabilityRatings := o4, cwes := o5, description := o6, detail := o7, recommendation := o8, advisories := o9, created := o10, published := o11, updated := o12, vulnerabilityCredits := o14, tools := o15, vulnerabilityAnalysis := o16, vulnerabilityTargets := o } : Vulnerability.Vars)) (.tail _ (.tail _ (.tail _ (.tail _ (.tail _ (.tail _ (.tail _ (.tail _ (.tail _ (.tail _ (.tail _ (.tail _ (.tail _ (.tail _ (.tail _ (.head _)))))))))))))))) hn (fun _ => rfl) rfl (fun _ _ => (tells_listLax (fun _ _ => VulnerabilityTarget.xml_only.part) (fun _ _ => VulnerabilityTarget.xml_wf)).part)) ?_
      rintro _ ⟨o17, rfl, h17⟩
      refine Turns.then (writeOpt_wf fun _ _ => (writeList_wf fun _ _ => Property.xml_wf)) (Turns.opt (fun o => ({ id := o1, vulnerabilitySource := o2, vulnerabilityReferences := o3, vulnerabilityRatings := o4, cwes := o5, description := o6, detail := o7, recommendation := o8, advisories := o9, created := o10, published := o11, updated := o12, vulnerabilityCredits := o14, tools := o15, vulnerabilityAnalysis := o16, vulnerabilityTargets := o17, properties := o } : Vulnerability.Vars)) (.tail _ (.tail _ (.tail _ (.tail _ (.tail _ (.tail _ (.tail _ (.tail _ (.tail _ (.tail _ (.tail _ (.tail _ (.tail _ (.tail _ (.tail _ (.tail _ (.head _))))))))))))))))) hn (fun _ => rfl) rfl (fun _ _ => (tells_listLax (fun _ _ => Property.xml_only.part) (fun _ _ => Property.xml_wf)).part)) ?_
      rintro _ ⟨o18, rfl, h18⟩
      refine Turns.nil ?_
      intro e
      have e := Except.ok.inj e
      exact {
        proofOfConcept := nofun
        id := h1 (congrArg Vulnerability.id e)
        vulnerabilitySource := h2 (congrArg Vulnerability.vulnerabilitySource e)
        vulnerabilityReferences := h3 (congrArg Vulnerability.vulnerabilityReferences e)
        vulnerabilityRatings := h4 (congrArg Vulnerability.vulnerabilityRatings e)
        cwes := h5 (congrArg Vulnerability.cwes e)
        description := h6 (congrArg Vulnerability.description e)
        detail := h7 (congrArg Vulnerability.detail e)
        recommendation := h8 (congrArg Vulnerability.recommendation e)
        advisories := h9 (congrArg Vulnerability.advisories e)
        created := h10 (congrArg Vulnerability.created e)
        published := h11 (congrArg Vulnerability.published e)
        updated := h12 (congrArg Vulnerability.updated e)
        rejected := nofun
        vulnerabilityCredits := h14 (congrArg Vulnerability.vulnerabilityCredits e)
        tools := h15 (congrArg Vulnerability.tools e)
        vulnerabilityAnalysis := h16 (congrArg Vulnerability.vulnerabilityAnalysis e)
        vulnerabilityTargets := h17 (congrArg Vulnerability.vulnerabilityTargets e)
        properties := h18 (congrArg Vulnerability.properties e)
        workaround := nofun }
  | v1_5 =>
    obtain ⟨bomRef, id, vulnerabilitySource, vulnerabilityReferences, vulnerabilityRatings, cwes, description, detail, recommendation, workaround, proofOfConcept, advisories, created, published, updated, rejected, vulnerabilityCredits, tools, vulnerabilityAnalysis, vulnerabilityTargets, properties⟩ := x
    have hn : ["id", "source", "references", "ratings", "cwes", "description", "detail", "recommendation", "advisories", "created", "published", "updated", "credits", "tools", "analysis", "affects", "properties", "proofOfConcept", "rejected", "workaround"].Nodup := by decide
    have ha : ["bom-ref"].Nodup := by decide
    refine tells_struct (p := (bomRef)) (Vulnerability.xml_body_wf (fun _ => rfl)) ?_ ?_
    · exact congrArg Except.ok (optAttr_mk ha (.head _))
    · refine Turns.then (writeOpt_wf fun _ _ => writeSimple_wf) (Turns.opt (fun o => ({ id := o } : Vulnerability.Vars)) (.head _) hn (fun _ => rfl) rfl (fun _ _ => tells_simple.part)) ?_
      rintro _ ⟨o1, rfl, h1⟩
      refine Turns.then (writeOpt_wf fun _ _ => VulnerabilitySource.xml_wf) (Turns.opt (fun o => ({ id := o1, vulnerabilitySource := o } : Vulnerability.Vars)) (.tail _ (.head _)) hn (fun _ => rfl) rfl (fun _ _ => VulnerabilitySource.xml_only.part)) ?_
      rintro _ ⟨o2, rfl, h2⟩
      refine Turns.then (writeOpt_wf fun _ _ => (writeList_wf fun _ _ => VulnerabilityReference.xml_wf)) (Turns.opt (fun o => ({ id := o1, vulnerabilitySource := o2, vulnerabilityReferences := o } : Vulnerability.Vars)) (.tail _ (.tail _ (.head _))) hn (fun _ => rfl) rfl (fun _ _ => (tells_listLax (fun _ _ => VulnerabilityReference.xml_only.part) (fun _ _ => VulnerabilityReference.xml_wf)).part)) ?_
      rintro _ ⟨o3, rfl, h3⟩
      refine Turns.then (writeOpt_wf fun _ _ => (writeList_wf fun _ _ => VulnerabilityRating.xml_wf)) (Turns.opt (fun o => ({ id := o1, vulnerabilitySource := o2, vulnerabilityReferences := o3, vulnerabilityRatings := o } : Vulnerability.Vars)) (.tail _ (.tail _ (.tail _ (.head _)))) hn (fun _ => rfl) rfl (fun _ _ => (tells_listLax (fun _ _ => VulnerabilityRating.xml_only.part) (fun _ _ => VulnerabilityRating.xml_wf)).part)) ?_
      rintro _ ⟨o4, rfl, h4⟩
      refine Turns.then (writeOpt_wf fun _ _ => (writeList_wf fun _ _ => writeSimple_wf)) (Turns.opt (fun o => ({ id := o1, vulnerabilitySource := o2, vulnerabilityReferences := o3, vulnerabilityRatings := o4, cwes := o } : Vulnerability.Vars)) (.tail _ (.tail _ (.tail _ (.tail _ (.head _))))) hn (fun _ => rfl) rfl (fun _ _ => (tells_list (fun _ _ => tells_u32.part) (fun _ _ => writeSimple_wf)).part)) ?_
      rintro _ ⟨o5, rfl, h5⟩
      refine Turns.then (writeOpt_wf fun _ _ => writeSimple_wf) (Turns.opt (fun o => ({ id := o1, vulnerabilitySource := o2, vulnerabilityReferences := o3, vulnerabilityRatings := o4, cwes := o5, description := o } : Vulnerability.Vars)) (.tail _ (.tail _ (.tail _ (.tail _ (.tail _ (.head _)))))) hn (fun _ => rfl) rfl (fun _ _ => tells_simple.part)) ?_
      rintro _ ⟨o6, rfl, h6⟩
      refine Turns.then writeSimple_wf (Turns.req (fun o => ({ id := o1, vulnerabilitySource := o2, vulnerabilityReferences := o3, vulnerabilityRatings := o4, cwes := o5, description := o6, detail := o } : Vulnerability.Vars)) (.tail _ (.tail _ (.tail _ (.tail _ (.tail _ (.tail _ (.head _))))))) hn (fun _ => rfl) tells_always) ?_
      rintro _ ⟨o7, rfl, h7⟩
      refine Turns.then (writeOpt_wf fun _ _ => writeSimple_wf) (Turns.opt (fun o => ({ id := o1, vulnerabilitySource := o2, vulnerabilityReferences := o3, vulnerabilityRatings := o4, cwes := o5, description := o6, detail := o7, recommendation := o } : Vulnerability.Vars)) (.tail _ (.tail _ (.tail _ (.tail _ (.tail _ (.tail _ (.tail _ (.head _)))))))) hn (fun _ => rfl) rfl (fun _ _ => tells_simple.part)) ?_
      rintro _ ⟨o8, rfl, h8⟩
      refine Turns.then (writeOpt_wf fun _ _ => (writeList_wf fun _ _ => Advisory.xml_wf)) (Turns.opt (fun o => ({ id := o1, vulnerabilitySource := o2, vulnerabilityReferences := o3, vulnerabilityRatings := o4, cwes := o5, description := o6, detail := o7, recommendation := o8, advisories := o } : Vulnerability.Vars)) (.tail _ (.tail _ (.tail _ (.tail _ (.tail _ (.tail _ (.tail _ (.tail _ (.head _))))))))) hn (fun _ => rfl) rfl (fun _ _ => (tells_listLax (fun _ _ => Advisory.xml_only.part) (fun _ _ => Advisory.xml_wf)).part)) ?_
      rintro _ ⟨o9, rfl, h9⟩
      refine Turns.then (writeOpt_wf fun _ _ => writeSimple_wf) (Turns.opt (fun o => ({ id := o1, vulnerabilitySource := o2, vulnerabilityReferences := o3, vulnerabilityRatings := o4, cwes := o5, description := o6, detail := o7, recommendation := o8, advisories := o9, created := o } : Vulnerability.Vars)) (.tail _ (.tail _ (.tail _ (.tail _ (.tail _ (.tail _ (.tail _ (.tail _ (.tail _ (.head _)))))))))) hn (fun _ => rfl) rfl (fun _ _ => tells_simple.part)) ?_
      rintro _ ⟨o10, rfl, h10⟩
      refine Turns.then (writeOpt_wf fun _ _ => writeSimple_wf) (Turns.opt (fun o => ({ id := o1, vulnerabilitySource := o2, vulnerabilityReferences := o3, vulnerabilityRatings := o4, cwes := o5, description := o6, detail := o7, recommendation := o8, advisories := o9, created := o10, published := o } : Vulnerability.Vars)) (.tail _ (.tail _ (.tail _ (.tail _ (.tail _ (.tail _ (.tail _ (.tail _ (.tail _ (.tail _ (.head _))))))))))) hn (fun _ => rfl) rfl (fun _ _ => tells_simple.part)) ?_
      rintro _ ⟨o11, rfl, h11⟩
      refine Turns.then (writeOpt_wf fun _ _ => writeSimple_wf) (Turns.opt (fun o => ({ id := o1, vulnerabilitySource := o2, vulnerabilityReferences := o3, vulnerabilityRatings := o4, cwes := o5, description := o6, detail := o7, recommendation := o8, advisories := o9, created := o10, published := o11, updated := o } : Vulnerability.Vars)) (.tail _ (.tail _ (.tail _ (.tail _ (.tail _ (.tail _ (.tail _ (.tail _ (.tail _ (.tail _ (.tail _ (.head _)))))))))))) hn (fun _ => rfl) rfl (fun _ _ => tells_simple.part)) ?_
      rintro _ ⟨o12, rfl, h12⟩
      refine Turns.then (writeOpt_wf fun _ _ => writeSimple_wf) (Turns.opt (fun o => ({ id := o1, vulnerabilitySource := o2, vulnerabilityReferences := o3, vulnerabilityRatings := o4, cwes := o5, description := o6, detail := o7, recommendation := o8, advisories := o9, created := o10, published := o11, updated := o12, rejected := o } : Vulnerability.Vars)) (.tail _ (.tail _ (.tail _ (.tail _ (.tail _ (.tail _ (.tail _ (.tail _ (.tail _ (.tail _ (.tail _ (.tail _ (.tail _ (.tail _ (.tail _ (.tail _ (.tail _ (.tail _ (.head _))))))))))))))))))) hn (fun _ => rfl) rfl (fun _ _ => tells_simple.part)) ?_
      rintro _ ⟨o13, rfl, h13⟩
      refine Turns.then (writeOpt_wf fun _ _ => VulnerabilityCredits.xml_wf) (Turns.opt (fun o => ({ id := o1, vulnerabilitySource := o2, vulnerabilityReferences := o3, vulnerabilityRatings := o4, cwes := o5, description := o6, detail := o7, recommendation := o8, advisories := o9, created := o10, published := o11, updated := o12, rejected := o13, vulnerabilityCredits := o } : Vulnerability.Vars)) (.tail _ (.tail _ (.tail _ (.tail _ (.tail _ (.tail _ (.tail _ (.tail _ (.tail _ (.tail _ (.tail _ (.tail _ (.head _))))))))))))) hn (fun _ => rfl) rfl (fun _ _ => VulnerabilityCredits.xml_only.part)) ?_
      rintro _ ⟨o14, rfl, h14⟩
      refine Turns.then (writeOpt_wf fun _ _ => (Tools.xml_wf fun _ => rfl)) (Turns.opt_at (fun o => ({ id := o1, vulnerabilitySource := o2, vulnerabilityReferences := o3, vulnerabilityRatings := o4, cwes := o5, description := o6, detail := o7, recommendation := o8, advisories := o9, created := o10, published := o11, updated := o12, rejected := o13, vulnerabilityCredits := o14, tools := o } : Vulnerability.Vars)) (.tail _ (.tail _ (.tail _ (.tail _ (.tail _ (.tail _ (.tail _ (.tail _ (.tail _ (.tail _ (.tail _ (.tail _ (.tail _ (.head _)))))))))))))) hn (fun _ => rfl) rfl (fun _ _ => (Tools.xml_only .v1_5).part)) ?_
      rintro _ ⟨o15, rfl, h15⟩
      refine Turns.then (writeOpt_wf fun _ _ => VulnerabilityAnalysis.xml_wf) (Turns.opt_at (fun o => ({ id := o1, vulnerabilitySource := o2, vulnerabilityReferences := o3, vulnerabilityRatings := o4, cwes := o5, description := o6, detail := o7, recommendation := o8, advisories := o9, created := o10, published := o11, updated := o12, rejected := o13, vulnerabilityCredits := o14, tools := o15, vulnerabilityAnalysis := o } : Vulnerability.Vars)) (.tail _ (.tail _ (.tail _ (.tail _ (.tail _ (.tail _ (.tail _ (.tail _ (.tail _ (.tail _ (.tail _ (.tail _ (.tail _ (.tail _ (.head _))))))))))))))) hn (fun _ => rfl) rfl (fun _ _ => (VulnerabilityAnalysis.xml_only .v1_5).part)) ?_
      rintro _ ⟨o16, rfl, h16⟩
      refine Turns.then (writeOpt_wf fun _ _ => (writeList_wf fun _ _ => VulnerabilityTarget.xml_wf)) (Turns.opt (fun o => ({ id := o1, vulnerabilitySource := o2, vulnerabilityReferences := o3, vulnerabilityRatings := o4, cwes := o5, description := o6, detail := o7, recommendation := o8, advisories := o9, created := o10, published := o11, updated := o12, rejected := o13, vulnerabilityCredits := o14, tools := o15, vulnerabilityAnalysis := o16, vulnerabilityTargets := o } : Vulnerability.Vars)) (.tail _ (.tail _ (.tail _ (.tail _ (.tail _ (.tail _ (.tail _ (.tail _ (.tail _ (.tail _ (.tail _ (.tail _ (.tail _ (.tail _ (.tail _ (.head _)))))))))))))))) hn (fun _ => rfl) rfl (fun _ _ => (tells_listLax (fun _ _ => VulnerabilityTarget.xml_only.part) (fun _ _ => VulnerabilityTarget.xml_wf)).part)) ?_
      rintro _ ⟨o17, rfl, h17⟩
      refine Turns.then (writeOpt_wf fun _ _ => (writeList_wf fun _ _ => Property.xml_wf)) (Turns.opt (fun o => ({ id := o1, vulnerabilitySource := o2, vulnerabilityReferences := o3, vulnerabilityRatings := o4, cwes := o5, description := o6, detail := o7, recommendation := o8, advisories := o9, created := o10, published := o11, updated := o12, rejected := o13, vulnerabilityCredits := o14, tools := o15, vulnerabilityAnalysis := o16, vulnerabilityTargets := o17, properties := o } : Vulnerability.Vars)) (.tail _ (.tail _ (.tail _ (.tail _ (.tail _ (.tail _ (.tail _ (.tail _ (.tail _ (.tail _ (.tail _ (.tail _ (.tail _ (.tail _ (.tail _ (.tail _ (.head _))))))))))))))))) hn (fun _ => rfl) rfl (fun _ _ => (tells_listLax (fun _ _ => Property.xml_only.part) (fun _ _ => Property.xml_wf)).part)) ?_
      rintro _ ⟨o18, rfl, h18⟩
      refine Turns.imp (Turns.opt (fun o => ({ id := o1, vulnerabilitySource := o2, vulnerabilityReferences := o3, vulnerabilityRatings := o4, cwes := o5, description := o6, detail := o7, recommendation := o8, advisories := o9, created := o10, published := o11, updated := o12, rejected := o13, vulnerabilityCredits := o14, tools := o15, vulnerabilityAnalysis := o16, vulnerabilityTargets := o17, properties := o18, workaround := o } : Vulnerability.Vars)) (.tail _ (.tail _ (.tail _ (.tail _ (.tail _ (.tail _ (.tail _ (.tail _ (.tail _ (.tail _ (.tail _ (.tail _ (.tail _ (.tail _ (.tail _ (.tail _ (.tail _ (.tail _ (.tail _ (.head _)))))))))))))))))))) hn (fun _ => rfl) rfl (fun _ _ => tells_simple.part)) ?_
      rintro _ ⟨o19, rfl, h19⟩
      intro e
      have e := Except.ok.inj e
      exact {
        proofOfConcept := fun _ => (congrArg Vulnerability.proofOfConcept e).symm
        id := h1 (congrArg Vulnerability.id e)
        vulnerabilitySource := h2 (congrArg Vulnerability.vulnerabilitySource e)
        vulnerabilityReferences := h3 (congrArg Vulnerability.vulnerabilityReferences e)
        vulnerabilityRatings := h4 (congrArg Vulnerability.vulnerabilityRatings e)
        cwes := h5 (congrArg Vulnerability.cwes e)
        description := h6 (congrArg Vulnerability.description e)
        detail := h7 (congrArg Vulnerability.detail e)
        recommendation := h8 (congrArg Vulnerability.recommendation e)
        advisories := h9 (congrArg Vulnerability.advisories e)
        created := h10 (congrArg Vulnerability.created e)
        published := h11 (congrArg Vulnerability.published e)
        updated := h12 (congrArg Vulnerability.updated e)
        rejected := fun _ => h13 (congrArg Vulnerability.rejected e)
        vulnerabilityCredits := h14 (congrArg Vulnerability.vulnerabilityCredits e)
        tools := h15 (congrArg Vulnerability.tools e)
        vulnerabilityAnalysis := h16 (congrArg Vulnerability.vulnerabilityAnalysis e)
        vulnerabilityTargets := h17 (congrArg Vulnerability.vulnerabilityTargets e)
        properties := h18 (congrArg Vulnerability.properties e)
        workaround := fun _ => h19 (congrArg Vulnerability.workaround e) }

end Cdx
