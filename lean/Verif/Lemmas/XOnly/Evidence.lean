import Verif.Lemmas.XOnly.Service
import Verif.Lemmas.Format.Evidence

set_option linter.unusedSectionVars false
set_option linter.unusedSimpArgs false
set_option linter.unusedVariables false

/-!
# What has to hold for a value to come back from XML (Evidence)

The converse of `Verif.Lemmas.Format.Evidence`: a value that is read back from the element that was written
for it meets the conditions under which it was shown to be read back.
-/

namespace Cdx

variable [F32Format]

theorem VulnerabilityRating.xml_only {ns : Option String} {x : VulnerabilityRating} :
    Tells ns (VulnerabilityRating.writeXml x) "rating" VulnerabilityRating.readXml (fun y => y = x → VulnerabilityRating.XmlOk x) := by
  have hn : ["source", "score", "severity", "method", "vector", "justification"].Nodup := by decide
  refine tells_struct (VulnerabilityRating.xml_body_wf) rfl ?_
  refine Turns.then (writeOpt_wf fun _ _ => VulnerabilitySource.xml_wf) (Turns.optS (fun o s => { s with vulnerabilitySource := o }) (.head _) hn (fun _ => rfl) rfl (fun _ _ => VulnerabilitySource.xml_only.part)) ?_
  rintro _ ⟨o1, rfl, h1⟩
  refine Turns.then (writeOpt_wf fun _ _ => writeSimple_wf) (Turns.optS (fun o s => { s with score := o }) (.tail _ (.head _)) hn (fun _ => rfl) rfl (fun _ _ => tells_score.part)) ?_
  rintro _ ⟨o2, rfl, h2⟩
  refine Turns.then (writeOpt_wf fun _ _ => writeSimple_wf) (Turns.optS (fun o s => { s with severity := o }) (.tail _ (.tail _ (.head _))) hn (fun _ => rfl) rfl (fun _ _ => (tells_enum (stable_of Severity.display_new)).part)) ?_
  rintro _ ⟨o3, rfl, h3⟩
  refine Turns.then (writeOpt_wf fun _ _ => writeSimple_wf) (Turns.optS (fun o s => { s with scoreMethod := o }) (.tail _ (.tail _ (.tail _ (.head _)))) hn (fun _ => rfl) rfl (fun _ _ => (tells_enum (stable_of ScoreMethod.display_new)).part)) ?_
  rintro _ ⟨o4, rfl, h4⟩
  refine Turns.then (writeOpt_wf fun _ _ => writeSimple_wf) (Turns.optS (fun o s => { s with vector := o }) (.tail _ (.tail _ (.tail _ (.tail _ (.head _))))) hn (fun _ => rfl) rfl (fun _ _ => tells_simple.part)) ?_
  rintro _ ⟨o5, rfl, h5⟩
  refine Turns.imp (Turns.optS (fun o s => { s with justification := o }) (.tail _ (.tail _ (.tail _ (.tail _ (.tail _ (.head _)))))) hn (fun _ => rfl) rfl (fun _ _ => tells_simple.part)) ?_
  rintro _ ⟨o6, rfl, h6⟩
  intro e
  have e := Except.ok.inj e
  exact {
    vulnerabilitySource := h1 (congrArg VulnerabilityRating.vulnerabilitySource e)
    score := h2 (congrArg VulnerabilityRating.score e)
    severity := h3 (congrArg VulnerabilityRating.severity e)
    scoreMethod := h4 (congrArg VulnerabilityRating.scoreMethod e)
    vector := h5 (congrArg VulnerabilityRating.vector e)
    justification := h6 (congrArg VulnerabilityRating.justification e) }

theorem tells_cdata {ns : Option String} {tag s : String} :
    Tells ns (writeCdata tag s) tag readSimple (fun y => y = s → SafeCdata s) := by
  by_cases h : endsCdata s.toList = true
  · exact ⟨[], [.other], by simp [writeCdata, writeElem, deliver, h],
      .inl ⟨_, fun rest => by simp [readSimple]; rfl⟩⟩
  · exact ⟨[], [.cdata s], by simp [writeCdata, writeElem, deliver, h],
      .inr ⟨s, fun rest => by simp [readSimple, readClose, bind, Except.bind],
        fun _ hi => h (endsCdata_iff.mpr hi)⟩⟩

theorem ComponentEvidence.xml_only (v : SpecVersion) {ns : Option String} {x : ComponentEvidence} :
    Tells ns (ComponentEvidence.writeXml v x) "evidence" (ComponentEvidence.readXml v) (fun y => y = x.at v → ComponentEvidence.XmlOk v x) := by
  cases v with
  | v1_3 =>
    have hn : ["licenses", "copyright"].Nodup := by decide
    refine tells_struct (ComponentEvidence.xml_body_wf) rfl ?_
    refine Turns.then (writeOpt_wf fun _ _ => Licenses.xml_wf) (Turns.optS_at (fun o s => { s with licenses := o }) (.head _) hn (fun _ => rfl) rfl (fun _ _ => (Licenses.xml_only .v1_3).part)) ?_
    rintro _ ⟨o1, rfl, h1⟩
    refine Turns.imp (Turns.optS (fun o s => { s with copyright := o }) (.tail _ (.head _)) hn (fun _ => rfl) rfl (fun _ _ => (tells_list (fun _ _ => tells_cdata.part) (fun _ _ => writeCdata_wf)).part)) ?_
    rintro _ ⟨o2, rfl, h2⟩
    intro e
    have e := Except.ok.inj e
    exact {
      occurrences := nofun
      callstack := nofun
      identity := nofun
      licenses := h1 (congrArg ComponentEvidence.licenses e)
      copyright := h2 (congrArg ComponentEvidence.copyright e) }
  | v1_4 =>
    have hn : ["licenses", "copyright"].Nodup := by decide
    refine tells_struct (ComponentEvidence.xml_body_wf) rfl ?_
    refine Turns.then (writeOpt_wf fun _ _ => Licenses.xml_wf) (Turns.optS_at (fun o s => { s with licenses := o }) (.head _) hn (fun _ => rfl) rfl (fun _ _ => (Licenses.xml_only .v1_4).part)) ?_
    rintro _ ⟨o1, rfl, h1⟩
    refine Turns.imp (Turns.optS (fun o s => { s with copyright := o }) (.tail _ (.head _)) hn (fun _ => rfl) rfl (fun _ _ => (tells_list (fun _ _ => tells_cdata.part) (fun _ _ => writeCdata_wf)).part)) ?_
    rintro _ ⟨o2, rfl, h2⟩
    intro e
    have e := Except.ok.inj e
    exact {
      occurrences := nofun
      callstack := nofun
      identity := nofun
      licenses := h1 (congrArg ComponentEvidence.licenses e)
      copyright := h2 (congrArg ComponentEvidence.copyright e) }
  | v1_5 =>
    obtain ⟨licenses, copyright, occurrences, callstack, identity⟩ := x
    have hn : ["licenses", "copyright", "occurrences", "callstack", "identity"].Nodup := by decide
    refine tells_struct (ComponentEvidence.xml_body_wf) rfl ?_
    refine Turns.then (writeOpt_wf fun _ _ => Licenses.xml_wf) (Turns.optS_at (fun o s => { s with licenses := o }) (.head _) hn (fun _ => rfl) rfl (fun _ _ => (Licenses.xml_only .v1_5).part)) ?_
    rintro _ ⟨o1, rfl, h1⟩
    refine Turns.imp (Turns.optS (fun o s => { s with copyright := o }) (.tail _ (.head _)) hn (fun _ => rfl) rfl (fun _ _ => (tells_list (fun _ _ => tells_cdata.part) (fun _ _ => writeCdata_wf)).part)) ?_
    rintro _ ⟨o2, rfl, h2⟩
    intro e
    have e := Except.ok.inj e
    exact {
      occurrences := fun _ => (congrArg ComponentEvidence.occurrences e).symm
      callstack := fun _ => (congrArg ComponentEvidence.callstack e).symm
      identity := fun _ => (congrArg ComponentEvidence.identity e).symm
      licenses := h1 (congrArg ComponentEvidence.licenses e)
      copyright := h2 (congrArg ComponentEvidence.copyright e) }

end Cdx
