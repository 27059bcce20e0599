import Verif.Lemmas.XOnly.License
import Verif.Lemmas.Format.Parts

set_option linter.unusedSectionVars false
set_option linter.unusedSimpArgs false
set_option linter.unusedVariables false

/-!
# What has to hold for a value to come back from XML (Parts)

The converse of `Verif.Lemmas.Format.Parts`: a value that is read back from the element that was written
for it meets the conditions under which it was shown to be read back.
-/

namespace Cdx

/-- An algorithm that is read back after the trimming. -/
theorem Algorithm.stable_trimmed {x : Algorithm}
    (h : Algorithm.ofSpecName (xmlTrim (Algorithm.specName x)) = x) :
    Stable Algorithm.specName Algorithm.ofSpecName x ∧ Trimmed (Algorithm.specName x) := by
  revert h
  generalize xmlTrim (Algorithm.specName x) = s
  rintro rfl
  unfold Stable Algorithm.specName Algorithm.ofSpecName
  have e : Algorithm.new (Algorithm.new (Algorithm.new s).display).display =
    Algorithm.new (Algorithm.new s).display := by cases Algorithm.new s <;> rfl
  refine ⟨by rw [e, e, e], ?_⟩
  rw [e]
  generalize Algorithm.new s = a
  cases a <;> (unfold Trimmed; first | decide +kernel | (simp only [Algorithm.display]; decide +kernel))

theorem AggregateType.stable_trimmed {x : AggregateType}
    (h : AggregateType.new (xmlTrim (AggregateType.display x)) = x) :
    Stable AggregateType.display AggregateType.new x ∧ Trimmed (AggregateType.display x) := by
  by_cases ht : xmlTrim (AggregateType.display x) = "incomplete_first_party_propprietary_only"
  · rw [ht] at h
    subst h
    exact absurd ht (by decide +kernel)
  · have hd := congrArg AggregateType.display h
    rw [AggregateType.display_new ht] at hd
    rw [hd] at h
    exact ⟨h, hd⟩

theorem Signer.xml_only {ns : Option String} {tag : String} {x : Signer} :
    Tells ns (Signer.writeXml tag x) tag Signer.readXml (fun y => y = x → Signer.XmlOk x) := by
  have hn : ["algorithm", "value"].Nodup := by decide
  refine tells_struct (Signer.xml_body_wf) rfl ?_
  refine Turns.then writeSimple_wf (Turns.one (tells_enum Algorithm.stable_trimmed) (.head _) hn) ?_
  rintro _ ⟨o1, rfl, h1⟩
  refine Turns.imp (Turns.one tells_simple (.tail _ (.head _)) hn) ?_
  rintro _ ⟨o2, rfl, h2⟩
  intro e
  have e := Except.ok.inj e
  exact {
    algorithm := h1 (congrArg Signer.algorithm e)
    value := h2 (congrArg Signer.value e) }

/-- A signer after its texts were trimmed. -/
def Signer.trimmed (s : Signer) : Signer :=
  { algorithm := Algorithm.ofSpecName (xmlTrim (Algorithm.specName s.algorithm)),
    value := xmlTrim s.value }

theorem Signer.reads_trimmed {ns : Option String} {tag : String} {x : Signer} :
    Reads ns (Signer.writeXml tag x) tag Signer.readXml (Signer.trimmed x) := by
  have hn : ["algorithm", "value"].Nodup := by decide
  refine reads_struct (Signer.xml_body_wf) rfl
      (Goes.append (Goes.one (reads_map (Cdx.reads_trimmed (attrs := []))) (.head _) hn)
        (Goes.one (Cdx.reads_trimmed (attrs := [])) (.tail _ (.head _)) hn)
        (writeSimple_wf)) ?_
  rfl

theorem Signer.ok_of_trimmed {x : Signer} (e : Signer.trimmed x = x) : Signer.XmlOk x := by
  obtain ⟨a, t⟩ := x
  simp only [Signer.trimmed, Signer.mk.injEq] at e
  exact ⟨Algorithm.stable_trimmed e.1, e.2⟩

theorem Signer.all_trimmed : ∀ {l : List Signer}, l.map Signer.trimmed = l → ∀ x ∈ l, Signer.XmlOk x
  | [], _, _, h => nomatch h
  | y :: l, e, x, h => by
    rw [List.map_cons, List.cons.injEq] at e
    cases h with
    | head => exact Signer.ok_of_trimmed e.1
    | tail _ h => exact Signer.all_trimmed e.2 x h

theorem Signature.xml_only {ns : Option String} {x : Signature} :
    Tells ns (Signature.writeXml x) "signature" Signature.readXml
      (fun y => y = x → Signature.XmlOk x) := by
  have hn : ["signers", "chain", "algorithm", "value"].Nodup := by decide
  cases x with
  | signers l =>
    refine (Signature.reads_of_struct (y := .signers (l.map Signer.trimmed))
      (reads_struct (writeList_wf fun _ _ => Signer.xml_wf) rfl
      (Goes.one (reads_list_at (fun y hy => Signer.reads_trimmed) (fun _ _ => Signer.xml_wf))
        (.head _) hn) rfl)).tells ?_
    intro e
    exact Signer.all_trimmed (Signature.signers.inj e)
  | chain l =>
    refine (Signature.reads_of_struct (y := .chain (l.map Signer.trimmed))
      (reads_struct (writeList_wf fun _ _ => Signer.xml_wf) rfl
      (Goes.one (reads_list_at (fun y hy => Signer.reads_trimmed) (fun _ _ => Signer.xml_wf))
        (.tail _ (.head _)) hn) rfl)).tells ?_
    intro e
    exact Signer.all_trimmed (Signature.chain.inj e)
  | single s =>
    refine (Signature.reads_of_struct (y := .single (Signer.trimmed s))
      (reads_struct Signer.xml_body_wf rfl
      (Goes.append (Goes.one (Cdx.reads_trimmed (attrs := [])) (.tail _ (.tail _ (.head _))) hn)
        (Goes.one (Cdx.reads_trimmed (attrs := [])) (.tail _ (.tail _ (.tail _ (.head _)))) hn)
        writeSimple_wf) rfl)).tells ?_
    intro e
    exact Signer.ok_of_trimmed (Signature.single.inj e)

theorem Dependency.xml_only {ns : Option String} {x : Dependency} :
    Tells ns (Dependency.writeXml x) "dependency" Dependency.readXml (fun y => y = x → True) :=
  Dependency.xml_reads.only

theorem Composition.xml_only (v : SpecVersion) {ns : Option String} {x : Composition} :
    Tells ns (Composition.writeXml v x) "composition" (Composition.readXml v) (fun y => y = x.at v → Composition.XmlOk v x) := by
  cases v with
  | v1_3 =>
    have hn : ["aggregate", "assemblies", "dependencies"].Nodup := by decide
    have ha : ["bom-ref"].Nodup := by decide
    refine tells_struct (p := (none)) (Composition.xml_body_wf) ?_ ?_
    · exact congrArg Except.ok rfl
    · refine Turns.then writeSimple_wf (Turns.one (tells_enum AggregateType.stable_trimmed) (.head _) hn) ?_
      rintro _ ⟨o1, rfl, h1⟩
      refine Turns.then (writeOpt_wf fun _ _ => (writeList_wf fun _ _ => writeRef_wf)) (Turns.optS (fun o s => { s with assemblies := o }) (.tail _ (.head _)) hn (fun _ => rfl) rfl (fun _ _ => (tells_listLax (fun _ _ => tells_ref.part) (fun _ _ => writeRef_wf)).part)) ?_
      rintro _ ⟨o2, rfl, h2⟩
      refine Turns.then (writeOpt_wf fun _ _ => (writeList_wf fun _ _ => writeRef_wf)) (Turns.optS (fun o s => { s with dependencies := o }) (.tail _ (.tail _ (.head _))) hn (fun _ => rfl) rfl (fun _ _ => (tells_listLax (fun _ _ => tells_ref.part) (fun _ _ => writeRef_wf)).part)) ?_
      rintro _ ⟨o3, rfl, h3⟩
      refine Turns.then .nil (Turns.nil (Q := fun s => s = _) rfl) ?_
      rintro _ rfl
      refine Turns.nil ?_
      intro e
      have e := Except.ok.inj e
      exact {
        aggregate := h1 (congrArg Composition.aggregate e)
        signature := fun hv => absurd rfl hv }
  | v1_4 =>
    have hn : ["aggregate", "assemblies", "dependencies", "signature"].Nodup := by decide
    have ha : ["bom-ref"].Nodup := by decide
    refine tells_struct (p := (none)) (Composition.xml_body_wf) ?_ ?_
    · exact congrArg Except.ok rfl
    · refine Turns.then writeSimple_wf (Turns.one (tells_enum AggregateType.stable_trimmed) (.head _) hn) ?_
      rintro _ ⟨o1, rfl, h1⟩
      refine Turns.then (writeOpt_wf fun _ _ => (writeList_wf fun _ _ => writeRef_wf)) (Turns.optS (fun o s => { s with assemblies := o }) (.tail _ (.head _)) hn (fun _ => rfl) rfl (fun _ _ => (tells_listLax (fun _ _ => tells_ref.part) (fun _ _ => writeRef_wf)).part)) ?_
      rintro _ ⟨o2, rfl, h2⟩
      refine Turns.then (writeOpt_wf fun _ _ => (writeList_wf fun _ _ => writeRef_wf)) (Turns.optS (fun o s => { s with dependencies := o }) (.tail _ (.tail _ (.head _))) hn (fun _ => rfl) rfl (fun _ _ => (tells_listLax (fun _ _ => tells_ref.part) (fun _ _ => writeRef_wf)).part)) ?_
      rintro _ ⟨o3, rfl, h3⟩
      refine Turns.then .nil (Turns.nil (Q := fun s => s = _) rfl) ?_
      rintro _ rfl
      refine Turns.imp (Turns.optS (fun o s => { s with signature := o }) (.tail _ (.tail _ (.tail _ (.head _)))) hn (fun _ => rfl) rfl (fun _ _ => Signature.xml_only.part)) ?_
      rintro _ ⟨o5, rfl, h5⟩
      intro e
      have e := Except.ok.inj e
      exact {
        aggregate := h1 (congrArg Composition.aggregate e)
        signature := fun _ => h5 (congrArg Composition.signature e) }
  | v1_5 =>
    have hn : ["aggregate", "assemblies", "dependencies", "signature", "vulnerabilities"].Nodup := by decide
    have ha : ["bom-ref"].Nodup := by decide
    refine tells_struct (p := (x.bomRef)) (Composition.xml_body_wf) ?_ ?_
    · exact congrArg Except.ok (optAttr_mk ha (.head _))
    · refine Turns.then writeSimple_wf (Turns.one (tells_enum AggregateType.stable_trimmed) (.head _) hn) ?_
      rintro _ ⟨o1, rfl, h1⟩
      refine Turns.then (writeOpt_wf fun _ _ => (writeList_wf fun _ _ => writeRef_wf)) (Turns.optS (fun o s => { s with assemblies := o }) (.tail _ (.head _)) hn (fun _ => rfl) rfl (fun _ _ => (tells_listLax (fun _ _ => tells_ref.part) (fun _ _ => writeRef_wf)).part)) ?_
      rintro _ ⟨o2, rfl, h2⟩
      refine Turns.then (writeOpt_wf fun _ _ => (writeList_wf fun _ _ => writeRef_wf)) (Turns.optS (fun o s => { s with dependencies := o }) (.tail _ (.tail _ (.head _))) hn (fun _ => rfl) rfl (fun _ _ => (tells_listLax (fun _ _ => tells_ref.part) (fun _ _ => writeRef_wf)).part)) ?_
      rintro _ ⟨o3, rfl, h3⟩
      refine Turns.then (writeOpt_wf fun _ _ => (writeList_wf fun _ _ => writeRef_wf)) (Turns.optS (fun o s => { s with vulnerabilities := o }) (.tail _ (.tail _ (.tail _ (.tail _ (.head _))))) hn (fun _ => rfl) rfl (fun _ _ => (tells_listLax (fun _ _ => tells_ref.part) (fun _ _ => writeRef_wf)).part)) ?_
      rintro _ ⟨o4, rfl, h4⟩
      refine Turns.imp (Turns.optS (fun o s => { s with signature := o }) (.tail _ (.tail _ (.tail _ (.head _)))) hn (fun _ => rfl) rfl (fun _ _ => Signature.xml_only.part)) ?_
      rintro _ ⟨o5, rfl, h5⟩
      intro e
      have e := Except.ok.inj e
      exact {
        aggregate := h1 (congrArg Composition.aggregate e)
        signature := fun _ => h5 (congrArg Composition.signature e) }

theorem IdentifiableAction.xml_only {ns : Option String} {tag : String} {x : IdentifiableAction} :
    Tells ns (IdentifiableAction.writeXml tag x) tag IdentifiableAction.readXml (fun y => y = x → IdentifiableAction.XmlOk x) := by
  have hn : ["timestamp", "name", "email"].Nodup := by decide
  refine tells_struct (IdentifiableAction.xml_body_wf) rfl ?_
  refine Turns.then (writeOpt_wf fun _ _ => writeSimple_wf) (Turns.optS (fun o s => { s with timestamp := o }) (.head _) hn (fun _ => rfl) rfl (fun _ _ => tells_simple.part)) ?_
  rintro _ ⟨o1, rfl, h1⟩
  refine Turns.then (writeOpt_wf fun _ _ => writeSimple_wf) (Turns.optS (fun o s => { s with name := o }) (.tail _ (.head _)) hn (fun _ => rfl) rfl (fun _ _ => tells_simple.part)) ?_
  rintro _ ⟨o2, rfl, h2⟩
  refine Turns.imp (Turns.optS (fun o s => { s with email := o }) (.tail _ (.tail _ (.head _))) hn (fun _ => rfl) rfl (fun _ _ => tells_simple.part)) ?_
  rintro _ ⟨o3, rfl, h3⟩
  intro e
  have e := Except.ok.inj e
  exact {
    timestamp := h1 (congrArg IdentifiableAction.timestamp e)
    name := h2 (congrArg IdentifiableAction.name e)
    email := h3 (congrArg IdentifiableAction.email e) }

theorem Commit.xml_only {ns : Option String} {x : Commit} :
    Tells ns (Commit.writeXml x) "commit" Commit.readXml (fun y => y = x → Commit.XmlOk x) := by
  have hn : ["uid", "url", "author", "committer", "message"].Nodup := by decide
  refine tells_struct (Commit.xml_body_wf) rfl ?_
  refine Turns.then (writeOpt_wf fun _ _ => writeSimple_wf) (Turns.optS (fun o s => { s with uid := o }) (.head _) hn (fun _ => rfl) rfl (fun _ _ => tells_simple.part)) ?_
  rintro _ ⟨o1, rfl, h1⟩
  refine Turns.then (writeOpt_wf fun _ _ => writeSimple_wf) (Turns.optS (fun o s => { s with url := o }) (.tail _ (.head _)) hn (fun _ => rfl) rfl (fun _ _ => tells_simple.part)) ?_
  rintro _ ⟨o2, rfl, h2⟩
  refine Turns.then (writeOpt_wf fun _ _ => IdentifiableAction.xml_wf) (Turns.optS (fun o s => { s with author := o }) (.tail _ (.tail _ (.head _))) hn (fun _ => rfl) rfl (fun _ _ => IdentifiableAction.xml_only.part)) ?_
  rintro _ ⟨o3, rfl, h3⟩
  refine Turns.then (writeOpt_wf fun _ _ => IdentifiableAction.xml_wf) (Turns.optS (fun o s => { s with committer := o }) (.tail _ (.tail _ (.tail _ (.head _)))) hn (fun _ => rfl) rfl (fun _ _ => IdentifiableAction.xml_only.part)) ?_
  rintro _ ⟨o4, rfl, h4⟩
  refine Turns.imp (Turns.optS (fun o s => { s with message := o }) (.tail _ (.tail _ (.tail _ (.tail _ (.head _))))) hn (fun _ => rfl) rfl (fun _ _ => tells_simple.part)) ?_
  rintro _ ⟨o5, rfl, h5⟩
  intro e
  have e := Except.ok.inj e
  exact {
    uid := h1 (congrArg Commit.uid e)
    url := h2 (congrArg Commit.url e)
    author := h3 (congrArg Commit.author e)
    committer := h4 (congrArg Commit.committer e)
    message := h5 (congrArg Commit.message e) }

theorem Diff.xml_only {ns : Option String} {x : Diff} :
    Tells ns (Diff.writeXml x) "diff" Diff.readXml (fun y => y = x → Diff.XmlOk x) := by
  have hn : ["text", "url"].Nodup := by decide
  refine tells_struct (Diff.xml_body_wf) rfl ?_
  refine Turns.then (writeOpt_wf fun _ _ => AttachedText.xml_wf) (Turns.optS (fun o s => { s with text := o }) (.head _) hn (fun _ => rfl) rfl (fun _ _ => AttachedText.xml_only.part)) ?_
  rintro _ ⟨o1, rfl, h1⟩
  refine Turns.imp (Turns.optS (fun o s => { s with url := o }) (.tail _ (.head _)) hn (fun _ => rfl) rfl (fun _ _ => tells_simple.part)) ?_
  rintro _ ⟨o2, rfl, h2⟩
  intro e
  have e := Except.ok.inj e
  exact {
    text := h1 (congrArg Diff.text e)
    url := h2 (congrArg Diff.url e) }

theorem Source.xml_only {ns : Option String} {x : Source} :
    Tells ns (Source.writeXml x) "source" Source.readXml (fun y => y = x → Source.XmlOk x) := by
  have hn : ["name", "url"].Nodup := by decide
  refine tells_struct (Source.xml_body_wf) rfl ?_
  refine Turns.then (writeOpt_wf fun _ _ => writeSimple_wf) (Turns.optS (fun o s => { s with name := o }) (.head _) hn (fun _ => rfl) rfl (fun _ _ => tells_simple.part)) ?_
  rintro _ ⟨o1, rfl, h1⟩
  refine Turns.imp (Turns.optS (fun o s => { s with url := o }) (.tail _ (.head _)) hn (fun _ => rfl) rfl (fun _ _ => tells_simple.part)) ?_
  rintro _ ⟨o2, rfl, h2⟩
  intro e
  have e := Except.ok.inj e
  exact {
    name := h1 (congrArg Source.name e)
    url := h2 (congrArg Source.url e) }

theorem Issue.xml_only {ns : Option String} {x : Issue} :
    Tells ns (Issue.writeXml x) "issue" Issue.readXml (fun y => y = x → Issue.XmlOk x) := by
  have hn : ["id", "name", "description", "source", "references"].Nodup := by decide
  have ha : ["type"].Nodup := by decide
  refine tells_struct (p := (IssueClassification.display x.issueType)) (Issue.xml_body_wf) ?_ ?_
  · refine bindOk (reqAttr_mk ha (.head _)) ?_
    exact congrArg Except.ok rfl
  · refine Turns.then (writeOpt_wf fun _ _ => writeSimple_wf) (Turns.optS (fun o s => { s with id := o }) (.head _) hn (fun _ => rfl) rfl (fun _ _ => tells_simple.part)) ?_
    rintro _ ⟨o1, rfl, h1⟩
    refine Turns.then (writeOpt_wf fun _ _ => writeSimple_wf) (Turns.optS (fun o s => { s with name := o }) (.tail _ (.head _)) hn (fun _ => rfl) rfl (fun _ _ => tells_simple.part)) ?_
    rintro _ ⟨o2, rfl, h2⟩
    refine Turns.then (writeOpt_wf fun _ _ => writeSimple_wf) (Turns.optS (fun o s => { s with description := o }) (.tail _ (.tail _ (.head _))) hn (fun _ => rfl) rfl (fun _ _ => tells_simple.part)) ?_
    rintro _ ⟨o3, rfl, h3⟩
    refine Turns.then (writeOpt_wf fun _ _ => (if_wf Source.xml_wf)) (Turns.optS (fun o s => { s with source := o }) (.tail _ (.tail _ (.tail _ (.head _)))) hn (fun _ => rfl) rfl (fun _ _ => part_if Source.xml_only)) ?_
    rintro _ ⟨o4, rfl, h4⟩
    refine Turns.imp (Turns.optS (fun o s => { s with references := o }) (.tail _ (.tail _ (.tail _ (.tail _ (.head _))))) hn (fun _ => rfl) rfl (fun _ _ => (tells_list (fun _ _ => tells_simple.part) (fun _ _ => writeSimple_wf)).part)) ?_
    rintro _ ⟨o5, rfl, h5⟩
    intro e
    have e := Except.ok.inj e
    exact {
      issueType := congrArg Issue.issueType e
      id := h1 (congrArg Issue.id e)
      name := h2 (congrArg Issue.name e)
      description := h3 (congrArg Issue.description e)
      source := h4 (congrArg Issue.source e)
      references := h5 (congrArg Issue.references e) }

theorem Patch.xml_only {ns : Option String} {x : Patch} :
    Tells ns (Patch.writeXml x) "patch" Patch.readXml (fun y => y = x → Patch.XmlOk x) := by
  have hn : ["diff", "resolves"].Nodup := by decide
  have ha : ["type"].Nodup := by decide
  refine tells_struct (p := (PatchClassification.display x.patchType)) (Patch.xml_body_wf) ?_ ?_
  · refine bindOk (reqAttr_mk ha (.head _)) ?_
    exact congrArg Except.ok rfl
  · refine Turns.then (writeOpt_wf fun _ _ => (if_wf Diff.xml_wf)) (Turns.optS (fun o s => { s with diff := o }) (.head _) hn (fun _ => rfl) rfl (fun _ _ => part_if Diff.xml_only)) ?_
    rintro _ ⟨o1, rfl, h1⟩
    refine Turns.imp (Turns.optS (fun o s => { s with resolves := o }) (.tail _ (.head _)) hn (fun _ => rfl) rfl (fun _ _ => (tells_list (fun _ _ => Issue.xml_only.part) (fun _ _ => Issue.xml_wf)).part)) ?_
    rintro _ ⟨o2, rfl, h2⟩
    intro e
    have e := Except.ok.inj e
    exact {
      patchType := congrArg Patch.patchType e
      diff := h1 (congrArg Patch.diff e)
      resolves := h2 (congrArg Patch.resolves e) }

theorem VulnerabilityAnalysis.xml_only (v : SpecVersion) {ns : Option String} {x : VulnerabilityAnalysis} :
    Tells ns (VulnerabilityAnalysis.writeXml v x) "analysis" (VulnerabilityAnalysis.readXml v) (fun y => y = x.at v → VulnerabilityAnalysis.XmlOk v x) := by
  cases v with
  | v1_3 =>
    have hn : ["state", "justification", "responses", "detail"].Nodup := by decide
    refine tells_struct (VulnerabilityAnalysis.xml_body_wf) rfl ?_
    refine Turns.then (writeOpt_wf fun _ _ => writeSimple_wf) (Turns.optS (fun o s => { s with state := o }) (.head _) hn (fun _ => rfl) rfl (fun _ _ => (tells_enum (stable_of ImpactAnalysisState.display_new)).part)) ?_
    rintro _ ⟨o1, rfl, h1⟩
    refine Turns.then (writeOpt_wf fun _ _ => writeSimple_wf) (Turns.optS (fun o s => { s with justification := o }) (.tail _ (.head _)) hn (fun _ => rfl) rfl (fun _ _ => (tells_enum (stable_of ImpactAnalysisJustification.display_new)).part)) ?_
    rintro _ ⟨o2, rfl, h2⟩
    refine Turns.then (writeOpt_wf fun _ _ => (writeList_wf fun _ _ => writeSimple_wf)) (Turns.optS (fun o s => { s with responses := o }) (.tail _ (.tail _ (.head _))) hn (fun _ => rfl) rfl (fun _ _ => (tells_list (fun _ _ => (tells_enum (stable_of ImpactAnalysisResponse.display_new)).part) (fun _ _ => writeSimple_wf)).part)) ?_
    rintro _ ⟨o3, rfl, h3⟩
    refine Turns.then (writeOpt_wf fun _ _ => writeSimple_wf) (Turns.optS (fun o s => { s with detail := o }) (.tail _ (.tail _ (.tail _ (.head _)))) hn (fun _ => rfl) rfl (fun _ _ => tells_simple.part)) ?_
    rintro _ ⟨o4, rfl, h4⟩
    refine Turns.then .nil (Turns.nil (Q := fun s => s = _) rfl) ?_
    rintro _ rfl
    refine Turns.nil ?_
    intro e
    have e := Except.ok.inj e
    exact {
      state := h1 (congrArg VulnerabilityAnalysis.state e)
      justification := h2 (congrArg VulnerabilityAnalysis.justification e)
      responses := h3 (congrArg VulnerabilityAnalysis.responses e)
      detail := h4 (congrArg VulnerabilityAnalysis.detail e)
      firstIssued := nofun
      lastUpdated := nofun }
  | v1_4 =>
    have hn : ["state", "justification", "responses", "detail"].Nodup := by decide
    refine tells_struct (VulnerabilityAnalysis.xml_body_wf) rfl ?_
    refine Turns.then (writeOpt_wf fun _ _ => writeSimple_wf) (Turns.optS (fun o s => { s with state := o }) (.head _) hn (fun _ => rfl) rfl (fun _ _ => (tells_enum (stable_of ImpactAnalysisState.display_new)).part)) ?_
    rintro _ ⟨o1, rfl, h1⟩
    refine Turns.then (writeOpt_wf fun _ _ => writeSimple_wf) (Turns.optS (fun o s => { s with justification := o }) (.tail _ (.head _)) hn (fun _ => rfl) rfl (fun _ _ => (tells_enum (stable_of ImpactAnalysisJustification.display_new)).part)) ?_
    rintro _ ⟨o2, rfl, h2⟩
    refine Turns.then (writeOpt_wf fun _ _ => (writeList_wf fun _ _ => writeSimple_wf)) (Turns.optS (fun o s => { s with responses := o }) (.tail _ (.tail _ (.head _))) hn (fun _ => rfl) rfl (fun _ _ => (tells_list (fun _ _ => (tells_enum (stable_of ImpactAnalysisResponse.display_new)).part) (fun _ _ => writeSimple_wf)).part)) ?_
    rintro _ ⟨o3, rfl, h3⟩
    refine Turns.then (writeOpt_wf fun _ _ => writeSimple_wf) (Turns.optS (fun o s => { s with detail := o }) (.tail _ (.tail _ (.tail _ (.head _)))) hn (fun _ => rfl) rfl (fun _ _ => tells_simple.part)) ?_
    rintro _ ⟨o4, rfl, h4⟩
    refine Turns.then .nil (Turns.nil (Q := fun s => s = _) rfl) ?_
    rintro _ rfl
    refine Turns.nil ?_
    intro e
    have e := Except.ok.inj e
    exact {
      state := h1 (congrArg VulnerabilityAnalysis.state e)
      justification := h2 (congrArg VulnerabilityAnalysis.justification e)
      responses := h3 (congrArg VulnerabilityAnalysis.responses e)
      detail := h4 (congrArg VulnerabilityAnalysis.detail e)
      firstIssued := nofun
      lastUpdated := nofun }
  | v1_5 =>
    have hn : ["state", "justification", "responses", "detail", "firstIssued", "lastUpdated"].Nodup := by decide
    refine tells_struct (VulnerabilityAnalysis.xml_body_wf) rfl ?_
    refine Turns.then (writeOpt_wf fun _ _ => writeSimple_wf) (Turns.optS (fun o s => { s with state := o }) (.head _) hn (fun _ => rfl) rfl (fun _ _ => (tells_enum (stable_of ImpactAnalysisState.display_new)).part)) ?_
    rintro _ ⟨o1, rfl, h1⟩
    refine Turns.then (writeOpt_wf fun _ _ => writeSimple_wf) (Turns.optS (fun o s => { s with justification := o }) (.tail _ (.head _)) hn (fun _ => rfl) rfl (fun _ _ => (tells_enum (stable_of ImpactAnalysisJustification.display_new)).part)) ?_
    rintro _ ⟨o2, rfl, h2⟩
    refine Turns.then (writeOpt_wf fun _ _ => (writeList_wf fun _ _ => writeSimple_wf)) (Turns.optS (fun o s => { s with responses := o }) (.tail _ (.tail _ (.head _))) hn (fun _ => rfl) rfl (fun _ _ => (tells_list (fun _ _ => (tells_enum (stable_of ImpactAnalysisResponse.display_new)).part) (fun _ _ => writeSimple_wf)).part)) ?_
    rintro _ ⟨o3, rfl, h3⟩
    refine Turns.then (writeOpt_wf fun _ _ => writeSimple_wf) (Turns.optS (fun o s => { s with detail := o }) (.tail _ (.tail _ (.tail _ (.head _)))) hn (fun _ => rfl) rfl (fun _ _ => tells_simple.part)) ?_
    rintro _ ⟨o4, rfl, h4⟩
    refine Turns.then (writeOpt_wf fun _ _ => writeSimple_wf) (Turns.optS (fun o s => { s with firstIssued := o }) (.tail _ (.tail _ (.tail _ (.tail _ (.head _))))) hn (fun _ => rfl) rfl (fun _ _ => tells_simple.part)) ?_
    rintro _ ⟨o5, rfl, h5⟩
    refine Turns.imp (Turns.optS (fun o s => { s with lastUpdated := o }) (.tail _ (.tail _ (.tail _ (.tail _ (.tail _ (.head _)))))) hn (fun _ => rfl) rfl (fun _ _ => tells_simple.part)) ?_
    rintro _ ⟨o6, rfl, h6⟩
    intro e
    have e := Except.ok.inj e
    exact {
      state := h1 (congrArg VulnerabilityAnalysis.state e)
      justification := h2 (congrArg VulnerabilityAnalysis.justification e)
      responses := h3 (congrArg VulnerabilityAnalysis.responses e)
      detail := h4 (congrArg VulnerabilityAnalysis.detail e)
      firstIssued := fun _ => h5 (congrArg VulnerabilityAnalysis.firstIssued e)
      lastUpdated := fun _ => h6 (congrArg VulnerabilityAnalysis.lastUpdated e) }

theorem TargetVersion.xml_only {ns : Option String} {x : TargetVersion} :
    Tells ns (TargetVersion.writeXml x) "version" TargetVersion.readXml (fun y => y = x → TargetVersion.XmlOk x) := by
  obtain ⟨versionRange, status⟩ := x
  cases versionRange with
  | version z =>
    have hn : ["version", "range", "status"].Nodup := by decide
    refine tells_struct (TargetVersion.xml_body_wf) rfl ?_
    refine Turns.then VersionRange.xml_wf (Turns.one tells_simple (.head _) hn) ?_
    rintro _ ⟨o1, rfl, h1⟩
    refine Turns.imp (Turns.one (tells_enum (stable_of Status.display_new)) (.tail _ (.tail _ (.head _))) hn) ?_
    rintro _ ⟨o2, rfl, h2⟩
    intro e
    have e := Except.ok.inj e
    exact {
      versionRange := h1 (VersionRange.version.inj (congrArg TargetVersion.versionRange e))
      status := h2 (congrArg TargetVersion.status e) }
  | range z =>
    have hn : ["version", "range", "status"].Nodup := by decide
    refine tells_struct (TargetVersion.xml_body_wf) rfl ?_
    refine Turns.then VersionRange.xml_wf (Turns.one tells_simple (.tail _ (.head _)) hn) ?_
    rintro _ ⟨o1, rfl, h1⟩
    refine Turns.imp (Turns.one (tells_enum (stable_of Status.display_new)) (.tail _ (.tail _ (.head _))) hn) ?_
    rintro _ ⟨o2, rfl, h2⟩
    intro e
    have e := Except.ok.inj e
    exact {
      versionRange := h1 (VersionRange.range.inj (congrArg TargetVersion.versionRange e))
      status := h2 (congrArg TargetVersion.status e) }
  | undefinedVersionRange z =>
    have hn : ["version", "range", "status"].Nodup := by decide
    refine tells_struct (TargetVersion.xml_body_wf) rfl ?_
    refine Turns.then .nil (Turns.nil (Q := fun s => s = _) rfl) ?_
    rintro _ rfl
    refine Turns.imp (Turns.one (tells_enum (stable_of Status.display_new)) (.tail _ (.tail _ (.head _))) hn) ?_
    rintro _ ⟨o, rfl, h⟩ e
    exact nomatch e

theorem VulnerabilityTarget.xml_only {ns : Option String} {x : VulnerabilityTarget} :
    Tells ns (VulnerabilityTarget.writeXml x) "target" VulnerabilityTarget.readXml (fun y => y = x → VulnerabilityTarget.XmlOk x) := by
  have hn : ["ref", "versions"].Nodup := by decide
  refine tells_struct (VulnerabilityTarget.xml_body_wf) rfl ?_
  refine Turns.then writeSimple_wf (Turns.one tells_simple (.head _) hn) ?_
  rintro _ ⟨o1, rfl, h1⟩
  refine Turns.imp (Turns.optS (fun o s => { s with versions := o }) (.tail _ (.head _)) hn (fun _ => rfl) rfl (fun _ _ => (tells_listLax (fun _ _ => TargetVersion.xml_only.part) (fun _ _ => TargetVersion.xml_wf)).part)) ?_
  rintro _ ⟨o2, rfl, h2⟩
  intro e
  have e := Except.ok.inj e
  exact {
    bomRef := h1 (congrArg VulnerabilityTarget.bomRef e)
    versions := h2 (congrArg VulnerabilityTarget.versions e) }

end Cdx
