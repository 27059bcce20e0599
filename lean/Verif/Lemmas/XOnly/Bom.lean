import Verif.Lemmas.XOnly.Formulation
import Verif.Lemmas.Format.Bom

set_option linter.unusedSectionVars false
set_option linter.unusedSimpArgs false
set_option linter.unusedVariables false

/-!
# What has to hold for a value to come back from XML (Bom)

The converse of `Verif.Lemmas.Format.Bom`: a value that is read back from the element that was written
for it meets the conditions under which it was shown to be read back.
-/

namespace Cdx

variable [F32Format]

variable [ReadLimit]

theorem Bom.attrs_refused {x : Bom} (h : ¬ x.version < 2 ^ 32) : ∃ e,
    (do let a0 ← Bom.versionOfAttrs (mkAttrs [("serialNumber", x.serialNumber),
          ("version", some (showNat x.version))])
        .ok (a0, optAttr (mkAttrs [("serialNumber", x.serialNumber),
          ("version", some (showNat x.version))]) "serialNumber") : Except XErr (Nat × Option String)) =
      .error e := by
  have ha : ["serialNumber", "version"].Nodup := by decide
  have h1 : optAttr (mkAttrs [("serialNumber", x.serialNumber),
      ("version", some (showNat x.version))]) "version" = some (showNat x.version) :=
    optAttr_mk ha (.tail _ (.head _))
  rw [Bom.versionOfAttrs, h1]
  simp only [parseU32Attr, parseU32_show_none h]
  exact ⟨_, rfl⟩

/-- The reader of the whole document fails on what was written, or returns what the variables make of
it. -/
theorem Bom.told {v : SpecVersion} {attrs : List (String × String)} {body : List WEvent}
    {p : Nat × Option String} {x : Bom} {C : Prop} (hb : WellFormed true body)
    (hp : (do let a0 ← Bom.versionOfAttrs attrs
              .ok (a0, optAttr attrs "serialNumber") : Except XErr (Nat × Option String)) = .ok p)
    (hs : Turns (some v.namespace) .skip ⟨"bom", some v.namespace, none⟩ (Bom.arms v) body {}
      (fun vars => (.ok { version := p.1, serialNumber := p.2, specVersion := v,
                          metadata := vars.metadata, components := vars.components,
                          services := vars.services, externalReferences := vars.externalReferences,
                          dependencies := vars.dependencies, compositions := vars.compositions,
                          properties := vars.properties, vulnerabilities := vars.vulnerabilities,
                          signature := vars.signature, annotations := vars.annotations,
                          formulation := vars.formulation } : Except XErr Bom) = .ok x → C))
    (h : Bom.readDocument v (document v.namespace (writeElem "bom" attrs body)) = .ok x) : C := by
  have he : Ends (fun n => n.localName = "bom") ⟨"bom", some v.namespace, none⟩ :=
    fun n h => of_decide_eq_true h
  rw [document, deliver_elem hb] at h
  simp only [Bom.readDocument, List.cons_append, List.append_assoc, List.nil_append, if_true,
    bind, Except.bind] at h hp
  cases hv : Bom.versionOfAttrs attrs with
  | error e => rw [hv] at hp; cases hp
  | ok version =>
    rw [hv] at h hp
    dsimp only at h hp
    cases hp
    rcases hs with ⟨e, hr⟩ | ⟨st, hm, hq⟩
    · rw [show Bom.readBody v _ _ = _ from hr _ he _] at h
      cases h
    · rw [show Bom.readBody v _ _ = _ from hm _ he _] at h
      simp only [readTo, readLoop, decide_true, if_true] at h
      exact hq h

theorem Bom.refused {v : SpecVersion} {attrs : List (String × String)} {body : List WEvent} {e : XErr}
    {x : Bom} {C : Prop} (hb : WellFormed true body)
    (hp : (do let a0 ← Bom.versionOfAttrs attrs
              .ok (a0, optAttr attrs "serialNumber") : Except XErr (Nat × Option String)) = .error e)
    (h : Bom.readDocument v (document v.namespace (writeElem "bom" attrs body)) = .ok x) : C := by
  rw [document, deliver_elem hb] at h
  simp only [Bom.readDocument, List.cons_append, List.append_assoc, List.nil_append, if_true,
    bind, Except.bind] at h hp
  cases hv : Bom.versionOfAttrs attrs with
  | error e => rw [hv] at h; cases h
  | ok version => rw [hv] at hp; cases hp

theorem Bom.document_only_small (v : SpecVersion) {x : Bom} (hv : x.version < 2 ^ 32) :
    Bom.readDocument v (document v.namespace (Bom.writeXml v x)) = .ok (x.at v) → Bom.XmlOk v x := by
  cases v with
  | v1_3 =>
    have hn : ["metadata", "components", "services", "externalReferences", "dependencies", "compositions"].Nodup := by decide
    refine Bom.told (p := (x.version, x.serialNumber)) (Bom.xml_body_wf (fun _ => rfl)) ?_ ?_
    · exact Bom.attrs_read hv
    · refine Turns.then (writeOpt_wf fun _ _ => (Metadata.xml_wf fun _ => rfl)) (Turns.optS_at (fun o s => { s with metadata := o }) (.head _) hn (fun _ => rfl) rfl (fun _ _ => (Metadata.xml_only .v1_3).part)) ?_
      rintro _ ⟨o1, rfl, h1⟩
      refine Turns.then (writeOpt_wf fun _ _ => (writeList_wf fun _ _ => (Component.xml_wf fun _ => rfl))) (Turns.optS_at (fun o s => { s with components := o }) (.tail _ (.head _)) hn (fun _ => rfl) rfl (fun _ _ => (tells_listLax_at (fun _ _ => (Component.xml_only .v1_3).part) (fun _ _ => (Component.xml_wf fun _ => rfl))).part)) ?_
      rintro _ ⟨o2, rfl, h2⟩
      refine Turns.then (writeOpt_wf fun _ _ => (writeList_wf fun _ _ => (Service.xml_wf fun _ => rfl))) (Turns.optS_at (fun o s => { s with services := o }) (.tail _ (.tail _ (.head _))) hn (fun _ => rfl) rfl (fun _ _ => (tells_listLax_at (fun _ _ => (Service.xml_only .v1_3).part) (fun _ _ => (Service.xml_wf fun _ => rfl))).part)) ?_
      rintro _ ⟨o3, rfl, h3⟩
      refine Turns.then (writeOpt_wf fun _ _ => (writeList_wf fun _ _ => ExternalReference.xml_wf)) (Turns.optS (fun o s => { s with externalReferences := o }) (.tail _ (.tail _ (.tail _ (.head _)))) hn (fun _ => rfl) rfl (fun _ _ => (tells_list (fun _ _ => ExternalReference.xml_only.part) (fun _ _ => ExternalReference.xml_wf)).part)) ?_
      rintro _ ⟨o4, rfl, h4⟩
      refine Turns.then (writeOpt_wf fun _ _ => (writeList_wf fun _ _ => Dependency.xml_wf)) (Turns.optS (fun o s => { s with dependencies := o }) (.tail _ (.tail _ (.tail _ (.tail _ (.head _))))) hn (fun _ => rfl) rfl (fun _ _ => (tells_list (fun _ _ => Dependency.xml_only.part) (fun _ _ => Dependency.xml_wf)).part)) ?_
      rintro _ ⟨o5, rfl, h5⟩
      refine Turns.then (writeOpt_wf fun _ _ => (writeList_wf fun _ _ => Composition.xml_wf)) (Turns.optS_at (fun o s => { s with compositions := o }) (.tail _ (.tail _ (.tail _ (.tail _ (.tail _ (.head _)))))) hn (fun _ => rfl) rfl (fun _ _ => (tells_listLax_at (fun _ _ => (Composition.xml_only .v1_3).part) (fun _ _ => Composition.xml_wf)).part)) ?_
      rintro _ ⟨o6, rfl, h6⟩
      refine Turns.then .nil (Turns.nil (Q := fun s => s = _) rfl) ?_
      rintro _ rfl
      refine Turns.then .nil (Turns.nil (Q := fun s => s = _) rfl) ?_
      rintro _ rfl
      refine Turns.nil ?_
      intro e
      have e := Except.ok.inj e
      exact {
        version := hv
        signature := fun hv => absurd rfl hv
        annotations := nofun
        metadata := h1 (congrArg Bom.metadata e)
        components := h2 (congrArg Bom.components e)
        services := h3 (congrArg Bom.services e)
        externalReferences := h4 (congrArg Bom.externalReferences e)
        compositions := h6 (congrArg Bom.compositions e)
        properties := nofun
        vulnerabilities := fun hv => absurd rfl hv
        formulation := nofun }
  | v1_4 =>
    obtain ⟨version, serialNumber, metadata, components, services, externalReferences, dependencies, compositions, properties, vulnerabilities, signature, annotations, formulation, specVersion⟩ := x
    have hn : ["metadata", "components", "services", "externalReferences", "dependencies", "compositions", "vulnerabilities", "signature"].Nodup := by decide
    refine Bom.told (p := (version, serialNumber)) (Bom.xml_body_wf (fun _ => rfl)) ?_ ?_
    · exact Bom.attrs_read hv
    · refine Turns.then (writeOpt_wf fun _ _ => (Metadata.xml_wf fun _ => rfl)) (Turns.optS_at (fun o s => { s with metadata := o }) (.head _) hn (fun _ => rfl) rfl (fun _ _ => (Metadata.xml_only .v1_4).part)) ?_
      rintro _ ⟨o1, rfl, h1⟩
      refine Turns.then (writeOpt_wf fun _ _ => (writeList_wf fun _ _ => (Component.xml_wf fun _ => rfl))) (Turns.optS_at (fun o s => { s with components := o }) (.tail _ (.head _)) hn (fun _ => rfl) rfl (fun _ _ => (tells_listLax_at (fun _ _ => (Component.xml_only .v1_4).part) (fun _ _ => (Component.xml_wf fun _ => rfl))).part)) ?_
      rintro _ ⟨o2, rfl, h2⟩
      refine Turns.then (writeOpt_wf fun _ _ => (writeList_wf fun _ _ => (Service.xml_wf fun _ => rfl))) (Turns.optS_at (fun o s => { s with services := o }) (.tail _ (.tail _ (.head _))) hn (fun _ => rfl) rfl (fun _ _ => (tells_listLax_at (fun _ _ => (Service.xml_only .v1_4).part) (fun _ _ => (Service.xml_wf fun _ => rfl))).part)) ?_
      rintro _ ⟨o3, rfl, h3⟩
      refine Turns.then (writeOpt_wf fun _ _ => (writeList_wf fun _ _ => ExternalReference.xml_wf)) (Turns.optS (fun o s => { s with externalReferences := o }) (.tail _ (.tail _ (.tail _ (.head _)))) hn (fun _ => rfl) rfl (fun _ _ => (tells_list (fun _ _ => ExternalReference.xml_only.part) (fun _ _ => ExternalReference.xml_wf)).part)) ?_
      rintro _ ⟨o4, rfl, h4⟩
      refine Turns.then (writeOpt_wf fun _ _ => (writeList_wf fun _ _ => Dependency.xml_wf)) (Turns.optS (fun o s => { s with dependencies := o }) (.tail _ (.tail _ (.tail _ (.tail _ (.head _))))) hn (fun _ => rfl) rfl (fun _ _ => (tells_list (fun _ _ => Dependency.xml_only.part) (fun _ _ => Dependency.xml_wf)).part)) ?_
      rintro _ ⟨o5, rfl, h5⟩
      refine Turns.then (writeOpt_wf fun _ _ => (writeList_wf fun _ _ => Composition.xml_wf)) (Turns.optS_at (fun o s => { s with compositions := o }) (.tail _ (.tail _ (.tail _ (.tail _ (.tail _ (.head _)))))) hn (fun _ => rfl) rfl (fun _ _ => (tells_listLax_at (fun _ _ => (Composition.xml_only .v1_4).part) (fun _ _ => Composition.xml_wf)).part)) ?_
      rintro _ ⟨o6, rfl, h6⟩
      refine Turns.then .nil (Turns.nil (Q := fun s => s = _) rfl) ?_
      rintro _ rfl
      refine Turns.then (writeOpt_wf fun _ _ => (writeList_wf fun _ _ => (Vulnerability.xml_wf fun _ => rfl))) (Turns.optS_at (fun o s => { s with vulnerabilities := o }) (.tail _ (.tail _ (.tail _ (.tail _ (.tail _ (.tail _ (.head _))))))) hn (fun _ => rfl) rfl (fun _ _ => (tells_listLax_at (fun _ _ => (Vulnerability.xml_only .v1_4).part) (fun _ _ => (Vulnerability.xml_wf fun _ => rfl))).part)) ?_
      rintro _ ⟨o8, rfl, h8⟩
      refine Turns.nil ?_
      intro e
      have e := Except.ok.inj e
      exact {
        version := hv
        signature := fun _ => (congrArg Bom.signature e).symm
        annotations := nofun
        metadata := h1 (congrArg Bom.metadata e)
        components := h2 (congrArg Bom.components e)
        services := h3 (congrArg Bom.services e)
        externalReferences := h4 (congrArg Bom.externalReferences e)
        compositions := h6 (congrArg Bom.compositions e)
        properties := nofun
        vulnerabilities := fun _ => h8 (congrArg Bom.vulnerabilities e)
        formulation := nofun }
  | v1_5 =>
    obtain ⟨version, serialNumber, metadata, components, services, externalReferences, dependencies, compositions, properties, vulnerabilities, signature, annotations, formulation, specVersion⟩ := x
    have hn : ["metadata", "components", "services", "externalReferences", "dependencies", "compositions", "vulnerabilities", "signature", "properties", "annotations", "formulation"].Nodup := by decide
    refine Bom.told (p := (version, serialNumber)) (Bom.xml_body_wf (fun _ => rfl)) ?_ ?_
    · exact Bom.attrs_read hv
    · refine Turns.then (writeOpt_wf fun _ _ => (Metadata.xml_wf fun _ => rfl)) (Turns.optS_at (fun o s => { s with metadata := o }) (.head _) hn (fun _ => rfl) rfl (fun _ _ => (Metadata.xml_only .v1_5).part)) ?_
      rintro _ ⟨o1, rfl, h1⟩
      refine Turns.then (writeOpt_wf fun _ _ => (writeList_wf fun _ _ => (Component.xml_wf fun _ => rfl))) (Turns.optS_at (fun o s => { s with components := o }) (.tail _ (.head _)) hn (fun _ => rfl) rfl (fun _ _ => (tells_listLax_at (fun _ _ => (Component.xml_only .v1_5).part) (fun _ _ => (Component.xml_wf fun _ => rfl))).part)) ?_
      rintro _ ⟨o2, rfl, h2⟩
      refine Turns.then (writeOpt_wf fun _ _ => (writeList_wf fun _ _ => (Service.xml_wf fun _ => rfl))) (Turns.optS_at (fun o s => { s with services := o }) (.tail _ (.tail _ (.head _))) hn (fun _ => rfl) rfl (fun _ _ => (tells_listLax_at (fun _ _ => (Service.xml_only .v1_5).part) (fun _ _ => (Service.xml_wf fun _ => rfl))).part)) ?_
      rintro _ ⟨o3, rfl, h3⟩
      refine Turns.then (writeOpt_wf fun _ _ => (writeList_wf fun _ _ => ExternalReference.xml_wf)) (Turns.optS (fun o s => { s with externalReferences := o }) (.tail _ (.tail _ (.tail _ (.head _)))) hn (fun _ => rfl) rfl (fun _ _ => (tells_list (fun _ _ => ExternalReference.xml_only.part) (fun _ _ => ExternalReference.xml_wf)).part)) ?_
      rintro _ ⟨o4, rfl, h4⟩
      refine Turns.then (writeOpt_wf fun _ _ => (writeList_wf fun _ _ => Dependency.xml_wf)) (Turns.optS (fun o s => { s with dependencies := o }) (.tail _ (.tail _ (.tail _ (.tail _ (.head _))))) hn (fun _ => rfl) rfl (fun _ _ => (tells_list (fun _ _ => Dependency.xml_only.part) (fun _ _ => Dependency.xml_wf)).part)) ?_
      rintro _ ⟨o5, rfl, h5⟩
      refine Turns.then (writeOpt_wf fun _ _ => (writeList_wf fun _ _ => Composition.xml_wf)) (Turns.optS_at (fun o s => { s with compositions := o }) (.tail _ (.tail _ (.tail _ (.tail _ (.tail _ (.head _)))))) hn (fun _ => rfl) rfl (fun _ _ => (tells_listLax_at (fun _ _ => (Composition.xml_only .v1_5).part) (fun _ _ => Composition.xml_wf)).part)) ?_
      rintro _ ⟨o6, rfl, h6⟩
      refine Turns.then (writeOpt_wf fun _ _ => (writeList_wf fun _ _ => Property.xml_wf)) (Turns.optS (fun o s => { s with properties := o }) (.tail _ (.tail _ (.tail _ (.tail _ (.tail _ (.tail _ (.tail _ (.tail _ (.head _))))))))) hn (fun _ => rfl) rfl (fun _ _ => (tells_listLax (fun _ _ => Property.xml_only.part) (fun _ _ => Property.xml_wf)).part)) ?_
      rintro _ ⟨o7, rfl, h7⟩
      refine Turns.then (writeOpt_wf fun _ _ => (writeList_wf fun _ _ => (Vulnerability.xml_wf fun _ => rfl))) (Turns.optS_at (fun o s => { s with vulnerabilities := o }) (.tail _ (.tail _ (.tail _ (.tail _ (.tail _ (.tail _ (.head _))))))) hn (fun _ => rfl) rfl (fun _ _ => (tells_listLax_at (fun _ _ => (Vulnerability.xml_only .v1_5).part) (fun _ _ => (Vulnerability.xml_wf fun _ => rfl))).part)) ?_
      rintro _ ⟨o8, rfl, h8⟩
      refine Turns.imp (Turns.optS_at (fun o s => { s with formulation := o }) (.tail _ (.tail _ (.tail _ (.tail _ (.tail _ (.tail _ (.tail _ (.tail _ (.tail _ (.tail _ (.head _))))))))))) hn (fun _ => rfl) rfl (fun _ _ => (tells_list_at (fun _ _ => (Formula.xml_only .v1_5).part) (fun _ _ => Formula.xml_wf)).part)) ?_
      rintro _ ⟨o9, rfl, h9⟩
      intro e
      have e := Except.ok.inj e
      exact {
        version := hv
        signature := fun _ => (congrArg Bom.signature e).symm
        annotations := fun _ => Option.map_eq_none_iff.mp (congrArg Bom.annotations e).symm
        metadata := h1 (congrArg Bom.metadata e)
        components := h2 (congrArg Bom.components e)
        services := h3 (congrArg Bom.services e)
        externalReferences := h4 (congrArg Bom.externalReferences e)
        compositions := h6 (congrArg Bom.compositions e)
        properties := fun _ => h7 (congrArg Bom.properties e)
        vulnerabilities := fun _ => h8 (congrArg Bom.vulnerabilities e)
        formulation := fun _ => h9 (congrArg Bom.formulation e) }

theorem Bom.document_only (v : SpecVersion) {x : Bom}
    (h : Bom.readDocument v (document v.namespace (Bom.writeXml v x)) = .ok (x.at v)) : Bom.XmlOk v x := by
  by_cases hv : x.version < 2 ^ 32
  · exact Bom.document_only_small v hv h
  · obtain ⟨e, he⟩ := Bom.attrs_refused hv
    cases v with
    | v1_3 => exact Bom.refused (Bom.xml_body_wf (fun _ => rfl)) he h
    | v1_4 => exact Bom.refused (Bom.xml_body_wf (fun _ => rfl)) he h
    | v1_5 => exact Bom.refused (Bom.xml_body_wf (fun _ => rfl)) he h

end Cdx
