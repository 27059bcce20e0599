import Verif.Lemmas.XOnly.Basic
import Verif.Lemmas.Format.License

set_option linter.unusedSectionVars false
set_option linter.unusedSimpArgs false
set_option linter.unusedVariables false

/-!
# What has to hold for a value to come back from XML (License)

The converse of `Verif.Lemmas.Format.License`: a value that is read back from the element that was written
for it meets the conditions under which it was shown to be read back.
-/

namespace Cdx

theorem License.xml_only (v : SpecVersion) {ns : Option String} {x : License} :
    Tells ns (License.writeXml v x) "license" (License.readXml v) (fun y => y = x.at v → License.XmlOk v x) := by
  cases v with
  | v1_3 =>
    obtain ⟨bomRef, licenseIdentifier, text, url, licensing, properties⟩ := x
    cases licenseIdentifier with
    | spdxId z =>
      have hn : ["id", "name", "text", "url"].Nodup := by decide
      have ha : ["bom-ref"].Nodup := by decide
      refine tells_struct (p := (none)) (License.xml_body_wf) ?_ ?_
      · exact congrArg Except.ok rfl
      · refine Turns.then LicenseIdentifier.xml_wf (Turns.once (tells_inner (attrs := [])) (.head _) hn rfl) ?_
        rintro _ ⟨o1, rfl, h1⟩
        refine Turns.then (writeOpt_wf fun _ _ => AttachedText.xml_wf) (Turns.optS (fun o s => { s with text := o }) (.tail _ (.tail _ (.head _))) hn (fun _ => rfl) rfl (fun _ _ => AttachedText.xml_only.part)) ?_
        rintro _ ⟨o2, rfl, h2⟩
        refine Turns.then (writeOpt_wf fun _ _ => writeSimple_wf) (Turns.optS (fun o s => { s with url := o }) (.tail _ (.tail _ (.tail _ (.head _)))) hn (fun _ => rfl) rfl (fun _ _ => tells_simple.part)) ?_
        rintro _ ⟨o3, rfl, h3⟩
        refine Turns.nil ?_
        intro e
        have e := Except.ok.inj e
        exact {
          licensing := nofun
          licenseIdentifier := h1 (LicenseIdentifier.spdxId.inj (congrArg License.licenseIdentifier e))
          text := h2 (congrArg License.text e)
          url := h3 (congrArg License.url e)
          properties := nofun }
    | name z =>
      have hn : ["id", "name", "text", "url"].Nodup := by decide
      have ha : ["bom-ref"].Nodup := by decide
      refine tells_struct (p := (none)) (License.xml_body_wf) ?_ ?_
      · exact congrArg Except.ok rfl
      · refine Turns.then LicenseIdentifier.xml_wf (Turns.once (tells_inner (attrs := [])) (.tail _ (.head _)) hn rfl) ?_
        rintro _ ⟨o1, rfl, h1⟩
        refine Turns.then (writeOpt_wf fun _ _ => AttachedText.xml_wf) (Turns.optS (fun o s => { s with text := o }) (.tail _ (.tail _ (.head _))) hn (fun _ => rfl) rfl (fun _ _ => AttachedText.xml_only.part)) ?_
        rintro _ ⟨o2, rfl, h2⟩
        refine Turns.then (writeOpt_wf fun _ _ => writeSimple_wf) (Turns.optS (fun o s => { s with url := o }) (.tail _ (.tail _ (.tail _ (.head _)))) hn (fun _ => rfl) rfl (fun _ _ => tells_simple.part)) ?_
        rintro _ ⟨o3, rfl, h3⟩
        refine Turns.nil ?_
        intro e
        have e := Except.ok.inj e
        exact {
          licensing := nofun
          licenseIdentifier := h1 (LicenseIdentifier.name.inj (congrArg License.licenseIdentifier e))
          text := h2 (congrArg License.text e)
          url := h3 (congrArg License.url e)
          properties := nofun }
  | v1_4 =>
    obtain ⟨bomRef, licenseIdentifier, text, url, licensing, properties⟩ := x
    cases licenseIdentifier with
    | spdxId z =>
      have hn : ["id", "name", "text", "url"].Nodup := by decide
      have ha : ["bom-ref"].Nodup := by decide
      refine tells_struct (p := (none)) (License.xml_body_wf) ?_ ?_
      · exact congrArg Except.ok rfl
      · refine Turns.then LicenseIdentifier.xml_wf (Turns.once (tells_inner (attrs := [])) (.head _) hn rfl) ?_
        rintro _ ⟨o1, rfl, h1⟩
        refine Turns.then (writeOpt_wf fun _ _ => AttachedText.xml_wf) (Turns.optS (fun o s => { s with text := o }) (.tail _ (.tail _ (.head _))) hn (fun _ => rfl) rfl (fun _ _ => AttachedText.xml_only.part)) ?_
        rintro _ ⟨o2, rfl, h2⟩
        refine Turns.then (writeOpt_wf fun _ _ => writeSimple_wf) (Turns.optS (fun o s => { s with url := o }) (.tail _ (.tail _ (.tail _ (.head _)))) hn (fun _ => rfl) rfl (fun _ _ => tells_simple.part)) ?_
        rintro _ ⟨o3, rfl, h3⟩
        refine Turns.nil ?_
        intro e
        have e := Except.ok.inj e
        exact {
          licensing := nofun
          licenseIdentifier := h1 (LicenseIdentifier.spdxId.inj (congrArg License.licenseIdentifier e))
          text := h2 (congrArg License.text e)
          url := h3 (congrArg License.url e)
          properties := nofun }
    | name z =>
      have hn : ["id", "name", "text", "url"].Nodup := by decide
      have ha : ["bom-ref"].Nodup := by decide
      refine tells_struct (p := (none)) (License.xml_body_wf) ?_ ?_
      · exact congrArg Except.ok rfl
      · refine Turns.then LicenseIdentifier.xml_wf (Turns.once (tells_inner (attrs := [])) (.tail _ (.head _)) hn rfl) ?_
        rintro _ ⟨o1, rfl, h1⟩
        refine Turns.then (writeOpt_wf fun _ _ => AttachedText.xml_wf) (Turns.optS (fun o s => { s with text := o }) (.tail _ (.tail _ (.head _))) hn (fun _ => rfl) rfl (fun _ _ => AttachedText.xml_only.part)) ?_
        rintro _ ⟨o2, rfl, h2⟩
        refine Turns.then (writeOpt_wf fun _ _ => writeSimple_wf) (Turns.optS (fun o s => { s with url := o }) (.tail _ (.tail _ (.tail _ (.head _)))) hn (fun _ => rfl) rfl (fun _ _ => tells_simple.part)) ?_
        rintro _ ⟨o3, rfl, h3⟩
        refine Turns.nil ?_
        intro e
        have e := Except.ok.inj e
        exact {
          licensing := nofun
          licenseIdentifier := h1 (LicenseIdentifier.name.inj (congrArg License.licenseIdentifier e))
          text := h2 (congrArg License.text e)
          url := h3 (congrArg License.url e)
          properties := nofun }
  | v1_5 =>
    obtain ⟨bomRef, licenseIdentifier, text, url, licensing, properties⟩ := x
    cases licenseIdentifier with
    | spdxId z =>
      have hn : ["id", "name", "text", "url", "licensing", "properties"].Nodup := by decide
      have ha : ["bom-ref"].Nodup := by decide
      refine tells_struct (p := (bomRef)) (License.xml_body_wf) ?_ ?_
      · exact congrArg Except.ok (optAttr_mk ha (.head _))
      · refine Turns.then LicenseIdentifier.xml_wf (Turns.once (tells_inner (attrs := [])) (.head _) hn rfl) ?_
        rintro _ ⟨o1, rfl, h1⟩
        refine Turns.then (writeOpt_wf fun _ _ => AttachedText.xml_wf) (Turns.optS (fun o s => { s with text := o }) (.tail _ (.tail _ (.head _))) hn (fun _ => rfl) rfl (fun _ _ => AttachedText.xml_only.part)) ?_
        rintro _ ⟨o2, rfl, h2⟩
        refine Turns.then (writeOpt_wf fun _ _ => writeSimple_wf) (Turns.optS (fun o s => { s with url := o }) (.tail _ (.tail _ (.tail _ (.head _)))) hn (fun _ => rfl) rfl (fun _ _ => tells_simple.part)) ?_
        rintro _ ⟨o3, rfl, h3⟩
        refine Turns.imp (Turns.optS (fun o s => { s with properties := o }) (.tail _ (.tail _ (.tail _ (.tail _ (.tail _ (.head _)))))) hn (fun _ => rfl) rfl (fun _ _ => (tells_listLax (fun _ _ => Property.xml_only.part) (fun _ _ => Property.xml_wf)).part)) ?_
        rintro _ ⟨o4, rfl, h4⟩
        intro e
        have e := Except.ok.inj e
        exact {
          licensing := fun _ => (congrArg License.licensing e).symm
          licenseIdentifier := h1 (LicenseIdentifier.spdxId.inj (congrArg License.licenseIdentifier e))
          text := h2 (congrArg License.text e)
          url := h3 (congrArg License.url e)
          properties := fun _ => h4 (congrArg License.properties e) }
    | name z =>
      have hn : ["id", "name", "text", "url", "licensing", "properties"].Nodup := by decide
      have ha : ["bom-ref"].Nodup := by decide
      refine tells_struct (p := (bomRef)) (License.xml_body_wf) ?_ ?_
      · exact congrArg Except.ok (optAttr_mk ha (.head _))
      · refine Turns.then LicenseIdentifier.xml_wf (Turns.once (tells_inner (attrs := [])) (.tail _ (.head _)) hn rfl) ?_
        rintro _ ⟨o1, rfl, h1⟩
        refine Turns.then (writeOpt_wf fun _ _ => AttachedText.xml_wf) (Turns.optS (fun o s => { s with text := o }) (.tail _ (.tail _ (.head _))) hn (fun _ => rfl) rfl (fun _ _ => AttachedText.xml_only.part)) ?_
        rintro _ ⟨o2, rfl, h2⟩
        refine Turns.then (writeOpt_wf fun _ _ => writeSimple_wf) (Turns.optS (fun o s => { s with url := o }) (.tail _ (.tail _ (.tail _ (.head _)))) hn (fun _ => rfl) rfl (fun _ _ => tells_simple.part)) ?_
        rintro _ ⟨o3, rfl, h3⟩
        refine Turns.imp (Turns.optS (fun o s => { s with properties := o }) (.tail _ (.tail _ (.tail _ (.tail _ (.tail _ (.head _)))))) hn (fun _ => rfl) rfl (fun _ _ => (tells_listLax (fun _ _ => Property.xml_only.part) (fun _ _ => Property.xml_wf)).part)) ?_
        rintro _ ⟨o4, rfl, h4⟩
        intro e
        have e := Except.ok.inj e
        exact {
          licensing := fun _ => (congrArg License.licensing e).symm
          licenseIdentifier := h1 (LicenseIdentifier.name.inj (congrArg License.licenseIdentifier e))
          text := h2 (congrArg License.text e)
          url := h3 (congrArg License.url e)
          properties := fun _ => h4 (congrArg License.properties e) }

theorem SpdxExpression.xml_only {ns : Option String} {x : SpdxExpression} :
    Tells ns (SpdxExpression.writeXml x) "expression" SpdxExpression.readXml
      (fun y => y = x → SpdxExpression.XmlOk x) := by
  have ha : ["bom-ref"].Nodup := by decide
  refine tells_with (p := (x.bomRef)) tells_text ?_ ?_
  · exact congrArg Except.ok (optAttr_mk ha (.head _))
  · intro y hy e
    exact { expression := hy (congrArg SpdxExpression.expression e) }

theorem Licenses.xml_only (v : SpecVersion) {ns : Option String} {x : Licenses} :
    Tells ns (Licenses.writeXml v x) "licenses" (Licenses.readXml v)
      (fun y => y = x.at v → Licenses.XmlOk v x) := by
  have hn : ["license", "expression"].Nodup := by decide
  refine tells_struct (flatMap_wf fun _ _ => LicenseChoice.xml_wf) rfl ?_
  refine Turns.imp (Turns.each (a := LicenseChoice.at v) (C := LicenseChoice.XmlOk v)
    (fun y hy st => ?_) (fun _ _ => LicenseChoice.xml_wf)) ?_
  · cases y with
    | license l =>
      refine Turns.imp (Turns.one (License.xml_only v) (.head _) hn) ?_
      rintro _ ⟨z, rfl, hz⟩
      exact ⟨.license z, rfl, fun e => hz (LicenseChoice.license.inj e)⟩
    | expression s =>
      refine Turns.imp (Turns.one SpdxExpression.xml_only (.tail _ (.head _)) hn) ?_
      rintro _ ⟨z, rfl, hz⟩
      exact ⟨.expression z, rfl, fun e => hz (LicenseChoice.expression.inj e)⟩
  · rintro _ ⟨zs, rfl, h⟩
    intro e
    exact h (Except.ok.inj e)

end Cdx
