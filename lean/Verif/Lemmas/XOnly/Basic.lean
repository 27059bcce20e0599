import Verif.Lemmas.XmlOnly
import Verif.Lemmas.Lossless
import Verif.Lemmas.Gets.Parts
import Verif.Lemmas.Format.Basic

set_option linter.unusedSectionVars false
set_option linter.unusedSimpArgs false
set_option linter.unusedVariables false

/-!
# What has to hold for a value to come back from XML (Basic)

The converse of `Verif.Lemmas.Format.Basic`: a value that is read back from the element that was written
for it meets the conditions under which it was shown to be read back.
-/

namespace Cdx

theorem AttachedText.xml_only {ns : Option String} {tag : String} {x : AttachedText} :
    Tells ns (AttachedText.writeXml tag x) tag AttachedText.readXml
      (fun y => y = x → AttachedText.XmlOk x) := by
  have ha : ["content-type", "encoding"].Nodup := by decide
  refine tells_with (p := (x.contentType, x.encoding.map Encoding.display)) tells_inner ?_ ?_
  · exact congrArg Except.ok (congrPair (optAttr_mk ha (.head _)) (optAttr_mk ha (.tail _ (.head _))))
  · intro y hy e
    exact {
      encoding := stable_map (congrArg AttachedText.encoding e)
      content := hy (congrArg AttachedText.content e) }

theorem Property.xml_only {ns : Option String} {x : Property} :
    Tells ns (Property.writeXml x) "property" Property.readXml
      (fun y => y = x → Property.XmlOk x) := by
  have ha : ["name"].Nodup := by decide
  refine tells_with (p := (x.name)) tells_text ?_ ?_
  · refine bindOk (reqAttr_mk ha (.head _)) ?_
    exact congrArg Except.ok rfl
  · intro y hy e
    exact { value := hy (congrArg Property.value e) }

theorem Hash.xml_only {ns : Option String} {x : Hash} :
    Tells ns (Hash.writeXml x) "hash" Hash.readXml (fun y => y = x → Hash.XmlOk x) := by
  have ha : ["alg"].Nodup := by decide
  refine tells_with (p := (HashAlgorithm.display x.alg)) tells_text ?_ ?_
  · refine bindOk (reqAttr_mk ha (.head _)) ?_
    exact congrArg Except.ok rfl
  · intro y hy e
    exact { alg := congrArg Hash.alg e
            content := hy (congrArg Hash.content e) }

theorem OrganizationalContact.xml_only {ns : Option String} {tag : String} {x : OrganizationalContact} :
    Tells ns (OrganizationalContact.writeXml tag x) tag OrganizationalContact.readXml (fun y => y = x → OrganizationalContact.XmlOk x) := by
  have hn : ["name", "email", "phone"].Nodup := by decide
  have ha : ["bom-ref"].Nodup := by decide
  refine tells_struct (p := (x.bomRef)) (OrganizationalContact.xml_body_wf) ?_ ?_
  · exact congrArg Except.ok (optAttr_mk ha (.head _))
  · refine Turns.then (writeOpt_wf fun _ _ => writeSimple_wf) (Turns.optS (fun o s => { s with name := o }) (.head _) hn (fun _ => rfl) rfl (fun _ _ => tells_simple.part)) ?_
    rintro _ ⟨o1, rfl, h1⟩
    refine Turns.then (writeOpt_wf fun _ _ => writeSimple_wf) (Turns.optS (fun o s => { s with email := o }) (.tail _ (.head _)) hn (fun _ => rfl) rfl (fun _ _ => tells_simple.part)) ?_
    rintro _ ⟨o2, rfl, h2⟩
    refine Turns.imp (Turns.optS (fun o s => { s with phone := o }) (.tail _ (.tail _ (.head _))) hn (fun _ => rfl) rfl (fun _ _ => tells_simple.part)) ?_
    rintro _ ⟨o3, rfl, h3⟩
    intro e
    have e := Except.ok.inj e
    exact {
      name := h1 (congrArg OrganizationalContact.name e)
      email := h2 (congrArg OrganizationalContact.email e)
      phone := h3 (congrArg OrganizationalContact.phone e) }

theorem OrganizationalEntity.xml_only {ns : Option String} {tag : String} {x : OrganizationalEntity} :
    Tells ns (OrganizationalEntity.writeXml tag x) tag OrganizationalEntity.readXml (fun y => y = x → OrganizationalEntity.XmlOk x) := by
  have hn : ["name", "url", "contact"].Nodup := by decide
  have ha : ["bom-ref"].Nodup := by decide
  refine tells_struct (p := (x.bomRef)) (OrganizationalEntity.xml_body_wf) ?_ ?_
  · exact congrArg Except.ok (optAttr_mk ha (.head _))
  · refine Turns.then (writeOpt_wf fun _ _ => writeSimple_wf) (Turns.optS (fun o s => { s with name := o }) (.head _) hn (fun _ => rfl) rfl (fun _ _ => tells_simple.part)) ?_
    rintro _ ⟨o1, rfl, h1⟩
    refine Turns.then (writeOpt_wf fun _ _ => flatMap_wf fun _ _ => writeSimple_wf) (Turns.inlineS (fun o s => { s with url := o }) (.tail _ (.head _)) hn (fun _ => rfl) (fun _ _ => rfl) rfl (fun _ _ _ _ => tells_simple.part) (fun _ _ => writeSimple_wf)) ?_
    rintro _ ⟨o2, rfl, h2⟩
    refine Turns.imp (Turns.inlineS (fun o s => { s with contact := o }) (.tail _ (.tail _ (.head _))) hn (fun _ => rfl) (fun _ _ => rfl) rfl (fun _ _ _ _ => part_if OrganizationalContact.xml_only) (fun _ _ => (if_wf OrganizationalContact.xml_wf))) ?_
    rintro _ ⟨o3, rfl, h3⟩
    intro e
    have e := Except.ok.inj e
    exact {
      name := h1 (congrArg OrganizationalEntity.name e)
      url := (h2 (congrArg OrganizationalEntity.url e)).2
      url_ne := (h2 (congrArg OrganizationalEntity.url e)).1
      contact := (h3 (congrArg OrganizationalEntity.contact e)).2
      contact_ne := (h3 (congrArg OrganizationalEntity.contact e)).1 }

theorem ExternalReference.xml_only {ns : Option String} {x : ExternalReference} :
    Tells ns (ExternalReference.writeXml x) "reference" ExternalReference.readXml (fun y => y = x → ExternalReference.XmlOk x) := by
  have hn : ["url", "comment", "hashes"].Nodup := by decide
  have ha : ["type"].Nodup := by decide
  refine tells_struct (p := (ExternalReferenceType.display x.externalReferenceType)) (ExternalReference.xml_body_wf) ?_ ?_
  · refine bindOk (reqAttr_mk ha (.head _)) ?_
    exact congrArg Except.ok rfl
  · refine Turns.then writeSimple_wf (Turns.one (tells_enum (stable_of RefUri.display_ofUrl)) (.head _) hn) ?_
    rintro _ ⟨o1, rfl, h1⟩
    refine Turns.then (writeOpt_wf fun _ _ => writeSimple_wf) (Turns.optS (fun o s => { s with comment := o }) (.tail _ (.head _)) hn (fun _ => rfl) rfl (fun _ _ => tells_simple.part)) ?_
    rintro _ ⟨o2, rfl, h2⟩
    refine Turns.imp (Turns.optS (fun o s => { s with hashes := o }) (.tail _ (.tail _ (.head _))) hn (fun _ => rfl) rfl (fun _ _ => (tells_list (fun _ _ => Hash.xml_only.part) (fun _ _ => Hash.xml_wf)).part)) ?_
    rintro _ ⟨o3, rfl, h3⟩
    intro e
    have e := Except.ok.inj e
    exact {
      externalReferenceType := congrArg ExternalReference.externalReferenceType e
      url := h1 (congrArg ExternalReference.url e)
      comment := h2 (congrArg ExternalReference.comment e)
      hashes := h3 (congrArg ExternalReference.hashes e) }

theorem VulnerabilitySource.xml_only {ns : Option String} {x : VulnerabilitySource} :
    Tells ns (VulnerabilitySource.writeXml x) "source" VulnerabilitySource.readXml (fun y => y = x → VulnerabilitySource.XmlOk x) := by
  have hn : ["name", "url"].Nodup := by decide
  refine tells_struct (VulnerabilitySource.xml_body_wf) rfl ?_
  refine Turns.then (writeOpt_wf fun _ _ => writeSimple_wf) (Turns.optS (fun o s => { s with name := o }) (.head _) hn (fun _ => rfl) rfl (fun _ _ => tells_simple.part)) ?_
  rintro _ ⟨o1, rfl, h1⟩
  refine Turns.imp (Turns.optS (fun o s => { s with url := o }) (.tail _ (.head _)) hn (fun _ => rfl) rfl (fun _ _ => tells_simple.part)) ?_
  rintro _ ⟨o2, rfl, h2⟩
  intro e
  have e := Except.ok.inj e
  exact {
    name := h1 (congrArg VulnerabilitySource.name e)
    url := h2 (congrArg VulnerabilitySource.url e) }

theorem VulnerabilityReference.xml_only {ns : Option String} {x : VulnerabilityReference} :
    Tells ns (VulnerabilityReference.writeXml x) "reference" VulnerabilityReference.readXml (fun y => y = x → VulnerabilityReference.XmlOk x) := by
  have hn : ["id", "source"].Nodup := by decide
  refine tells_struct (VulnerabilityReference.xml_body_wf) rfl ?_
  refine Turns.then writeSimple_wf (Turns.one tells_simple (.head _) hn) ?_
  rintro _ ⟨o1, rfl, h1⟩
  refine Turns.imp (Turns.one VulnerabilitySource.xml_only (.tail _ (.head _)) hn) ?_
  rintro _ ⟨o2, rfl, h2⟩
  intro e
  have e := Except.ok.inj e
  exact {
    id := h1 (congrArg VulnerabilityReference.id e)
    vulnerabilitySource := h2 (congrArg VulnerabilityReference.vulnerabilitySource e) }

theorem Advisory.xml_only {ns : Option String} {x : Advisory} :
    Tells ns (Advisory.writeXml x) "advisory" Advisory.readXml (fun y => y = x → Advisory.XmlOk x) := by
  have hn : ["title", "url"].Nodup := by decide
  refine tells_struct (Advisory.xml_body_wf) rfl ?_
  refine Turns.then (writeOpt_wf fun _ _ => writeSimple_wf) (Turns.optS (fun o s => { s with title := o }) (.head _) hn (fun _ => rfl) rfl (fun _ _ => tells_simple.part)) ?_
  rintro _ ⟨o1, rfl, h1⟩
  refine Turns.imp (Turns.one tells_simple (.tail _ (.head _)) hn) ?_
  rintro _ ⟨o2, rfl, h2⟩
  intro e
  have e := Except.ok.inj e
  exact {
    title := h1 (congrArg Advisory.title e)
    url := h2 (congrArg Advisory.url e) }

theorem VulnerabilityCredits.xml_only {ns : Option String} {x : VulnerabilityCredits} :
    Tells ns (VulnerabilityCredits.writeXml x) "credits" VulnerabilityCredits.readXml (fun y => y = x → VulnerabilityCredits.XmlOk x) := by
  have hn : ["organizations", "individuals"].Nodup := by decide
  refine tells_struct (VulnerabilityCredits.xml_body_wf) rfl ?_
  refine Turns.then (writeOpt_wf fun _ _ => (writeList_wf fun _ _ => (if_wf OrganizationalEntity.xml_wf))) (Turns.optS (fun o s => { s with organizations := o }) (.head _) hn (fun _ => rfl) rfl (fun _ _ => (tells_list (fun _ _ => part_if OrganizationalEntity.xml_only) (fun _ _ => (if_wf OrganizationalEntity.xml_wf))).part)) ?_
  rintro _ ⟨o1, rfl, h1⟩
  refine Turns.imp (Turns.optS (fun o s => { s with individuals := o }) (.tail _ (.head _)) hn (fun _ => rfl) rfl (fun _ _ => (tells_list (fun _ _ => part_if OrganizationalContact.xml_only) (fun _ _ => (if_wf OrganizationalContact.xml_wf))).part)) ?_
  rintro _ ⟨o2, rfl, h2⟩
  intro e
  have e := Except.ok.inj e
  exact {
    organizations := h1 (congrArg VulnerabilityCredits.organizations e)
    individuals := h2 (congrArg VulnerabilityCredits.individuals e) }

end Cdx
