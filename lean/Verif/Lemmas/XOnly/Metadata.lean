import Verif.Lemmas.XOnly.Component
import Verif.Lemmas.Format.Metadata

set_option linter.unusedSectionVars false
set_option linter.unusedSimpArgs false
set_option linter.unusedVariables false

/-!
# What has to hold for a value to come back from XML (Metadata)

The converse of `Verif.Lemmas.Format.Metadata`: a value that is read back from the element that was written
for it meets the conditions under which it was shown to be read back.
-/

namespace Cdx

variable [F32Format]

variable [ReadLimit]

theorem Tool.xml_only (v : SpecVersion) {ns : Option String} {x : Tool} :
    Tells ns (Tool.writeXml v x) "tool" (Tool.readXml v) (fun y => y = x.at v → Tool.XmlOk v x) := by
  cases v with
  | v1_3 =>
    have hn : ["vendor", "name", "version", "hashes"].Nodup := by decide
    refine tells_struct (Tool.xml_body_wf) rfl ?_
    refine Turns.then (writeOpt_wf fun _ _ => writeSimple_wf) (Turns.optS (fun o s => { s with vendor := o }) (.head _) hn (fun _ => rfl) rfl (fun _ _ => tells_simple.part)) ?_
    rintro _ ⟨o1, rfl, h1⟩
    refine Turns.then (writeOpt_wf fun _ _ => writeSimple_wf) (Turns.optS (fun o s => { s with name := o }) (.tail _ (.head _)) hn (fun _ => rfl) rfl (fun _ _ => tells_simple.part)) ?_
    rintro _ ⟨o2, rfl, h2⟩
    refine Turns.then (writeOpt_wf fun _ _ => writeSimple_wf) (Turns.optS (fun o s => { s with version := o }) (.tail _ (.tail _ (.head _))) hn (fun _ => rfl) rfl (fun _ _ => tells_simple.part)) ?_
    rintro _ ⟨o3, rfl, h3⟩
    refine Turns.then (writeOpt_wf fun _ _ => (writeList_wf fun _ _ => Hash.xml_wf)) (Turns.optS (fun o s => { s with hashes := o }) (.tail _ (.tail _ (.tail _ (.head _)))) hn (fun _ => rfl) rfl (fun _ _ => (tells_list (fun _ _ => Hash.xml_only.part) (fun _ _ => Hash.xml_wf)).part)) ?_
    rintro _ ⟨o4, rfl, h4⟩
    refine Turns.nil ?_
    intro e
    have e := Except.ok.inj e
    exact {
      vendor := h1 (congrArg Tool.vendor e)
      name := h2 (congrArg Tool.name e)
      version := h3 (congrArg Tool.version e)
      hashes := h4 (congrArg Tool.hashes e)
      externalReferences := fun hv => absurd rfl hv }
  | v1_4 =>
    have hn : ["vendor", "name", "version", "hashes", "externalReferences"].Nodup := by decide
    refine tells_struct (Tool.xml_body_wf) rfl ?_
    refine Turns.then (writeOpt_wf fun _ _ => writeSimple_wf) (Turns.optS (fun o s => { s with vendor := o }) (.head _) hn (fun _ => rfl) rfl (fun _ _ => tells_simple.part)) ?_
    rintro _ ⟨o1, rfl, h1⟩
    refine Turns.then (writeOpt_wf fun _ _ => writeSimple_wf) (Turns.optS (fun o s => { s with name := o }) (.tail _ (.head _)) hn (fun _ => rfl) rfl (fun _ _ => tells_simple.part)) ?_
    rintro _ ⟨o2, rfl, h2⟩
    refine Turns.then (writeOpt_wf fun _ _ => writeSimple_wf) (Turns.optS (fun o s => { s with version := o }) (.tail _ (.tail _ (.head _))) hn (fun _ => rfl) rfl (fun _ _ => tells_simple.part)) ?_
    rintro _ ⟨o3, rfl, h3⟩
    refine Turns.then (writeOpt_wf fun _ _ => (writeList_wf fun _ _ => Hash.xml_wf)) (Turns.optS (fun o s => { s with hashes := o }) (.tail _ (.tail _ (.tail _ (.head _)))) hn (fun _ => rfl) rfl (fun _ _ => (tells_list (fun _ _ => Hash.xml_only.part) (fun _ _ => Hash.xml_wf)).part)) ?_
    rintro _ ⟨o4, rfl, h4⟩
    refine Turns.imp (Turns.optS (fun o s => { s with externalReferences := o }) (.tail _ (.tail _ (.tail _ (.tail _ (.head _))))) hn (fun _ => rfl) rfl (fun _ _ => (tells_list (fun _ _ => ExternalReference.xml_only.part) (fun _ _ => ExternalReference.xml_wf)).part)) ?_
    rintro _ ⟨o5, rfl, h5⟩
    intro e
    have e := Except.ok.inj e
    exact {
      vendor := h1 (congrArg Tool.vendor e)
      name := h2 (congrArg Tool.name e)
      version := h3 (congrArg Tool.version e)
      hashes := h4 (congrArg Tool.hashes e)
      externalReferences := fun _ => h5 (congrArg Tool.externalReferences e) }
  | v1_5 =>
    have hn : ["vendor", "name", "version", "hashes", "externalReferences"].Nodup := by decide
    refine tells_struct (Tool.xml_body_wf) rfl ?_
    refine Turns.then (writeOpt_wf fun _ _ => writeSimple_wf) (Turns.optS (fun o s => { s with vendor := o }) (.head _) hn (fun _ => rfl) rfl (fun _ _ => tells_simple.part)) ?_
    rintro _ ⟨o1, rfl, h1⟩
    refine Turns.then (writeOpt_wf fun _ _ => writeSimple_wf) (Turns.optS (fun o s => { s with name := o }) (.tail _ (.head _)) hn (fun _ => rfl) rfl (fun _ _ => tells_simple.part)) ?_
    rintro _ ⟨o2, rfl, h2⟩
    refine Turns.then (writeOpt_wf fun _ _ => writeSimple_wf) (Turns.optS (fun o s => { s with version := o }) (.tail _ (.tail _ (.head _))) hn (fun _ => rfl) rfl (fun _ _ => tells_simple.part)) ?_
    rintro _ ⟨o3, rfl, h3⟩
    refine Turns.then (writeOpt_wf fun _ _ => (writeList_wf fun _ _ => Hash.xml_wf)) (Turns.optS (fun o s => { s with hashes := o }) (.tail _ (.tail _ (.tail _ (.head _)))) hn (fun _ => rfl) rfl (fun _ _ => (tells_list (fun _ _ => Hash.xml_only.part) (fun _ _ => Hash.xml_wf)).part)) ?_
    rintro _ ⟨o4, rfl, h4⟩
    refine Turns.imp (Turns.optS (fun o s => { s with externalReferences := o }) (.tail _ (.tail _ (.tail _ (.tail _ (.head _))))) hn (fun _ => rfl) rfl (fun _ _ => (tells_list (fun _ _ => ExternalReference.xml_only.part) (fun _ _ => ExternalReference.xml_wf)).part)) ?_
    rintro _ ⟨o5, rfl, h5⟩
    intro e
    have e := Except.ok.inj e
    exact {
      vendor := h1 (congrArg Tool.vendor e)
      name := h2 (congrArg Tool.name e)
      version := h3 (congrArg Tool.version e)
      hashes := h4 (congrArg Tool.hashes e)
      externalReferences := fun _ => h5 (congrArg Tool.externalReferences e) }

theorem Tools.xml_only (v : SpecVersion) {ns : Option String} {x : Tools} :
    Tells ns (Tools.writeXml v x) "tools" (Tools.readXml v)
      (fun y => y = x.at v → Tools.XmlOk v x) := by
  cases x with
  | list l =>
    have hn : ((Tools.arms v).map (·.1)).Nodup := by
      cases v with
      | v1_3 => exact (by decide : ["tool"].Nodup)
      | v1_4 => exact (by decide : ["tool"].Nodup)
      | v1_5 => exact (by decide : ["tool", "components", "services"].Nodup)
    refine tells_struct (flatMap_wf fun _ _ => Tool.xml_wf) rfl ?_
    refine Turns.imp (Turns.flatMap (.head _) hn (fun y hy => (Tool.xml_only v).part)
      (fun _ _ => Tool.xml_wf)) ?_
    rintro _ ⟨zs, rfl, hlen, h⟩ e
    rw [Tools.foldl_tools_nil] at e
    cases zs with
    | nil =>
      cases v with
      | v1_3 => exact ⟨fun hv => (nomatch hv), h (Tools.list.inj (Except.ok.inj e))⟩
      | v1_4 => exact ⟨fun hv => (nomatch hv), h (Tools.list.inj (Except.ok.inj e))⟩
      | v1_5 => exact nomatch e
    | cons z zs =>
      have e : z :: zs = l.map (Tool.at v) := Tools.list.inj (Except.ok.inj e)
      refine ⟨fun _ hl => ?_, h e⟩
      rw [hl] at e
      exact nomatch e
  | object s c =>
    cases v with
    | v1_3 => exact tells_struct .nil rfl (Turns.nil fun _ => fun hv => nomatch hv)
    | v1_4 => exact tells_struct .nil rfl (Turns.nil fun _ => fun hv => nomatch hv)
    | v1_5 =>
      have hn : ["tool", "components", "services"].Nodup := by decide
      refine tells_struct
        (.append (writeOpt_wf fun _ _ => writeList_wf fun _ _ => Service.xml_wf fun _ => rfl)
          (writeOpt_wf fun _ _ => writeList_wf fun _ _ => Component.xml_wf fun _ => rfl)) rfl ?_
      refine Turns.then (writeOpt_wf fun _ _ => writeList_wf fun _ _ => Service.xml_wf fun _ => rfl)
        (Turns.optS_at (fun o s => { s with services := o }) (.tail _ (.tail _ (.head _))) hn (fun _ => rfl) rfl
          (fun _ _ => (tells_listLax_at (fun _ _ => (Service.xml_only .v1_5).part)
            (fun _ _ => Service.xml_wf fun _ => rfl)).part)) ?_
      rintro _ ⟨o1, rfl, h1⟩
      refine Turns.imp
        (Turns.optS_at (fun o s => { s with components := o }) (.tail _ (.head _)) hn (fun _ => rfl) rfl
          (fun _ _ => (tells_listLax_at (fun _ _ => (Component.xml_only .v1_5).part)
            (fun _ _ => Component.xml_wf fun _ => rfl)).part)) ?_
      rintro _ ⟨o2, rfl, h2⟩ e
      have e := Tools.object.inj (Except.ok.inj e)
      exact fun _ => ⟨h1 e.1, h2 e.2⟩

theorem Metadata.xml_only (v : SpecVersion) {ns : Option String} {x : Metadata} :
    Tells ns (Metadata.writeXml v x) "metadata" (Metadata.readXml v) (fun y => y = x.at v → Metadata.XmlOk v x) := by
  cases v with
  | v1_3 =>
    have hn : ["timestamp", "tools", "authors", "component", "manufacture", "supplier", "licenses", "properties"].Nodup := by decide
    refine tells_struct (Metadata.xml_body_wf (fun _ => rfl)) rfl ?_
    refine Turns.then (writeOpt_wf fun _ _ => writeSimple_wf) (Turns.optS (fun o s => { s with timestamp := o }) (.head _) hn (fun _ => rfl) rfl (fun _ _ => tells_simple.part)) ?_
    rintro _ ⟨o1, rfl, h1⟩
    refine Turns.then (writeOpt_wf fun _ _ => (Tools.xml_wf fun _ => rfl)) (Turns.optS_at (fun o s => { s with tools := o }) (.tail _ (.head _)) hn (fun _ => rfl) rfl (fun _ _ => (Tools.xml_only .v1_3).part)) ?_
    rintro _ ⟨o2, rfl, h2⟩
    refine Turns.then (writeOpt_wf fun _ _ => (writeList_wf fun _ _ => (if_wf OrganizationalContact.xml_wf))) (Turns.optS (fun o s => { s with authors := o }) (.tail _ (.tail _ (.head _))) hn (fun _ => rfl) rfl (fun _ _ => (tells_list (fun _ _ => part_if OrganizationalContact.xml_only) (fun _ _ => (if_wf OrganizationalContact.xml_wf))).part)) ?_
    rintro _ ⟨o3, rfl, h3⟩
    refine Turns.then (writeOpt_wf fun _ _ => (Component.xml_wf fun _ => rfl)) (Turns.optS_at (fun o s => { s with component := o }) (.tail _ (.tail _ (.tail _ (.head _)))) hn (fun _ => rfl) rfl (fun _ _ => (Component.xml_only .v1_3).part)) ?_
    rintro _ ⟨o4, rfl, h4⟩
    refine Turns.then (writeOpt_wf fun _ _ => OrganizationalEntity.xml_wf) (Turns.optS (fun o s => { s with manufacture := o }) (.tail _ (.tail _ (.tail _ (.tail _ (.head _))))) hn (fun _ => rfl) rfl (fun _ _ => OrganizationalEntity.xml_only.part)) ?_
    rintro _ ⟨o5, rfl, h5⟩
    refine Turns.then (writeOpt_wf fun _ _ => OrganizationalEntity.xml_wf) (Turns.optS (fun o s => { s with supplier := o }) (.tail _ (.tail _ (.tail _ (.tail _ (.tail _ (.head _)))))) hn (fun _ => rfl) rfl (fun _ _ => OrganizationalEntity.xml_only.part)) ?_
    rintro _ ⟨o6, rfl, h6⟩
    refine Turns.then (writeOpt_wf fun _ _ => Licenses.xml_wf) (Turns.optS_at (fun o s => { s with licenses := o }) (.tail _ (.tail _ (.tail _ (.tail _ (.tail _ (.tail _ (.head _))))))) hn (fun _ => rfl) rfl (fun _ _ => (Licenses.xml_only .v1_3).part)) ?_
    rintro _ ⟨o7, rfl, h7⟩
    refine Turns.then (writeOpt_wf fun _ _ => (writeList_wf fun _ _ => Property.xml_wf)) (Turns.optS (fun o s => { s with properties := o }) (.tail _ (.tail _ (.tail _ (.tail _ (.tail _ (.tail _ (.tail _ (.head _)))))))) hn (fun _ => rfl) rfl (fun _ _ => (tells_listLax (fun _ _ => Property.xml_only.part) (fun _ _ => Property.xml_wf)).part)) ?_
    rintro _ ⟨o8, rfl, h8⟩
    refine Turns.nil ?_
    intro e
    have e := Except.ok.inj e
    exact {
      timestamp := h1 (congrArg Metadata.timestamp e)
      tools := h2 (congrArg Metadata.tools e)
      authors := h3 (congrArg Metadata.authors e)
      component := h4 (congrArg Metadata.component e)
      manufacture := h5 (congrArg Metadata.manufacture e)
      supplier := h6 (congrArg Metadata.supplier e)
      licenses := h7 (congrArg Metadata.licenses e)
      properties := h8 (congrArg Metadata.properties e)
      lifecycles := nofun }
  | v1_4 =>
    have hn : ["timestamp", "tools", "authors", "component", "manufacture", "supplier", "licenses", "properties"].Nodup := by decide
    refine tells_struct (Metadata.xml_body_wf (fun _ => rfl)) rfl ?_
    refine Turns.then (writeOpt_wf fun _ _ => writeSimple_wf) (Turns.optS (fun o s => { s with timestamp := o }) (.head _) hn (fun _ => rfl) rfl (fun _ _ => tells_simple.part)) ?_
    rintro _ ⟨o1, rfl, h1⟩
    refine Turns.then (writeOpt_wf fun _ _ => (Tools.xml_wf fun _ => rfl)) (Turns.optS_at (fun o s => { s with tools := o }) (.tail _ (.head _)) hn (fun _ => rfl) rfl (fun _ _ => (Tools.xml_only .v1_4).part)) ?_
    rintro _ ⟨o2, rfl, h2⟩
    refine Turns.then (writeOpt_wf fun _ _ => (writeList_wf fun _ _ => (if_wf OrganizationalContact.xml_wf))) (Turns.optS (fun o s => { s with authors := o }) (.tail _ (.tail _ (.head _))) hn (fun _ => rfl) rfl (fun _ _ => (tells_list (fun _ _ => part_if OrganizationalContact.xml_only) (fun _ _ => (if_wf OrganizationalContact.xml_wf))).part)) ?_
    rintro _ ⟨o3, rfl, h3⟩
    refine Turns.then (writeOpt_wf fun _ _ => (Component.xml_wf fun _ => rfl)) (Turns.optS_at (fun o s => { s with component := o }) (.tail _ (.tail _ (.tail _ (.head _)))) hn (fun _ => rfl) rfl (fun _ _ => (Component.xml_only .v1_4).part)) ?_
    rintro _ ⟨o4, rfl, h4⟩
    refine Turns.then (writeOpt_wf fun _ _ => OrganizationalEntity.xml_wf) (Turns.optS (fun o s => { s with manufacture := o }) (.tail _ (.tail _ (.tail _ (.tail _ (.head _))))) hn (fun _ => rfl) rfl (fun _ _ => OrganizationalEntity.xml_only.part)) ?_
    rintro _ ⟨o5, rfl, h5⟩
    refine Turns.then (writeOpt_wf fun _ _ => OrganizationalEntity.xml_wf) (Turns.optS (fun o s => { s with supplier := o }) (.tail _ (.tail _ (.tail _ (.tail _ (.tail _ (.head _)))))) hn (fun _ => rfl) rfl (fun _ _ => OrganizationalEntity.xml_only.part)) ?_
    rintro _ ⟨o6, rfl, h6⟩
    refine Turns.then (writeOpt_wf fun _ _ => Licenses.xml_wf) (Turns.optS_at (fun o s => { s with licenses := o }) (.tail _ (.tail _ (.tail _ (.tail _ (.tail _ (.tail _ (.head _))))))) hn (fun _ => rfl) rfl (fun _ _ => (Licenses.xml_only .v1_4).part)) ?_
    rintro _ ⟨o7, rfl, h7⟩
    refine Turns.then (writeOpt_wf fun _ _ => (writeList_wf fun _ _ => Property.xml_wf)) (Turns.optS (fun o s => { s with properties := o }) (.tail _ (.tail _ (.tail _ (.tail _ (.tail _ (.tail _ (.tail _ (.head _)))))))) hn (fun _ => rfl) rfl (fun _ _ => (tells_listLax (fun _ _ => Property.xml_only.part) (fun _ _ => Property.xml_wf)).part)) ?_
    rintro _ ⟨o8, rfl, h8⟩
    refine Turns.nil ?_
    intro e
    have e := Except.ok.inj e
    exact {
      timestamp := h1 (congrArg Metadata.timestamp e)
      tools := h2 (congrArg Metadata.tools e)
      authors := h3 (congrArg Metadata.authors e)
      component := h4 (congrArg Metadata.component e)
      manufacture := h5 (congrArg Metadata.manufacture e)
      supplier := h6 (congrArg Metadata.supplier e)
      licenses := h7 (congrArg Metadata.licenses e)
      properties := h8 (congrArg Metadata.properties e)
      lifecycles := nofun }
  | v1_5 =>
    have hn : ["timestamp", "tools", "authors", "component", "manufacture", "supplier", "licenses", "properties", "lifecycles"].Nodup := by decide
    refine tells_struct (Metadata.xml_body_wf (fun _ => rfl)) rfl ?_
    refine Turns.then (writeOpt_wf fun _ _ => writeSimple_wf) (Turns.optS (fun o s => { s with timestamp := o }) (.head _) hn (fun _ => rfl) rfl (fun _ _ => tells_simple.part)) ?_
    rintro _ ⟨o1, rfl, h1⟩
    refine Turns.then (writeOpt_wf fun _ _ => (Tools.xml_wf fun _ => rfl)) (Turns.optS_at (fun o s => { s with tools := o }) (.tail _ (.head _)) hn (fun _ => rfl) rfl (fun _ _ => (Tools.xml_only .v1_5).part)) ?_
    rintro _ ⟨o2, rfl, h2⟩
    refine Turns.then (writeOpt_wf fun _ _ => (writeList_wf fun _ _ => (if_wf OrganizationalContact.xml_wf))) (Turns.optS (fun o s => { s with authors := o }) (.tail _ (.tail _ (.head _))) hn (fun _ => rfl) rfl (fun _ _ => (tells_list (fun _ _ => part_if OrganizationalContact.xml_only) (fun _ _ => (if_wf OrganizationalContact.xml_wf))).part)) ?_
    rintro _ ⟨o3, rfl, h3⟩
    refine Turns.then (writeOpt_wf fun _ _ => (Component.xml_wf fun _ => rfl)) (Turns.optS_at (fun o s => { s with component := o }) (.tail _ (.tail _ (.tail _ (.head _)))) hn (fun _ => rfl) rfl (fun _ _ => (Component.xml_only .v1_5).part)) ?_
    rintro _ ⟨o4, rfl, h4⟩
    refine Turns.then (writeOpt_wf fun _ _ => OrganizationalEntity.xml_wf) (Turns.optS (fun o s => { s with manufacture := o }) (.tail _ (.tail _ (.tail _ (.tail _ (.head _))))) hn (fun _ => rfl) rfl (fun _ _ => OrganizationalEntity.xml_only.part)) ?_
    rintro _ ⟨o5, rfl, h5⟩
    refine Turns.then (writeOpt_wf fun _ _ => OrganizationalEntity.xml_wf) (Turns.optS (fun o s => { s with supplier := o }) (.tail _ (.tail _ (.tail _ (.tail _ (.tail _ (.head _)))))) hn (fun _ => rfl) rfl (fun _ _ => OrganizationalEntity.xml_only.part)) ?_
    rintro _ ⟨o6, rfl, h6⟩
    refine Turns.then (writeOpt_wf fun _ _ => Licenses.xml_wf) (Turns.optS_at (fun o s => { s with licenses := o }) (.tail _ (.tail _ (.tail _ (.tail _ (.tail _ (.tail _ (.head _))))))) hn (fun _ => rfl) rfl (fun _ _ => (Licenses.xml_only .v1_5).part)) ?_
    rintro _ ⟨o7, rfl, h7⟩
    refine Turns.then (writeOpt_wf fun _ _ => (writeList_wf fun _ _ => Property.xml_wf)) (Turns.optS (fun o s => { s with properties := o }) (.tail _ (.tail _ (.tail _ (.tail _ (.tail _ (.tail _ (.tail _ (.head _)))))))) hn (fun _ => rfl) rfl (fun _ _ => (tells_listLax (fun _ _ => Property.xml_only.part) (fun _ _ => Property.xml_wf)).part)) ?_
    rintro _ ⟨o8, rfl, h8⟩
    refine Turns.imp (Turns.optS (fun o s => { s with lifecycles := o }) (.tail _ (.tail _ (.tail _ (.tail _ (.tail _ (.tail _ (.tail _ (.tail _ (.head _))))))))) hn (fun _ => rfl) rfl (fun _ _ => (tells_list (fun _ _ => Lifecycle.xml_only.part) (fun _ _ => Lifecycle.xml_wf)).part)) ?_
    rintro _ ⟨o9, rfl, h9⟩
    intro e
    have e := Except.ok.inj e
    exact {
      timestamp := h1 (congrArg Metadata.timestamp e)
      tools := h2 (congrArg Metadata.tools e)
      authors := h3 (congrArg Metadata.authors e)
      component := h4 (congrArg Metadata.component e)
      manufacture := h5 (congrArg Metadata.manufacture e)
      supplier := h6 (congrArg Metadata.supplier e)
      licenses := h7 (congrArg Metadata.licenses e)
      properties := h8 (congrArg Metadata.properties e)
      lifecycles := fun _ => h9 (congrArg Metadata.lifecycles e) }

end Cdx
