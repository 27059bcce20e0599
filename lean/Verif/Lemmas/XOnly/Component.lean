import Verif.Lemmas.XOnly.Evidence
import Verif.Lemmas.Format.Component

set_option linter.unusedSectionVars false
set_option linter.unusedSimpArgs false
set_option linter.unusedVariables false

/-!
# What has to hold for a value to come back from XML (Component)

The converse of `Verif.Lemmas.Format.Component`: a value that is read back from the element that was written
for it meets the conditions under which it was shown to be read back.
-/

namespace Cdx

variable [F32Format]

theorem Pedigree.xml_onlyWith (v : SpecVersion) {ns : Option String} {x : Pedigree}
    {sub : XElem Component} {S : Component → Prop}
    (hsub : ∀ y, Tells ns (Component.writeXml v y) "component" sub (fun z => z = Component.at v y → S y)) :
    Tells ns (Pedigree.writeXml v x) "pedigree" (Pedigree.readXmlWith sub v) (fun y => y = x.at v → Pedigree.XmlOkWith S v x) := by
  rw [Pedigree.writeXml_eq, Pedigree.at_eq]
  have hn : ["ancestors", "descendants", "variants", "commits", "patches", "notes"].Nodup := by decide
  refine tells_struct (Pedigree.xml_body_wfWith (fun _ => rfl) (fun _ _ => Component.xml_wf fun _ => rfl)) rfl ?_
  refine Turns.then (writeOpt_wf fun _ _ => (writeList_wf fun _ _ => (Component.xml_wf fun _ => rfl))) (Turns.optS_at (fun o s => { s with ancestors := o }) (.head _) hn (fun _ => rfl) rfl (fun _ _ => (tells_listLax_at (fun _ _ => (hsub _).part) (fun _ _ => (Component.xml_wf fun _ => rfl))).part)) ?_
  rintro _ ⟨o1, rfl, h1⟩
  refine Turns.then (writeOpt_wf fun _ _ => (writeList_wf fun _ _ => (Component.xml_wf fun _ => rfl))) (Turns.optS_at (fun o s => { s with descendants := o }) (.tail _ (.head _)) hn (fun _ => rfl) rfl (fun _ _ => (tells_listLax_at (fun _ _ => (hsub _).part) (fun _ _ => (Component.xml_wf fun _ => rfl))).part)) ?_
  rintro _ ⟨o2, rfl, h2⟩
  refine Turns.then (writeOpt_wf fun _ _ => (writeList_wf fun _ _ => (Component.xml_wf fun _ => rfl))) (Turns.optS_at (fun o s => { s with variants := o }) (.tail _ (.tail _ (.head _))) hn (fun _ => rfl) rfl (fun _ _ => (tells_listLax_at (fun _ _ => (hsub _).part) (fun _ _ => (Component.xml_wf fun _ => rfl))).part)) ?_
  rintro _ ⟨o3, rfl, h3⟩
  refine Turns.then (writeOpt_wf fun _ _ => (writeList_wf fun _ _ => Commit.xml_wf)) (Turns.optS (fun o s => { s with commits := o }) (.tail _ (.tail _ (.tail _ (.head _)))) hn (fun _ => rfl) rfl (fun _ _ => (tells_listLax (fun _ _ => Commit.xml_only.part) (fun _ _ => Commit.xml_wf)).part)) ?_
  rintro _ ⟨o4, rfl, h4⟩
  refine Turns.then (writeOpt_wf fun _ _ => (writeList_wf fun _ _ => Patch.xml_wf)) (Turns.optS (fun o s => { s with patches := o }) (.tail _ (.tail _ (.tail _ (.tail _ (.head _))))) hn (fun _ => rfl) rfl (fun _ _ => (tells_listLax (fun _ _ => Patch.xml_only.part) (fun _ _ => Patch.xml_wf)).part)) ?_
  rintro _ ⟨o5, rfl, h5⟩
  refine Turns.imp (Turns.optS (fun o s => { s with notes := o }) (.tail _ (.tail _ (.tail _ (.tail _ (.tail _ (.head _)))))) hn (fun _ => rfl) rfl (fun _ _ => tells_simple.part)) ?_
  rintro _ ⟨o6, rfl, h6⟩
  intro e
  have e := Except.ok.inj e
  exact {
    ancestors := h1 (congrArg Pedigree.ancestors e)
    descendants := h2 (congrArg Pedigree.descendants e)
    variants := h3 (congrArg Pedigree.variants e)
    commits := h4 (congrArg Pedigree.commits e)
    patches := h5 (congrArg Pedigree.patches e)
    notes := h6 (congrArg Pedigree.notes e) }

theorem Component.xml_onlyWith (v : SpecVersion) {ns : Option String} {x : Component}
    {sub : XElem Component} {S : Component → Prop}
    (hsub : ∀ y, Tells ns (Component.writeXml v y) "component" sub (fun z => z = Component.at v y → S y)) :
    Tells ns (Component.writeXml v x) "component" (Component.readXmlWith sub v) (fun y => y = x.at v → Component.XmlOkWith S v x) := by
  rw [Component.writeXml_eq, Component.at_eq]
  cases v with
  | v1_3 =>
    have hn : ["supplier", "author", "publisher", "group", "name", "version", "description", "scope", "hashes", "licenses", "copyright", "cpe", "purl", "swid", "modified", "pedigree", "externalReferences", "properties", "components", "evidence"].Nodup := by decide
    have ha : ["type", "mime-type", "bom-ref"].Nodup := by decide
    refine tells_struct (p := (Classification.display x.componentType, x.mimeType, x.bomRef)) (Component.xml_body_wfWith (fun _ => rfl) (fun _ _ => Component.xml_wf fun _ => rfl)) ?_ ?_
    · refine bindOk (reqAttr_mk ha (.head _)) ?_
      exact congrArg Except.ok (congrPair rfl (congrPair (optAttr_mk ha (.tail _ (.head _))) (optAttr_mk ha (.tail _ (.tail _ (.head _))))))
    · refine Turns.then (writeOpt_wf fun _ _ => (if_wf OrganizationalEntity.xml_wf)) (Turns.opt (fun o => ({ supplier := o } : Component.Vars)) (.head _) hn (fun _ => rfl) rfl (fun _ _ => part_if OrganizationalEntity.xml_only)) ?_
      rintro _ ⟨o1, rfl, h1⟩
      refine Turns.then (writeOpt_wf fun _ _ => writeSimple_wf) (Turns.opt (fun o => ({ supplier := o1, author := o } : Component.Vars)) (.tail _ (.head _)) hn (fun _ => rfl) rfl (fun _ _ => tells_simple.part)) ?_
      rintro _ ⟨o2, rfl, h2⟩
      refine Turns.then (writeOpt_wf fun _ _ => writeSimple_wf) (Turns.opt (fun o => ({ supplier := o1, author := o2, publisher := o } : Component.Vars)) (.tail _ (.tail _ (.head _))) hn (fun _ => rfl) rfl (fun _ _ => tells_simple.part)) ?_
      rintro _ ⟨o3, rfl, h3⟩
      refine Turns.then (writeOpt_wf fun _ _ => writeSimple_wf) (Turns.opt (fun o => ({ supplier := o1, author := o2, publisher := o3, group := o } : Component.Vars)) (.tail _ (.tail _ (.tail _ (.head _)))) hn (fun _ => rfl) rfl (fun _ _ => tells_simple.part)) ?_
      rintro _ ⟨o4, rfl, h4⟩
      refine Turns.then writeSimple_wf (Turns.req (fun o => ({ supplier := o1, author := o2, publisher := o3, group := o4, name := some o } : Component.Vars)) (.tail _ (.tail _ (.tail _ (.tail _ (.head _))))) hn (fun _ => rfl) tells_simple) ?_
      rintro _ ⟨o5, rfl, h5⟩
      refine Turns.then (writeOpt_wf fun _ _ => writeSimple_wf) (Turns.opt (fun o => ({ supplier := o1, author := o2, publisher := o3, group := o4, name := some o5, version := o } : Component.Vars)) (.tail _ (.tail _ (.tail _ (.tail _ (.tail _ (.head _)))))) hn (fun _ => rfl) rfl (fun _ _ => tells_simple.part)) ?_
      rintro _ ⟨o6, rfl, h6⟩
      refine Turns.then (writeOpt_wf fun _ _ => writeSimple_wf) (Turns.opt (fun o => ({ supplier := o1, author := o2, publisher := o3, group := o4, name := some o5, version := o6, description := o } : Component.Vars)) (.tail _ (.tail _ (.tail _ (.tail _ (.tail _ (.tail _ (.head _))))))) hn (fun _ => rfl) rfl (fun _ _ => tells_simple.part)) ?_
      rintro _ ⟨o7, rfl, h7⟩
      refine Turns.then (writeOpt_wf fun _ _ => writeSimple_wf) (Turns.opt (fun o => ({ supplier := o1, author := o2, publisher := o3, group := o4, name := some o5, version := o6, description := o7, scope := o } : Component.Vars)) (.tail _ (.tail _ (.tail _ (.tail _ (.tail _ (.tail _ (.tail _ (.head _)))))))) hn (fun _ => rfl) rfl (fun _ _ => (tells_enum (stable_of Scope.display_new)).part)) ?_
      rintro _ ⟨o8, rfl, h8⟩
      refine Turns.then (writeOpt_wf fun _ _ => (writeList_wf fun _ _ => Hash.xml_wf)) (Turns.opt (fun o => ({ supplier := o1, author := o2, publisher := o3, group := o4, name := some o5, version := o6, description := o7, scope := o8, hashes := o } : Component.Vars)) (.tail _ (.tail _ (.tail _ (.tail _ (.tail _ (.tail _ (.tail _ (.tail _ (.head _))))))))) hn (fun _ => rfl) rfl (fun _ _ => (tells_list (fun _ _ => Hash.xml_only.part) (fun _ _ => Hash.xml_wf)).part)) ?_
      rintro _ ⟨o9, rfl, h9⟩
      refine Turns.then (writeOpt_wf fun _ _ => Licenses.xml_wf) (Turns.opt_at (fun o => ({ supplier := o1, author := o2, publisher := o3, group := o4, name := some o5, version := o6, description := o7, scope := o8, hashes := o9, licenses := o } : Component.Vars)) (.tail _ (.tail _ (.tail _ (.tail _ (.tail _ (.tail _ (.tail _ (.tail _ (.tail _ (.head _)))))))))) hn (fun _ => rfl) rfl (fun _ _ => (Licenses.xml_only .v1_3).part)) ?_
      rintro _ ⟨o10, rfl, h10⟩
      refine Turns.then (writeOpt_wf fun _ _ => writeSimple_wf) (Turns.opt (fun o => ({ supplier := o1, author := o2, publisher := o3, group := o4, name := some o5, version := o6, description := o7, scope := o8, hashes := o9, licenses := o10, copyright := o } : Component.Vars)) (.tail _ (.tail _ (.tail _ (.tail _ (.tail _ (.tail _ (.tail _ (.tail _ (.tail _ (.tail _ (.head _))))))))))) hn (fun _ => rfl) rfl (fun _ _ => tells_simple.part)) ?_
      rintro _ ⟨o11, rfl, h11⟩
      refine Turns.then (writeOpt_wf fun _ _ => writeSimple_wf) (Turns.opt (fun o => ({ supplier := o1, author := o2, publisher := o3, group := o4, name := some o5, version := o6, description := o7, scope := o8, hashes := o9, licenses := o10, copyright := o11, cpe := o } : Component.Vars)) (.tail _ (.tail _ (.tail _ (.tail _ (.tail _ (.tail _ (.tail _ (.tail _ (.tail _ (.tail _ (.tail _ (.head _)))))))))))) hn (fun _ => rfl) rfl (fun _ _ => tells_simple.part)) ?_
      rintro _ ⟨o12, rfl, h12⟩
      refine Turns.then (writeOpt_wf fun _ _ => writeSimple_wf) (Turns.opt (fun o => ({ supplier := o1, author := o2, publisher := o3, group := o4, name := some o5, version := o6, description := o7, scope := o8, hashes := o9, licenses := o10, copyright := o11, cpe := o12, purl := o } : Component.Vars)) (.tail _ (.tail _ (.tail _ (.tail _ (.tail _ (.tail _ (.tail _ (.tail _ (.tail _ (.tail _ (.tail _ (.tail _ (.head _))))))))))))) hn (fun _ => rfl) rfl (fun _ _ => tells_simple.part)) ?_
      rintro _ ⟨o13, rfl, h13⟩
      refine Turns.then (writeOpt_wf fun _ _ => Swid.xml_wf) (Turns.opt (fun o => ({ supplier := o1, author := o2, publisher := o3, group := o4, name := some o5, version := o6, description := o7, scope := o8, hashes := o9, licenses := o10, copyright := o11, cpe := o12, purl := o13, swid := o } : Component.Vars)) (.tail _ (.tail _ (.tail _ (.tail _ (.tail _ (.tail _ (.tail _ (.tail _ (.tail _ (.tail _ (.tail _ (.tail _ (.tail _ (.head _)))))))))))))) hn (fun _ => rfl) rfl (fun _ _ => Swid.xml_only.part)) ?_
      rintro _ ⟨o14, rfl, h14⟩
      refine Turns.then (writeOpt_wf fun _ _ => writeSimple_wf) (Turns.opt (fun o => ({ supplier := o1, author := o2, publisher := o3, group := o4, name := some o5, version := o6, description := o7, scope := o8, hashes := o9, licenses := o10, copyright := o11, cpe := o12, purl := o13, swid := o14, modified := o } : Component.Vars)) (.tail _ (.tail _ (.tail _ (.tail _ (.tail _ (.tail _ (.tail _ (.tail _ (.tail _ (.tail _ (.tail _ (.tail _ (.tail _ (.tail _ (.head _))))))))))))))) hn (fun _ => rfl) rfl (fun _ _ => tells_bool.part)) ?_
      rintro _ ⟨o15, rfl, h15⟩
      refine Turns.then (writeOpt_wf fun _ _ => (Pedigree.xml_wf fun _ => rfl)) (Turns.opt_at (fun o => ({ supplier := o1, author := o2, publisher := o3, group := o4, name := some o5, version := o6, description := o7, scope := o8, hashes := o9, licenses := o10, copyright := o11, cpe := o12, purl := o13, swid := o14, modified := o15, pedigree := o } : Component.Vars)) (.tail _ (.tail _ (.tail _ (.tail _ (.tail _ (.tail _ (.tail _ (.tail _ (.tail _ (.tail _ (.tail _ (.tail _ (.tail _ (.tail _ (.tail _ (.head _)))))))))))))))) hn (fun _ => rfl) rfl (fun _ _ => (Pedigree.xml_onlyWith .v1_3 hsub).part)) ?_
      rintro _ ⟨o16, rfl, h16⟩
      refine Turns.then (writeOpt_wf fun _ _ => (writeList_wf fun _ _ => ExternalReference.xml_wf)) (Turns.opt (fun o => ({ supplier := o1, author := o2, publisher := o3, group := o4, name := some o5, version := o6, description := o7, scope := o8, hashes := o9, licenses := o10, copyright := o11, cpe := o12, purl := o13, swid := o14, modified := o15, pedigree := o16, externalReferences := o } : Component.Vars)) (.tail _ (.tail _ (.tail _ (.tail _ (.tail _ (.tail _ (.tail _ (.tail _ (.tail _ (.tail _ (.tail _ (.tail _ (.tail _ (.tail _ (.tail _ (.tail _ (.head _))))))))))))))))) hn (fun _ => rfl) rfl (fun _ _ => (tells_list (fun _ _ => ExternalReference.xml_only.part) (fun _ _ => ExternalReference.xml_wf)).part)) ?_
      rintro _ ⟨o17, rfl, h17⟩
      refine Turns.then (writeOpt_wf fun _ _ => (writeList_wf fun _ _ => Property.xml_wf)) (Turns.opt (fun o => ({ supplier := o1, author := o2, publisher := o3, group := o4, name := some o5, version := o6, description := o7, scope := o8, hashes := o9, licenses := o10, copyright := o11, cpe := o12, purl := o13, swid := o14, modified := o15, pedigree := o16, externalReferences := o17, properties := o } : Component.Vars)) (.tail _ (.tail _ (.tail _ (.tail _ (.tail _ (.tail _ (.tail _ (.tail _ (.tail _ (.tail _ (.tail _ (.tail _ (.tail _ (.tail _ (.tail _ (.tail _ (.tail _ (.head _)))))))))))))))))) hn (fun _ => rfl) rfl (fun _ _ => (tells_listLax (fun _ _ => Property.xml_only.part) (fun _ _ => Property.xml_wf)).part)) ?_
      rintro _ ⟨o18, rfl, h18⟩
      refine Turns.then (writeOpt_wf fun _ _ => (writeList_wf fun _ _ => (Component.xml_wf fun _ => rfl))) (Turns.opt_at (fun o => ({ supplier := o1, author := o2, publisher := o3, group := o4, name := some o5, version := o6, description := o7, scope := o8, hashes := o9, licenses := o10, copyright := o11, cpe := o12, purl := o13, swid := o14, modified := o15, pedigree := o16, externalReferences := o17, properties := o18, components := o } : Component.Vars)) (.tail _ (.tail _ (.tail _ (.tail _ (.tail _ (.tail _ (.tail _ (.tail _ (.tail _ (.tail _ (.tail _ (.tail _ (.tail _ (.tail _ (.tail _ (.tail _ (.tail _ (.tail _ (.head _))))))))))))))))))) hn (fun _ => rfl) rfl (fun _ _ => (tells_listLax_at (fun _ _ => (hsub _).part) (fun _ _ => (Component.xml_wf fun _ => rfl))).part)) ?_
      rintro _ ⟨o19, rfl, h19⟩
      refine Turns.then (writeOpt_wf fun _ _ => (if_wf ComponentEvidence.xml_wf)) (Turns.opt_at (fun o => ({ supplier := o1, author := o2, publisher := o3, group := o4, name := some o5, version := o6, description := o7, scope := o8, hashes := o9, licenses := o10, copyright := o11, cpe := o12, purl := o13, swid := o14, modified := o15, pedigree := o16, externalReferences := o17, properties := o18, components := o19, evidence := o } : Component.Vars)) (.tail _ (.tail _ (.tail _ (.tail _ (.tail _ (.tail _ (.tail _ (.tail _ (.tail _ (.tail _ (.tail _ (.tail _ (.tail _ (.tail _ (.tail _ (.tail _ (.tail _ (.tail _ (.tail _ (.head _)))))))))))))))))))) hn (fun _ => rfl) rfl (fun _ _ => part_if (ComponentEvidence.xml_only .v1_3))) ?_
      rintro _ ⟨o20, rfl, h20⟩
      refine Turns.then .nil (Turns.nil (Q := fun s => s = _) rfl) ?_
      rintro _ rfl
      refine Turns.then .nil (Turns.nil (Q := fun s => s = _) rfl) ?_
      rintro _ rfl
      refine Turns.nil ?_
      intro e
      obtain _ | o6 := o6
      · exact nomatch e
      have e := Except.ok.inj e
      exact {
        componentType := congrArg Component.componentType e
        supplier := h1 (congrArg Component.supplier e)
        author := h2 (congrArg Component.author e)
        publisher := h3 (congrArg Component.publisher e)
        group := h4 (congrArg Component.group e)
        name := h5 (congrArg Component.name e)
        version_some := fun _ hx => nomatch (congrArg Component.version e).trans hx
        version := h6 (congrArg Component.version e)
        description := h7 (congrArg Component.description e)
        scope := h8 (congrArg Component.scope e)
        hashes := h9 (congrArg Component.hashes e)
        licenses := h10 (congrArg Component.licenses e)
        copyright := h11 (congrArg Component.copyright e)
        cpe := h12 (congrArg Component.cpe e)
        purl := h13 (congrArg Component.purl e)
        swid := h14 (congrArg Component.swid e)
        pedigree := h16 (congrArg Component.pedigree e)
        externalReferences := h17 (congrArg Component.externalReferences e)
        properties := h18 (congrArg Component.properties e)
        components := h19 (congrArg Component.components e)
        evidence := h20 (congrArg Component.evidence e)
        signature := fun hv => absurd rfl hv
        modelCard := nofun
        data := nofun }
  | v1_4 =>
    have hn : ["supplier", "author", "publisher", "group", "name", "version", "description", "scope", "hashes", "licenses", "copyright", "cpe", "purl", "swid", "modified", "pedigree", "externalReferences", "properties", "components", "evidence", "signature"].Nodup := by decide
    have ha : ["type", "mime-type", "bom-ref"].Nodup := by decide
    refine tells_struct (p := (Classification.display x.componentType, x.mimeType, x.bomRef)) (Component.xml_body_wfWith (fun _ => rfl) (fun _ _ => Component.xml_wf fun _ => rfl)) ?_ ?_
    · refine bindOk (reqAttr_mk ha (.head _)) ?_
      exact congrArg Except.ok (congrPair rfl (congrPair (optAttr_mk ha (.tail _ (.head _))) (optAttr_mk ha (.tail _ (.tail _ (.head _))))))
    · refine Turns.then (writeOpt_wf fun _ _ => (if_wf OrganizationalEntity.xml_wf)) (Turns.opt (fun o => ({ supplier := o } : Component.Vars)) (.head _) hn (fun _ => rfl) rfl (fun _ _ => part_if OrganizationalEntity.xml_only)) ?_
      rintro _ ⟨o1, rfl, h1⟩
      refine Turns.then (writeOpt_wf fun _ _ => writeSimple_wf) (Turns.opt (fun o => ({ supplier := o1, author := o } : Component.Vars)) (.tail _ (.head _)) hn (fun _ => rfl) rfl (fun _ _ => tells_simple.part)) ?_
      rintro _ ⟨o2, rfl, h2⟩
      refine Turns.then (writeOpt_wf fun _ _ => writeSimple_wf) (Turns.opt (fun o => ({ supplier := o1, author := o2, publisher := o } : Component.Vars)) (.tail _ (.tail _ (.head _))) hn (fun _ => rfl) rfl (fun _ _ => tells_simple.part)) ?_
      rintro _ ⟨o3, rfl, h3⟩
      refine Turns.then (writeOpt_wf fun _ _ => writeSimple_wf) (Turns.opt (fun o => ({ supplier := o1, author := o2, publisher := o3, group := o } : Component.Vars)) (.tail _ (.tail _ (.tail _ (.head _)))) hn (fun _ => rfl) rfl (fun _ _ => tells_simple.part)) ?_
      rintro _ ⟨o4, rfl, h4⟩
      refine Turns.then writeSimple_wf (Turns.req (fun o => ({ supplier := o1, author := o2, publisher := o3, group := o4, name := some o } : Component.Vars)) (.tail _ (.tail _ (.tail _ (.tail _ (.head _))))) hn (fun _ => rfl) tells_simple) ?_
      rintro _ ⟨o5, rfl, h5⟩
      refine Turns.then (writeOpt_wf fun _ _ => writeSimple_wf) (Turns.opt (fun o => ({ supplier := o1, author := o2, publisher := o3, group := o4, name := some o5, version := o } : Component.Vars)) (.tail _ (.tail _ (.tail _ (.tail _ (.tail _ (.head _)))))) hn (fun _ => rfl) rfl (fun _ _ => tells_simple.part)) ?_
      rintro _ ⟨o6, rfl, h6⟩
      refine Turns.then (writeOpt_wf fun _ _ => writeSimple_wf) (Turns.opt (fun o => ({ supplier := o1, author := o2, publisher := o3, group := o4, name := some o5, version := o6, description := o } : Component.Vars)) (.tail _ (.tail _ (.tail _ (.tail _ (.tail _ (.tail _ (.head _))))))) hn (fun _ => rfl) rfl (fun _ _ => tells_simple.part)) ?_
      rintro _ ⟨o7, rfl, h7⟩
      refine Turns.then (writeOpt_wf fun _ _ => writeSimple_wf) (Turns.opt (fun o => ({ supplier := o1, author := o2, publisher := o3, group := o4, name := some o5, version := o6, description := o7, scope := o } : Component.Vars)) (.tail _ (.tail _ (.tail _ (.tail _ (.tail _ (.tail _ (.tail _ (.head _)))))))) hn (fun _ => rfl) rfl (fun _ _ => (tells_enum (stable_of Scope.display_new)).part)) ?_
      rintro _ ⟨o8, rfl, h8⟩
      refine Turns.then (writeOpt_wf fun _ _ => (writeList_wf fun _ _ => Hash.xml_wf)) (Turns.opt (fun o => ({ supplier := o1, author := o2, publisher := o3, group := o4, name := some o5, version := o6, description := o7, scope := o8, hashes := o } : Component.Vars)) (.tail _ (.tail _ (.tail _ (.tail _ (.tail _ (.tail _ (.tail _ (.tail _ (.head _))))))))) hn (fun _ => rfl) rfl (fun _ _ => (tells_list (fun _ _ => Hash.xml_only.part) (fun _ _ => Hash.xml_wf)).part)) ?_
      rintro _ ⟨o9, rfl, h9⟩
      refine Turns.then (writeOpt_wf fun _ _ => Licenses.xml_wf) (Turns.opt_at (fun o => ({ supplier := o1, author := o2, publisher := o3, group := o4, name := some o5, version := o6, description := o7, scope := o8, hashes := o9, licenses := o } : Component.Vars)) (.tail _ (.tail _ (.tail _ (.tail _ (.tail _ (.tail _ (.tail _ (.tail _ (.tail _ (.head _)))))))))) hn (fun _ => rfl) rfl (fun _ _ => (Licenses.xml_only .v1_4).part)) ?_
      rintro _ ⟨o10, rfl, h10⟩
      refine Turns.then (writeOpt_wf fun _ _ => writeSimple_wf) (Turns.opt (fun o => ({ supplier := o1, author := o2, publisher := o3, group := o4, name := some o5, version := o6, description := o7, scope := o8, hashes := o9, licenses := o10, copyright := o } : Component.Vars)) (.tail _ (.tail _ (.tail _ (.tail _ (.tail _ (.tail _ (.tail _ (.tail _ (.tail _ (.tail _ (.head _))))))))))) hn (fun _ => rfl) rfl (fun _ _ => tells_simple.part)) ?_
      rintro _ ⟨o11, rfl, h11⟩
      refine Turns.then (writeOpt_wf fun _ _ => writeSimple_wf) (Turns.opt (fun o => ({ supplier := o1, author := o2, publisher := o3, group := o4, name := some o5, version := o6, description := o7, scope := o8, hashes := o9, licenses := o10, copyright := o11, cpe := o } : Component.Vars)) (.tail _ (.tail _ (.tail _ (.tail _ (.tail _ (.tail _ (.tail _ (.tail _ (.tail _ (.tail _ (.tail _ (.head _)))))))))))) hn (fun _ => rfl) rfl (fun _ _ => tells_simple.part)) ?_
      rintro _ ⟨o12, rfl, h12⟩
      refine Turns.then (writeOpt_wf fun _ _ => writeSimple_wf) (Turns.opt (fun o => ({ supplier := o1, author := o2, publisher := o3, group := o4, name := some o5, version := o6, description := o7, scope := o8, hashes := o9, licenses := o10, copyright := o11, cpe := o12, purl := o } : Component.Vars)) (.tail _ (.tail _ (.tail _ (.tail _ (.tail _ (.tail _ (.tail _ (.tail _ (.tail _ (.tail _ (.tail _ (.tail _ (.head _))))))))))))) hn (fun _ => rfl) rfl (fun _ _ => tells_simple.part)) ?_
      rintro _ ⟨o13, rfl, h13⟩
      refine Turns.then (writeOpt_wf fun _ _ => Swid.xml_wf) (Turns.opt (fun o => ({ supplier := o1, author := o2, publisher := o3, group := o4, name := some o5, version := o6, description := o7, scope := o8, hashes := o9, licenses := o10, copyright := o11, cpe := o12, purl := o13, swid := o } : Component.Vars)) (.tail _ (.tail _ (.tail _ (.tail _ (.tail _ (.tail _ (.tail _ (.tail _ (.tail _ (.tail _ (.tail _ (.tail _ (.tail _ (.head _)))))))))))))) hn (fun _ => rfl) rfl (fun _ _ => Swid.xml_only.part)) ?_
      rintro _ ⟨o14, rfl, h14⟩
      refine Turns.then (writeOpt_wf fun _ _ => writeSimple_wf) (Turns.opt (fun o => ({ supplier := o1, author := o2, publisher := o3, group := o4, name := some o5, version := o6, description := o7, scope := o8, hashes := o9, licenses := o10, copyright := o11, cpe := o12, purl := o13, swid := o14, modified := o } : Component.Vars)) (.tail _ (.tail _ (.tail _ (.tail _ (.tail _ (.tail _ (.tail _ (.tail _ (.tail _ (.tail _ (.tail _ (.tail _ (.tail _ (.tail _ (.head _))))))))))))))) hn (fun _ => rfl) rfl (fun _ _ => tells_bool.part)) ?_
      rintro _ ⟨o15, rfl, h15⟩
      refine Turns.then (writeOpt_wf fun _ _ => (Pedigree.xml_wf fun _ => rfl)) (Turns.opt_at (fun o => ({ supplier := o1, author := o2, publisher := o3, group := o4, name := some o5, version := o6, description := o7, scope := o8, hashes := o9, licenses := o10, copyright := o11, cpe := o12, purl := o13, swid := o14, modified := o15, pedigree := o } : Component.Vars)) (.tail _ (.tail _ (.tail _ (.tail _ (.tail _ (.tail _ (.tail _ (.tail _ (.tail _ (.tail _ (.tail _ (.tail _ (.tail _ (.tail _ (.tail _ (.head _)))))))))))))))) hn (fun _ => rfl) rfl (fun _ _ => (Pedigree.xml_onlyWith .v1_4 hsub).part)) ?_
      rintro _ ⟨o16, rfl, h16⟩
      refine Turns.then (writeOpt_wf fun _ _ => (writeList_wf fun _ _ => ExternalReference.xml_wf)) (Turns.opt (fun o => ({ supplier := o1, author := o2, publisher := o3, group := o4, name := some o5, version := o6, description := o7, scope := o8, hashes := o9, licenses := o10, copyright := o11, cpe := o12, purl := o13, swid := o14, modified := o15, pedigree := o16, externalReferences := o } : Component.Vars)) (.tail _ (.tail _ (.tail _ (.tail _ (.tail _ (.tail _ (.tail _ (.tail _ (.tail _ (.tail _ (.tail _ (.tail _ (.tail _ (.tail _ (.tail _ (.tail _ (.head _))))))))))))))))) hn (fun _ => rfl) rfl (fun _ _ => (tells_list (fun _ _ => ExternalReference.xml_only.part) (fun _ _ => ExternalReference.xml_wf)).part)) ?_
      rintro _ ⟨o17, rfl, h17⟩
      refine Turns.then (writeOpt_wf fun _ _ => (writeList_wf fun _ _ => Property.xml_wf)) (Turns.opt (fun o => ({ supplier := o1, author := o2, publisher := o3, group := o4, name := some o5, version := o6, description := o7, scope := o8, hashes := o9, licenses := o10, copyright := o11, cpe := o12, purl := o13, swid := o14, modified := o15, pedigree := o16, externalReferences := o17, properties := o } : Component.Vars)) (.tail _ (.tail _ (.tail _ (.tail _ (.tail _ (.tail _ (.tail _ (.tail _ (.tail _ (.tail _ (.tail _ (.tail _ (.tail _ (.tail _ (.tail _ (.tail _ (.tail _ (.head _)))))))))))))))))) hn (fun _ => rfl) rfl (fun _ _ => (tells_listLax (fun _ _ => Property.xml_only.part) (fun _ _ => Property.xml_wf)).part)) ?_
      rintro _ ⟨o18, rfl, h18⟩
      refine Turns.then (writeOpt_wf fun _ _ => (writeList_wf fun _ _ => (Component.xml_wf fun _ => rfl))) (Turns.opt_at (fun o => ({ supplier := o1, author := o2, publisher := o3, group := o4, name := some o5, version := o6, description := o7, scope := o8, hashes := o9, licenses := o10, copyright := o11, cpe := o12, purl := o13, swid := o14, modified := o15, pedigree := o16, externalReferences := o17, properties := o18, components := o } : Component.Vars)) (.tail _ (.tail _ (.tail _ (.tail _ (.tail _ (.tail _ (.tail _ (.tail _ (.tail _ (.tail _ (.tail _ (.tail _ (.tail _ (.tail _ (.tail _ (.tail _ (.tail _ (.tail _ (.head _))))))))))))))))))) hn (fun _ => rfl) rfl (fun _ _ => (tells_listLax_at (fun _ _ => (hsub _).part) (fun _ _ => (Component.xml_wf fun _ => rfl))).part)) ?_
      rintro _ ⟨o19, rfl, h19⟩
      refine Turns.then (writeOpt_wf fun _ _ => (if_wf ComponentEvidence.xml_wf)) (Turns.opt_at (fun o => ({ supplier := o1, author := o2, publisher := o3, group := o4, name := some o5, version := o6, description := o7, scope := o8, hashes := o9, licenses := o10, copyright := o11, cpe := o12, purl := o13, swid := o14, modified := o15, pedigree := o16, externalReferences := o17, properties := o18, components := o19, evidence := o } : Component.Vars)) (.tail _ (.tail _ (.tail _ (.tail _ (.tail _ (.tail _ (.tail _ (.tail _ (.tail _ (.tail _ (.tail _ (.tail _ (.tail _ (.tail _ (.tail _ (.tail _ (.tail _ (.tail _ (.tail _ (.head _)))))))))))))))))))) hn (fun _ => rfl) rfl (fun _ _ => part_if (ComponentEvidence.xml_only .v1_4))) ?_
      rintro _ ⟨o20, rfl, h20⟩
      refine Turns.then (writeOpt_wf fun _ _ => Signature.xml_wf) (Turns.opt (fun o => ({ supplier := o1, author := o2, publisher := o3, group := o4, name := some o5, version := o6, description := o7, scope := o8, hashes := o9, licenses := o10, copyright := o11, cpe := o12, purl := o13, swid := o14, modified := o15, pedigree := o16, externalReferences := o17, properties := o18, components := o19, evidence := o20, signature := o } : Component.Vars)) (.tail _ (.tail _ (.tail _ (.tail _ (.tail _ (.tail _ (.tail _ (.tail _ (.tail _ (.tail _ (.tail _ (.tail _ (.tail _ (.tail _ (.tail _ (.tail _ (.tail _ (.tail _ (.tail _ (.tail _ (.head _))))))))))))))))))))) hn (fun _ => rfl) rfl (fun _ _ => Signature.xml_only.part)) ?_
      rintro _ ⟨o21, rfl, h21⟩
      refine Turns.then .nil (Turns.nil (Q := fun s => s = _) rfl) ?_
      rintro _ rfl
      refine Turns.nil ?_
      intro e
      have e := Except.ok.inj e
      exact {
        componentType := congrArg Component.componentType e
        supplier := h1 (congrArg Component.supplier e)
        author := h2 (congrArg Component.author e)
        publisher := h3 (congrArg Component.publisher e)
        group := h4 (congrArg Component.group e)
        name := h5 (congrArg Component.name e)
        version_some := nofun
        version := h6 (congrArg Component.version e)
        description := h7 (congrArg Component.description e)
        scope := h8 (congrArg Component.scope e)
        hashes := h9 (congrArg Component.hashes e)
        licenses := h10 (congrArg Component.licenses e)
        copyright := h11 (congrArg Component.copyright e)
        cpe := h12 (congrArg Component.cpe e)
        purl := h13 (congrArg Component.purl e)
        swid := h14 (congrArg Component.swid e)
        pedigree := h16 (congrArg Component.pedigree e)
        externalReferences := h17 (congrArg Component.externalReferences e)
        properties := h18 (congrArg Component.properties e)
        components := h19 (congrArg Component.components e)
        evidence := h20 (congrArg Component.evidence e)
        signature := fun _ => h21 (congrArg Component.signature e)
        modelCard := nofun
        data := nofun }
  | v1_5 =>
    have hn : ["supplier", "author", "publisher", "group", "name", "version", "description", "scope", "hashes", "licenses", "copyright", "cpe", "purl", "swid", "modified", "pedigree", "externalReferences", "properties", "components", "evidence", "signature", "modelCard", "data"].Nodup := by decide
    have ha : ["type", "mime-type", "bom-ref"].Nodup := by decide
    refine tells_struct (p := (Classification.display x.componentType, x.mimeType, x.bomRef)) (Component.xml_body_wfWith (fun _ => rfl) (fun _ _ => Component.xml_wf fun _ => rfl)) ?_ ?_
    · refine bindOk (reqAttr_mk ha (.head _)) ?_
      exact congrArg Except.ok (congrPair rfl (congrPair (optAttr_mk ha (.tail _ (.head _))) (optAttr_mk ha (.tail _ (.tail _ (.head _))))))
    · refine Turns.then (writeOpt_wf fun _ _ => (if_wf OrganizationalEntity.xml_wf)) (Turns.opt (fun o => ({ supplier := o } : Component.Vars)) (.head _) hn (fun _ => rfl) rfl (fun _ _ => part_if OrganizationalEntity.xml_only)) ?_
      rintro _ ⟨o1, rfl, h1⟩
      refine Turns.then (writeOpt_wf fun _ _ => writeSimple_wf) (Turns.opt (fun o => ({ supplier := o1, author := o } : Component.Vars)) (.tail _ (.head _)) hn (fun _ => rfl) rfl (fun _ _ => tells_simple.part)) ?_
      rintro _ ⟨o2, rfl, h2⟩
      refine Turns.then (writeOpt_wf fun _ _ => writeSimple_wf) (Turns.opt (fun o => ({ supplier := o1, author := o2, publisher := o } : Component.Vars)) (.tail _ (.tail _ (.head _))) hn (fun _ => rfl) rfl (fun _ _ => tells_simple.part)) ?_
      rintro _ ⟨o3, rfl, h3⟩
      refine Turns.then (writeOpt_wf fun _ _ => writeSimple_wf) (Turns.opt (fun o => ({ supplier := o1, author := o2, publisher := o3, group := o } : Component.Vars)) (.tail _ (.tail _ (.tail _ (.head _)))) hn (fun _ => rfl) rfl (fun _ _ => tells_simple.part)) ?_
      rintro _ ⟨o4, rfl, h4⟩
      refine Turns.then writeSimple_wf (Turns.req (fun o => ({ supplier := o1, author := o2, publisher := o3, group := o4, name := some o } : Component.Vars)) (.tail _ (.tail _ (.tail _ (.tail _ (.head _))))) hn (fun _ => rfl) tells_simple) ?_
      rintro _ ⟨o5, rfl, h5⟩
      refine Turns.then (writeOpt_wf fun _ _ => writeSimple_wf) (Turns.opt (fun o => ({ supplier := o1, author := o2, publisher := o3, group := o4, name := some o5, version := o } : Component.Vars)) (.tail _ (.tail _ (.tail _ (.tail _ (.tail _ (.head _)))))) hn (fun _ => rfl) rfl (fun _ _ => tells_simple.part)) ?_
      rintro _ ⟨o6, rfl, h6⟩
      refine Turns.then (writeOpt_wf fun _ _ => writeSimple_wf) (Turns.opt (fun o => ({ supplier := o1, author := o2, publisher := o3, group := o4, name := some o5, version := o6, description := o } : Component.Vars)) (.tail _ (.tail _ (.tail _ (.tail _ (.tail _ (.tail _ (.head _))))))) hn (fun _ => rfl) rfl (fun _ _ => tells_simple.part)) ?_
      rintro _ ⟨o7, rfl, h7⟩
      refine Turns.then (writeOpt_wf fun _ _ => writeSimple_wf) (Turns.opt (fun o => ({ supplier := o1, author := o2, publisher := o3, group := o4, name := some o5, version := o6, description := o7, scope := o } : Component.Vars)) (.tail _ (.tail _ (.tail _ (.tail _ (.tail _ (.tail _ (.tail _ (.head _)))))))) hn (fun _ => rfl) rfl (fun _ _ => (tells_enum (stable_of Scope.display_new)).part)) ?_
      rintro _ ⟨o8, rfl, h8⟩
      refine Turns.then (writeOpt_wf fun _ _ => (writeList_wf fun _ _ => Hash.xml_wf)) (Turns.opt (fun o => ({ supplier := o1, author := o2, publisher := o3, group := o4, name := some o5, version := o6, description := o7, scope := o8, hashes := o } : Component.Vars)) (.tail _ (.tail _ (.tail _ (.tail _ (.tail _ (.tail _ (.tail _ (.tail _ (.head _))))))))) hn (fun _ => rfl) rfl (fun _ _ => (tells_list (fun _ _ => Hash.xml_only.part) (fun _ _ => Hash.xml_wf)).part)) ?_
      rintro _ ⟨o9, rfl, h9⟩
      refine Turns.then (writeOpt_wf fun _ _ => Licenses.xml_wf) (Turns.opt_at (fun o => ({ supplier := o1, author := o2, publisher := o3, group := o4, name := some o5, version := o6, description := o7, scope := o8, hashes := o9, licenses := o } : Component.Vars)) (.tail _ (.tail _ (.tail _ (.tail _ (.tail _ (.tail _ (.tail _ (.tail _ (.tail _ (.head _)))))))))) hn (fun _ => rfl) rfl (fun _ _ => (Licenses.xml_only .v1_5).part)) ?_
      rintro _ ⟨o10, rfl, h10⟩
      refine Turns.then (writeOpt_wf fun _ _ => writeSimple_wf) (Turns.opt (fun o => ({ supplier := o1, author := o2, publisher := o3, group := o4, name := some o5, version := o6, description := o7, scope := o8, hashes := o9, licenses := o10, copyright := o } : Component.Vars)) (.tail _ (.tail _ (.tail _ (.tail _ (.tail _ (.tail _ (.tail _ (.tail _ (.tail _ (.tail _ (.head _))))))))))) hn (fun _ => rfl) rfl (fun _ _ => tells_simple.part)) ?_
      rintro _ ⟨o11, rfl, h11⟩
      refine Turns.then (writeOpt_wf fun _ _ => writeSimple_wf) (Turns.opt (fun o => ({ supplier := o1, author := o2, publisher := o3, group := o4, name := some o5, version := o6, description := o7, scope := o8, hashes := o9, licenses := o10, copyright := o11, cpe := o } : Component.Vars)) (.tail _ (.tail _ (.tail _ (.tail _ (.tail _ (.tail _ (.tail _ (.tail _ (.tail _ (.tail _ (.tail _ (.head _)))))))))))) hn (fun _ => rfl) rfl (fun _ _ => tells_simple.part)) ?_
      rintro _ ⟨o12, rfl, h12⟩
      refine Turns.then (writeOpt_wf fun _ _ => writeSimple_wf) (Turns.opt (fun o => ({ supplier := o1, author := o2, publisher := o3, group := o4, name := some o5, version := o6, description := o7, scope := o8, hashes := o9, licenses := o10, copyright := o11, cpe := o12, purl := o } : Component.Vars)) (.tail _ (.tail _ (.tail _ (.tail _ (.tail _ (.tail _ (.tail _ (.tail _ (.tail _ (.tail _ (.tail _ (.tail _ (.head _))))))))))))) hn (fun _ => rfl) rfl (fun _ _ => tells_simple.part)) ?_
      rintro _ ⟨o13, rfl, h13⟩
      refine Turns.then (writeOpt_wf fun _ _ => Swid.xml_wf) (Turns.opt (fun o => ({ supplier := o1, author := o2, publisher := o3, group := o4, name := some o5, version := o6, description := o7, scope := o8, hashes := o9, licenses := o10, copyright := o11, cpe := o12, purl := o13, swid := o } : Component.Vars)) (.tail _ (.tail _ (.tail _ (.tail _ (.tail _ (.tail _ (.tail _ (.tail _ (.tail _ (.tail _ (.tail _ (.tail _ (.tail _ (.head _)))))))))))))) hn (fun _ => rfl) rfl (fun _ _ => Swid.xml_only.part)) ?_
      rintro _ ⟨o14, rfl, h14⟩
      refine Turns.then (writeOpt_wf fun _ _ => writeSimple_wf) (Turns.opt (fun o => ({ supplier := o1, author := o2, publisher := o3, group := o4, name := some o5, version := o6, description := o7, scope := o8, hashes := o9, licenses := o10, copyright := o11, cpe := o12, purl := o13, swid := o14, modified := o } : Component.Vars)) (.tail _ (.tail _ (.tail _ (.tail _ (.tail _ (.tail _ (.tail _ (.tail _ (.tail _ (.tail _ (.tail _ (.tail _ (.tail _ (.tail _ (.head _))))))))))))))) hn (fun _ => rfl) rfl (fun _ _ => tells_bool.part)) ?_
      rintro _ ⟨o15, rfl, h15⟩
      refine Turns.then (writeOpt_wf fun _ _ => (Pedigree.xml_wf fun _ => rfl)) (Turns.opt_at (fun o => ({ supplier := o1, author := o2, publisher := o3, group := o4, name := some o5, version := o6, description := o7, scope := o8, hashes := o9, licenses := o10, copyright := o11, cpe := o12, purl := o13, swid := o14, modified := o15, pedigree := o } : Component.Vars)) (.tail _ (.tail _ (.tail _ (.tail _ (.tail _ (.tail _ (.tail _ (.tail _ (.tail _ (.tail _ (.tail _ (.tail _ (.tail _ (.tail _ (.tail _ (.head _)))))))))))))))) hn (fun _ => rfl) rfl (fun _ _ => (Pedigree.xml_onlyWith .v1_5 hsub).part)) ?_
      rintro _ ⟨o16, rfl, h16⟩
      refine Turns.then (writeOpt_wf fun _ _ => (writeList_wf fun _ _ => ExternalReference.xml_wf)) (Turns.opt (fun o => ({ supplier := o1, author := o2, publisher := o3, group := o4, name := some o5, version := o6, description := o7, scope := o8, hashes := o9, licenses := o10, copyright := o11, cpe := o12, purl := o13, swid := o14, modified := o15, pedigree := o16, externalReferences := o } : Component.Vars)) (.tail _ (.tail _ (.tail _ (.tail _ (.tail _ (.tail _ (.tail _ (.tail _ (.tail _ (.tail _ (.tail _ (.tail _ (.tail _ (.tail _ (.tail _ (.tail _ (.head _))))))))))))))))) hn (fun _ => rfl) rfl (fun _ _ => (tells_list (fun _ _ => ExternalReference.xml_only.part) (fun _ _ => ExternalReference.xml_wf)).part)) ?_
      rintro _ ⟨o17, rfl, h17⟩
      refine Turns.then (writeOpt_wf fun _ _ => (writeList_wf fun _ _ => Property.xml_wf)) (Turns.opt (fun o => ({ supplier := o1, author := o2, publisher := o3, group := o4, name := some o5, version := o6, description := o7, scope := o8, hashes := o9, licenses := o10, copyright := o11, cpe := o12, purl := o13, swid := o14, modified := o15, pedigree := o16, externalReferences := o17, properties := o } : Component.Vars)) (.tail _ (.tail _ (.tail _ (.tail _ (.tail _ (.tail _ (.tail _ (.tail _ (.tail _ (.tail _ (.tail _ (.tail _ (.tail _ (.tail _ (.tail _ (.tail _ (.tail _ (.head _)))))))))))))))))) hn (fun _ => rfl) rfl (fun _ _ => (tells_listLax (fun _ _ => Property.xml_only.part) (fun _ _ => Property.xml_wf)).part)) ?_
      rintro _ ⟨o18, rfl, h18⟩
      refine Turns.then (writeOpt_wf fun _ _ => (writeList_wf fun _ _ => (Component.xml_wf fun _ => rfl))) (Turns.opt_at (fun o => ({ supplier := o1, author := o2, publisher := o3, group := o4, name := some o5, version := o6, description := o7, scope := o8, hashes := o9, licenses := o10, copyright := o11, cpe := o12, purl := o13, swid := o14, modified := o15, pedigree := o16, externalReferences := o17, properties := o18, components := o } : Component.Vars)) (.tail _ (.tail _ (.tail _ (.tail _ (.tail _ (.tail _ (.tail _ (.tail _ (.tail _ (.tail _ (.tail _ (.tail _ (.tail _ (.tail _ (.tail _ (.tail _ (.tail _ (.tail _ (.head _))))))))))))))))))) hn (fun _ => rfl) rfl (fun _ _ => (tells_listLax_at (fun _ _ => (hsub _).part) (fun _ _ => (Component.xml_wf fun _ => rfl))).part)) ?_
      rintro _ ⟨o19, rfl, h19⟩
      refine Turns.then (writeOpt_wf fun _ _ => (if_wf ComponentEvidence.xml_wf)) (Turns.opt_at (fun o => ({ supplier := o1, author := o2, publisher := o3, group := o4, name := some o5, version := o6, description := o7, scope := o8, hashes := o9, licenses := o10, copyright := o11, cpe := o12, purl := o13, swid := o14, modified := o15, pedigree := o16, externalReferences := o17, properties := o18, components := o19, evidence := o } : Component.Vars)) (.tail _ (.tail _ (.tail _ (.tail _ (.tail _ (.tail _ (.tail _ (.tail _ (.tail _ (.tail _ (.tail _ (.tail _ (.tail _ (.tail _ (.tail _ (.tail _ (.tail _ (.tail _ (.tail _ (.head _)))))))))))))))))))) hn (fun _ => rfl) rfl (fun _ _ => part_if (ComponentEvidence.xml_only .v1_5))) ?_
      rintro _ ⟨o20, rfl, h20⟩
      refine Turns.then (writeOpt_wf fun _ _ => Signature.xml_wf) (Turns.opt (fun o => ({ supplier := o1, author := o2, publisher := o3, group := o4, name := some o5, version := o6, description := o7, scope := o8, hashes := o9, licenses := o10, copyright := o11, cpe := o12, purl := o13, swid := o14, modified := o15, pedigree := o16, externalReferences := o17, properties := o18, components := o19, evidence := o20, signature := o } : Component.Vars)) (.tail _ (.tail _ (.tail _ (.tail _ (.tail _ (.tail _ (.tail _ (.tail _ (.tail _ (.tail _ (.tail _ (.tail _ (.tail _ (.tail _ (.tail _ (.tail _ (.tail _ (.tail _ (.tail _ (.tail _ (.head _))))))))))))))))))))) hn (fun _ => rfl) rfl (fun _ _ => Signature.xml_only.part)) ?_
      rintro _ ⟨o21, rfl, h21⟩
      refine Turns.then (writeOpt_wf fun _ _ => ModelCard.xml_wf) (Turns.opt (fun o => ({ supplier := o1, author := o2, publisher := o3, group := o4, name := some o5, version := o6, description := o7, scope := o8, hashes := o9, licenses := o10, copyright := o11, cpe := o12, purl := o13, swid := o14, modified := o15, pedigree := o16, externalReferences := o17, properties := o18, components := o19, evidence := o20, signature := o21, modelCard := o } : Component.Vars)) (.tail _ (.tail _ (.tail _ (.tail _ (.tail _ (.tail _ (.tail _ (.tail _ (.tail _ (.tail _ (.tail _ (.tail _ (.tail _ (.tail _ (.tail _ (.tail _ (.tail _ (.tail _ (.tail _ (.tail _ (.tail _ (.head _)))))))))))))))))))))) hn (fun _ => rfl) rfl (fun _ _ => ModelCard.xml_only.part)) ?_
      rintro _ ⟨o22, rfl, h22⟩
      refine Turns.imp (Turns.opt (fun o => ({ supplier := o1, author := o2, publisher := o3, group := o4, name := some o5, version := o6, description := o7, scope := o8, hashes := o9, licenses := o10, copyright := o11, cpe := o12, purl := o13, swid := o14, modified := o15, pedigree := o16, externalReferences := o17, properties := o18, components := o19, evidence := o20, signature := o21, modelCard := o22, data := o } : Component.Vars)) (.tail _ (.tail _ (.tail _ (.tail _ (.tail _ (.tail _ (.tail _ (.tail _ (.tail _ (.tail _ (.tail _ (.tail _ (.tail _ (.tail _ (.tail _ (.tail _ (.tail _ (.tail _ (.tail _ (.tail _ (.tail _ (.tail _ (.head _))))))))))))))))))))))) hn (fun _ => rfl) rfl (fun _ _ => ComponentData.xml_only.part)) ?_
      rintro _ ⟨o23, rfl, h23⟩
      intro e
      have e := Except.ok.inj e
      exact {
        componentType := congrArg Component.componentType e
        supplier := h1 (congrArg Component.supplier e)
        author := h2 (congrArg Component.author e)
        publisher := h3 (congrArg Component.publisher e)
        group := h4 (congrArg Component.group e)
        name := h5 (congrArg Component.name e)
        version_some := nofun
        version := h6 (congrArg Component.version e)
        description := h7 (congrArg Component.description e)
        scope := h8 (congrArg Component.scope e)
        hashes := h9 (congrArg Component.hashes e)
        licenses := h10 (congrArg Component.licenses e)
        copyright := h11 (congrArg Component.copyright e)
        cpe := h12 (congrArg Component.cpe e)
        purl := h13 (congrArg Component.purl e)
        swid := h14 (congrArg Component.swid e)
        pedigree := h16 (congrArg Component.pedigree e)
        externalReferences := h17 (congrArg Component.externalReferences e)
        properties := h18 (congrArg Component.properties e)
        components := h19 (congrArg Component.components e)
        evidence := h20 (congrArg Component.evidence e)
        signature := fun _ => h21 (congrArg Component.signature e)
        modelCard := fun _ => h22 (congrArg Component.modelCard e)
        data := fun _ => h23 (congrArg Component.data e) }

variable [ReadLimit]

theorem Component.xml_onlyN (v : SpecVersion) {ns : Option String} : ∀ {n : Nat} {x : Component},
    Tells ns (Component.writeXml v x) "component" (Component.readXmlN v n)
      (fun y => y = x.at v → Component.XmlOkN v n x)
  | 0, _ => tells_error (Component.xml_one fun _ => rfl) fun _ _ => ⟨_, fun _ => rfl⟩
  | _ + 1, _ => Component.xml_onlyWith v fun _ => Component.xml_onlyN v

theorem Component.xml_only (v : SpecVersion) {ns : Option String} {x : Component} :
    Tells ns (Component.writeXml v x) "component" (Component.readXml v)
      (fun y => y = x.at v → Component.XmlOk v x) := Component.xml_onlyN v

end Cdx
