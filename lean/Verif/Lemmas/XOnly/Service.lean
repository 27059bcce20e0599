import Verif.Lemmas.XOnly.Data
import Verif.Lemmas.Format.Service

set_option linter.unusedSectionVars false
set_option linter.unusedSimpArgs false
set_option linter.unusedVariables false

/-!
# What has to hold for a value to come back from XML (Service)

The converse of `Verif.Lemmas.Format.Service`: a value that is read back from the element that was written
for it meets the conditions under which it was shown to be read back.
-/

namespace Cdx

theorem Service.xml_onlyWith (v : SpecVersion) {ns : Option String} {x : Service}
    {sub : XElem Service} {S : Service → Prop}
    (hsub : ∀ y, Tells ns (Service.writeXml v y) "service" sub (fun z => z = Service.at v y → S y)) :
    Tells ns (Service.writeXml v x) "service" (Service.readXmlWith sub v) (fun y => y = x.at v → Service.XmlOkWith S v x) := by
  rw [Service.writeXml_eq, Service.at_eq]
  cases v with
  | v1_3 =>
    have hn : ["provider", "group", "name", "version", "description", "endpoints", "authenticated", "x-trust-boundary", "data", "licenses", "externalReferences", "properties", "services"].Nodup := by decide
    have ha : ["bom-ref"].Nodup := by decide
    refine tells_struct (p := (x.bomRef)) (Service.xml_body_wfWith (fun _ => rfl) (fun _ _ => Service.xml_wf fun _ => rfl)) ?_ ?_
    · exact congrArg Except.ok (optAttr_mk ha (.head _))
    · refine Turns.then (writeOpt_wf fun _ _ => OrganizationalEntity.xml_wf) (Turns.opt (fun o => ({ provider := o } : Service.Vars)) (.head _) hn (fun _ => rfl) rfl (fun _ _ => OrganizationalEntity.xml_only.part)) ?_
      rintro _ ⟨o1, rfl, h1⟩
      refine Turns.then (writeOpt_wf fun _ _ => writeSimple_wf) (Turns.opt (fun o => ({ provider := o1, group := o } : Service.Vars)) (.tail _ (.head _)) hn (fun _ => rfl) rfl (fun _ _ => tells_simple.part)) ?_
      rintro _ ⟨o2, rfl, h2⟩
      refine Turns.then writeSimple_wf (Turns.req (fun o => ({ provider := o1, group := o2, name := some o } : Service.Vars)) (.tail _ (.tail _ (.head _))) hn (fun _ => rfl) tells_simple) ?_
      rintro _ ⟨o3, rfl, h3⟩
      refine Turns.then (writeOpt_wf fun _ _ => writeSimple_wf) (Turns.opt (fun o => ({ provider := o1, group := o2, name := some o3, version := o } : Service.Vars)) (.tail _ (.tail _ (.tail _ (.head _)))) hn (fun _ => rfl) rfl (fun _ _ => tells_simple.part)) ?_
      rintro _ ⟨o4, rfl, h4⟩
      refine Turns.then (writeOpt_wf fun _ _ => writeSimple_wf) (Turns.opt (fun o => ({ provider := o1, group := o2, name := some o3, version := o4, description := o } : Service.Vars)) (.tail _ (.tail _ (.tail _ (.tail _ (.head _))))) hn (fun _ => rfl) rfl (fun _ _ => tells_simple.part)) ?_
      rintro _ ⟨o5, rfl, h5⟩
      refine Turns.then (writeOpt_wf fun _ _ => (writeList_wf fun _ _ => writeSimple_wf)) (Turns.opt (fun o => ({ provider := o1, group := o2, name := some o3, version := o4, description := o5, endpoints := o } : Service.Vars)) (.tail _ (.tail _ (.tail _ (.tail _ (.tail _ (.head _)))))) hn (fun _ => rfl) rfl (fun _ _ => (tells_list (fun _ _ => tells_simple.part) (fun _ _ => writeSimple_wf)).part)) ?_
      rintro _ ⟨o6, rfl, h6⟩
      refine Turns.then (writeOpt_wf fun _ _ => writeSimple_wf) (Turns.opt (fun o => ({ provider := o1, group := o2, name := some o3, version := o4, description := o5, endpoints := o6, authenticated := o } : Service.Vars)) (.tail _ (.tail _ (.tail _ (.tail _ (.tail _ (.tail _ (.head _))))))) hn (fun _ => rfl) rfl (fun _ _ => tells_bool.part)) ?_
      rintro _ ⟨o7, rfl, h7⟩
      refine Turns.then (writeOpt_wf fun _ _ => writeSimple_wf) (Turns.opt (fun o => ({ provider := o1, group := o2, name := some o3, version := o4, description := o5, endpoints := o6, authenticated := o7, xTrustBoundary := o } : Service.Vars)) (.tail _ (.tail _ (.tail _ (.tail _ (.tail _ (.tail _ (.tail _ (.head _)))))))) hn (fun _ => rfl) rfl (fun _ _ => tells_bool.part)) ?_
      rintro _ ⟨o8, rfl, h8⟩
      refine Turns.then (writeOpt_wf fun _ _ => (ServiceDataChoice.xml_wf fun _ => rfl)) (Turns.opt_at (fun o => ({ provider := o1, group := o2, name := some o3, version := o4, description := o5, endpoints := o6, authenticated := o7, xTrustBoundary := o8, data := o } : Service.Vars)) (.tail _ (.tail _ (.tail _ (.tail _ (.tail _ (.tail _ (.tail _ (.tail _ (.head _))))))))) hn (fun _ => rfl) rfl (fun _ _ => (ServiceDataChoice.xml_only .v1_3).part)) ?_
      rintro _ ⟨o9, rfl, h9⟩
      refine Turns.then (writeOpt_wf fun _ _ => Licenses.xml_wf) (Turns.opt_at (fun o => ({ provider := o1, group := o2, name := some o3, version := o4, description := o5, endpoints := o6, authenticated := o7, xTrustBoundary := o8, data := o9, licenses := o } : Service.Vars)) (.tail _ (.tail _ (.tail _ (.tail _ (.tail _ (.tail _ (.tail _ (.tail _ (.tail _ (.head _)))))))))) hn (fun _ => rfl) rfl (fun _ _ => (Licenses.xml_only .v1_3).part)) ?_
      rintro _ ⟨o10, rfl, h10⟩
      refine Turns.then (writeOpt_wf fun _ _ => (writeList_wf fun _ _ => ExternalReference.xml_wf)) (Turns.opt (fun o => ({ provider := o1, group := o2, name := some o3, version := o4, description := o5, endpoints := o6, authenticated := o7, xTrustBoundary := o8, data := o9, licenses := o10, externalReferences := o } : Service.Vars)) (.tail _ (.tail _ (.tail _ (.tail _ (.tail _ (.tail _ (.tail _ (.tail _ (.tail _ (.tail _ (.head _))))))))))) hn (fun _ => rfl) rfl (fun _ _ => (tells_list (fun _ _ => ExternalReference.xml_only.part) (fun _ _ => ExternalReference.xml_wf)).part)) ?_
      rintro _ ⟨o11, rfl, h11⟩
      refine Turns.then (writeOpt_wf fun _ _ => (writeList_wf fun _ _ => Property.xml_wf)) (Turns.opt (fun o => ({ provider := o1, group := o2, name := some o3, version := o4, description := o5, endpoints := o6, authenticated := o7, xTrustBoundary := o8, data := o9, licenses := o10, externalReferences := o11, properties := o } : Service.Vars)) (.tail _ (.tail _ (.tail _ (.tail _ (.tail _ (.tail _ (.tail _ (.tail _ (.tail _ (.tail _ (.tail _ (.head _)))))))))))) hn (fun _ => rfl) rfl (fun _ _ => (tells_listLax (fun _ _ => Property.xml_only.part) (fun _ _ => Property.xml_wf)).part)) ?_
      rintro _ ⟨o12, rfl, h12⟩
      refine Turns.then (writeOpt_wf fun _ _ => (writeList_wf fun _ _ => (Service.xml_wf fun _ => rfl))) (Turns.opt_at (fun o => ({ provider := o1, group := o2, name := some o3, version := o4, description := o5, endpoints := o6, authenticated := o7, xTrustBoundary := o8, data := o9, licenses := o10, externalReferences := o11, properties := o12, services := o } : Service.Vars)) (.tail _ (.tail _ (.tail _ (.tail _ (.tail _ (.tail _ (.tail _ (.tail _ (.tail _ (.tail _ (.tail _ (.tail _ (.head _))))))))))))) hn (fun _ => rfl) rfl (fun _ _ => (tells_listLax_at (fun _ _ => (hsub _).part) (fun _ _ => (Service.xml_wf fun _ => rfl))).part)) ?_
      rintro _ ⟨o13, rfl, h13⟩
      refine Turns.then .nil (Turns.nil (Q := fun s => s = _) rfl) ?_
      rintro _ rfl
      refine Turns.nil ?_
      intro e
      have e := Except.ok.inj e
      exact {
        provider := h1 (congrArg Service.provider e)
        group := h2 (congrArg Service.group e)
        name := h3 (congrArg Service.name e)
        version := h4 (congrArg Service.version e)
        description := h5 (congrArg Service.description e)
        endpoints := h6 (congrArg Service.endpoints e)
        data := h9 (congrArg Service.data e)
        licenses := h10 (congrArg Service.licenses e)
        externalReferences := h11 (congrArg Service.externalReferences e)
        properties := h12 (congrArg Service.properties e)
        services := h13 (congrArg Service.services e)
        signature := fun hv => absurd rfl hv
        trustZone := nofun }
  | v1_4 =>
    have hn : ["provider", "group", "name", "version", "description", "endpoints", "authenticated", "x-trust-boundary", "data", "licenses", "externalReferences", "properties", "services", "signature"].Nodup := by decide
    have ha : ["bom-ref"].Nodup := by decide
    refine tells_struct (p := (x.bomRef)) (Service.xml_body_wfWith (fun _ => rfl) (fun _ _ => Service.xml_wf fun _ => rfl)) ?_ ?_
    · exact congrArg Except.ok (optAttr_mk ha (.head _))
    · refine Turns.then (writeOpt_wf fun _ _ => OrganizationalEntity.xml_wf) (Turns.opt (fun o => ({ provider := o } : Service.Vars)) (.head _) hn (fun _ => rfl) rfl (fun _ _ => OrganizationalEntity.xml_only.part)) ?_
      rintro _ ⟨o1, rfl, h1⟩
      refine Turns.then (writeOpt_wf fun _ _ => writeSimple_wf) (Turns.opt (fun o => ({ provider := o1, group := o } : Service.Vars)) (.tail _ (.head _)) hn (fun _ => rfl) rfl (fun _ _ => tells_simple.part)) ?_
      rintro _ ⟨o2, rfl, h2⟩
      refine Turns.then writeSimple_wf (Turns.req (fun o => ({ provider := o1, group := o2, name := some o } : Service.Vars)) (.tail _ (.tail _ (.head _))) hn (fun _ => rfl) tells_simple) ?_
      rintro _ ⟨o3, rfl, h3⟩
      refine Turns.then (writeOpt_wf fun _ _ => writeSimple_wf) (Turns.opt (fun o => ({ provider := o1, group := o2, name := some o3, version := o } : Service.Vars)) (.tail _ (.tail _ (.tail _ (.head _)))) hn (fun _ => rfl) rfl (fun _ _ => tells_simple.part)) ?_
      rintro _ ⟨o4, rfl, h4⟩
      refine Turns.then (writeOpt_wf fun _ _ => writeSimple_wf) (Turns.opt (fun o => ({ provider := o1, group := o2, name := some o3, version := o4, description := o } : Service.Vars)) (.tail _ (.tail _ (.tail _ (.tail _ (.head _))))) hn (fun _ => rfl) rfl (fun _ _ => tells_simple.part)) ?_
      rintro _ ⟨o5, rfl, h5⟩
      refine Turns.then (writeOpt_wf fun _ _ => (writeList_wf fun _ _ => writeSimple_wf)) (Turns.opt (fun o => ({ provider := o1, group := o2, name := some o3, version := o4, description := o5, endpoints := o } : Service.Vars)) (.tail _ (.tail _ (.tail _ (.tail _ (.tail _ (.head _)))))) hn (fun _ => rfl) rfl (fun _ _ => (tells_list (fun _ _ => tells_simple.part) (fun _ _ => writeSimple_wf)).part)) ?_
      rintro _ ⟨o6, rfl, h6⟩
      refine Turns.then (writeOpt_wf fun _ _ => writeSimple_wf) (Turns.opt (fun o => ({ provider := o1, group := o2, name := some o3, version := o4, description := o5, endpoints := o6, authenticated := o } : Service.Vars)) (.tail _ (.tail _ (.tail _ (.tail _ (.tail _ (.tail _ (.head _))))))) hn (fun _ => rfl) rfl (fun _ _ => tells_bool.part)) ?_
      rintro _ ⟨o7, rfl, h7⟩
      refine Turns.then (writeOpt_wf fun _ _ => writeSimple_wf) (Turns.opt (fun o => ({ provider := o1, group := o2, name := some o3, version := o4, description := o5, endpoints := o6, authenticated := o7, xTrustBoundary := o } : Service.Vars)) (.tail _ (.tail _ (.tail _ (.tail _ (.tail _ (.tail _ (.tail _ (.head _)))))))) hn (fun _ => rfl) rfl (fun _ _ => tells_bool.part)) ?_
      rintro _ ⟨o8, rfl, h8⟩
      refine Turns.then (writeOpt_wf fun _ _ => (ServiceDataChoice.xml_wf fun _ => rfl)) (Turns.opt_at (fun o => ({ provider := o1, group := o2, name := some o3, version := o4, description := o5, endpoints := o6, authenticated := o7, xTrustBoundary := o8, data := o } : Service.Vars)) (.tail _ (.tail _ (.tail _ (.tail _ (.tail _ (.tail _ (.tail _ (.tail _ (.head _))))))))) hn (fun _ => rfl) rfl (fun _ _ => (ServiceDataChoice.xml_only .v1_4).part)) ?_
      rintro _ ⟨o9, rfl, h9⟩
      refine Turns.then (writeOpt_wf fun _ _ => Licenses.xml_wf) (Turns.opt_at (fun o => ({ provider := o1, group := o2, name := some o3, version := o4, description := o5, endpoints := o6, authenticated := o7, xTrustBoundary := o8, data := o9, licenses := o } : Service.Vars)) (.tail _ (.tail _ (.tail _ (.tail _ (.tail _ (.tail _ (.tail _ (.tail _ (.tail _ (.head _)))))))))) hn (fun _ => rfl) rfl (fun _ _ => (Licenses.xml_only .v1_4).part)) ?_
      rintro _ ⟨o10, rfl, h10⟩
      refine Turns.then (writeOpt_wf fun _ _ => (writeList_wf fun _ _ => ExternalReference.xml_wf)) (Turns.opt (fun o => ({ provider := o1, group := o2, name := some o3, version := o4, description := o5, endpoints := o6, authenticated := o7, xTrustBoundary := o8, data := o9, licenses := o10, externalReferences := o } : Service.Vars)) (.tail _ (.tail _ (.tail _ (.tail _ (.tail _ (.tail _ (.tail _ (.tail _ (.tail _ (.tail _ (.head _))))))))))) hn (fun _ => rfl) rfl (fun _ _ => (tells_list (fun _ _ => ExternalReference.xml_only.part) (fun _ _ => ExternalReference.xml_wf)).part)) ?_
      rintro _ ⟨o11, rfl, h11⟩
      refine Turns.then (writeOpt_wf fun _ _ => (writeList_wf fun _ _ => Property.xml_wf)) (Turns.opt (fun o => ({ provider := o1, group := o2, name := some o3, version := o4, description := o5, endpoints := o6, authenticated := o7, xTrustBoundary := o8, data := o9, licenses := o10, externalReferences := o11, properties := o } : Service.Vars)) (.tail _ (.tail _ (.tail _ (.tail _ (.tail _ (.tail _ (.tail _ (.tail _ (.tail _ (.tail _ (.tail _ (.head _)))))))))))) hn (fun _ => rfl) rfl (fun _ _ => (tells_listLax (fun _ _ => Property.xml_only.part) (fun _ _ => Property.xml_wf)).part)) ?_
      rintro _ ⟨o12, rfl, h12⟩
      refine Turns.then (writeOpt_wf fun _ _ => (writeList_wf fun _ _ => (Service.xml_wf fun _ => rfl))) (Turns.opt_at (fun o => ({ provider := o1, group := o2, name := some o3, version := o4, description := o5, endpoints := o6, authenticated := o7, xTrustBoundary := o8, data := o9, licenses := o10, externalReferences := o11, properties := o12, services := o } : Service.Vars)) (.tail _ (.tail _ (.tail _ (.tail _ (.tail _ (.tail _ (.tail _ (.tail _ (.tail _ (.tail _ (.tail _ (.tail _ (.head _))))))))))))) hn (fun _ => rfl) rfl (fun _ _ => (tells_listLax_at (fun _ _ => (hsub _).part) (fun _ _ => (Service.xml_wf fun _ => rfl))).part)) ?_
      rintro _ ⟨o13, rfl, h13⟩
      refine Turns.then (writeOpt_wf fun _ _ => Signature.xml_wf) (Turns.opt (fun o => ({ provider := o1, group := o2, name := some o3, version := o4, description := o5, endpoints := o6, authenticated := o7, xTrustBoundary := o8, data := o9, licenses := o10, externalReferences := o11, properties := o12, services := o13, signature := o } : Service.Vars)) (.tail _ (.tail _ (.tail _ (.tail _ (.tail _ (.tail _ (.tail _ (.tail _ (.tail _ (.tail _ (.tail _ (.tail _ (.tail _ (.head _)))))))))))))) hn (fun _ => rfl) rfl (fun _ _ => Signature.xml_only.part)) ?_
      rintro _ ⟨o14, rfl, h14⟩
      refine Turns.nil ?_
      intro e
      have e := Except.ok.inj e
      exact {
        provider := h1 (congrArg Service.provider e)
        group := h2 (congrArg Service.group e)
        name := h3 (congrArg Service.name e)
        version := h4 (congrArg Service.version e)
        description := h5 (congrArg Service.description e)
        endpoints := h6 (congrArg Service.endpoints e)
        data := h9 (congrArg Service.data e)
        licenses := h10 (congrArg Service.licenses e)
        externalReferences := h11 (congrArg Service.externalReferences e)
        properties := h12 (congrArg Service.properties e)
        services := h13 (congrArg Service.services e)
        signature := fun _ => h14 (congrArg Service.signature e)
        trustZone := nofun }
  | v1_5 =>
    have hn : ["provider", "group", "name", "version", "description", "endpoints", "authenticated", "x-trust-boundary", "data", "licenses", "externalReferences", "properties", "services", "signature", "trustZone"].Nodup := by decide
    have ha : ["bom-ref"].Nodup := by decide
    refine tells_struct (p := (x.bomRef)) (Service.xml_body_wfWith (fun _ => rfl) (fun _ _ => Service.xml_wf fun _ => rfl)) ?_ ?_
    · exact congrArg Except.ok (optAttr_mk ha (.head _))
    · refine Turns.then (writeOpt_wf fun _ _ => OrganizationalEntity.xml_wf) (Turns.opt (fun o => ({ provider := o } : Service.Vars)) (.head _) hn (fun _ => rfl) rfl (fun _ _ => OrganizationalEntity.xml_only.part)) ?_
      rintro _ ⟨o1, rfl, h1⟩
      refine Turns.then (writeOpt_wf fun _ _ => writeSimple_wf) (Turns.opt (fun o => ({ provider := o1, group := o } : Service.Vars)) (.tail _ (.head _)) hn (fun _ => rfl) rfl (fun _ _ => tells_simple.part)) ?_
      rintro _ ⟨o2, rfl, h2⟩
      refine Turns.then writeSimple_wf (Turns.req (fun o => ({ provider := o1, group := o2, name := some o } : Service.Vars)) (.tail _ (.tail _ (.head _))) hn (fun _ => rfl) tells_simple) ?_
      rintro _ ⟨o3, rfl, h3⟩
      refine Turns.then (writeOpt_wf fun _ _ => writeSimple_wf) (Turns.opt (fun o => ({ provider := o1, group := o2, name := some o3, version := o } : Service.Vars)) (.tail _ (.tail _ (.tail _ (.head _)))) hn (fun _ => rfl) rfl (fun _ _ => tells_simple.part)) ?_
      rintro _ ⟨o4, rfl, h4⟩
      refine Turns.then (writeOpt_wf fun _ _ => writeSimple_wf) (Turns.opt (fun o => ({ provider := o1, group := o2, name := some o3, version := o4, description := o } : Service.Vars)) (.tail _ (.tail _ (.tail _ (.tail _ (.head _))))) hn (fun _ => rfl) rfl (fun _ _ => tells_simple.part)) ?_
      rintro _ ⟨o5, rfl, h5⟩
      refine Turns.then (writeOpt_wf fun _ _ => (writeList_wf fun _ _ => writeSimple_wf)) (Turns.opt (fun o => ({ provider := o1, group := o2, name := some o3, version := o4, description := o5, endpoints := o } : Service.Vars)) (.tail _ (.tail _ (.tail _ (.tail _ (.tail _ (.head _)))))) hn (fun _ => rfl) rfl (fun _ _ => (tells_list (fun _ _ => tells_simple.part) (fun _ _ => writeSimple_wf)).part)) ?_
      rintro _ ⟨o6, rfl, h6⟩
      refine Turns.then (writeOpt_wf fun _ _ => writeSimple_wf) (Turns.opt (fun o => ({ provider := o1, group := o2, name := some o3, version := o4, description := o5, endpoints := o6, authenticated := o } : Service.Vars)) (.tail _ (.tail _ (.tail _ (.tail _ (.tail _ (.tail _ (.head _))))))) hn (fun _ => rfl) rfl (fun _ _ => tells_bool.part)) ?_
      rintro _ ⟨o7, rfl, h7⟩
      refine Turns.then (writeOpt_wf fun _ _ => writeSimple_wf) (Turns.opt (fun o => ({ provider := o1, group := o2, name := some o3, version := o4, description := o5, endpoints := o6, authenticated := o7, xTrustBoundary := o } : Service.Vars)) (.tail _ (.tail _ (.tail _ (.tail _ (.tail _ (.tail _ (.tail _ (.head _)))))))) hn (fun _ => rfl) rfl (fun _ _ => tells_bool.part)) ?_
      rintro _ ⟨o8, rfl, h8⟩
      refine Turns.then (writeOpt_wf fun _ _ => (ServiceDataChoice.xml_wf fun _ => rfl)) (Turns.opt_at (fun o => ({ provider := o1, group := o2, name := some o3, version := o4, description := o5, endpoints := o6, authenticated := o7, xTrustBoundary := o8, data := o } : Service.Vars)) (.tail _ (.tail _ (.tail _ (.tail _ (.tail _ (.tail _ (.tail _ (.tail _ (.head _))))))))) hn (fun _ => rfl) rfl (fun _ _ => (ServiceDataChoice.xml_only .v1_5).part)) ?_
      rintro _ ⟨o9, rfl, h9⟩
      refine Turns.then (writeOpt_wf fun _ _ => Licenses.xml_wf) (Turns.opt_at (fun o => ({ provider := o1, group := o2, name := some o3, version := o4, description := o5, endpoints := o6, authenticated := o7, xTrustBoundary := o8, data := o9, licenses := o } : Service.Vars)) (.tail _ (.tail _ (.tail _ (.tail _ (.tail _ (.tail _ (.tail _ (.tail _ (.tail _ (.head _)))))))))) hn (fun _ => rfl) rfl (fun _ _ => (Licenses.xml_only .v1_5).part)) ?_
      rintro _ ⟨o10, rfl, h10⟩
      refine Turns.then (writeOpt_wf fun _ _ => (writeList_wf fun _ _ => ExternalReference.xml_wf)) (Turns.opt (fun o => ({ provider := o1, group := o2, name := some o3, version := o4, description := o5, endpoints := o6, authenticated := o7, xTrustBoundary := o8, data := o9, licenses := o10, externalReferences := o } : Service.Vars)) (.tail _ (.tail _ (.tail _ (.tail _ (.tail _ (.tail _ (.tail _ (.tail _ (.tail _ (.tail _ (.head _))))))))))) hn (fun _ => rfl) rfl (fun _ _ => (tells_list (fun _ _ => ExternalReference.xml_only.part) (fun _ _ => ExternalReference.xml_wf)).part)) ?_
      rintro _ ⟨o11, rfl, h11⟩
      refine Turns.then (writeOpt_wf fun _ _ => (writeList_wf fun _ _ => Property.xml_wf)) (Turns.opt (fun o => ({ provider := o1, group := o2, name := some o3, version := o4, description := o5, endpoints := o6, authenticated := o7, xTrustBoundary := o8, data := o9, licenses := o10, externalReferences := o11, properties := o } : Service.Vars)) (.tail _ (.tail _ (.tail _ (.tail _ (.tail _ (.tail _ (.tail _ (.tail _ (.tail _ (.tail _ (.tail _ (.head _)))))))))))) hn (fun _ => rfl) rfl (fun _ _ => (tells_listLax (fun _ _ => Property.xml_only.part) (fun _ _ => Property.xml_wf)).part)) ?_
      rintro _ ⟨o12, rfl, h12⟩
      refine Turns.then (writeOpt_wf fun _ _ => (writeList_wf fun _ _ => (Service.xml_wf fun _ => rfl))) (Turns.opt_at (fun o => ({ provider := o1, group := o2, name := some o3, version := o4, description := o5, endpoints := o6, authenticated := o7, xTrustBoundary := o8, data := o9, licenses := o10, externalReferences := o11, properties := o12, services := o } : Service.Vars)) (.tail _ (.tail _ (.tail _ (.tail _ (.tail _ (.tail _ (.tail _ (.tail _ (.tail _ (.tail _ (.tail _ (.tail _ (.head _))))))))))))) hn (fun _ => rfl) rfl (fun _ _ => (tells_listLax_at (fun _ _ => (hsub _).part) (fun _ _ => (Service.xml_wf fun _ => rfl))).part)) ?_
      rintro _ ⟨o13, rfl, h13⟩
      refine Turns.then (writeOpt_wf fun _ _ => Signature.xml_wf) (Turns.opt (fun o => ({ provider := o1, group := o2, name := some o3, version := o4, description := o5, endpoints := o6, authenticated := o7, xTrustBoundary := o8, data := o9, licenses := o10, externalReferences := o11, properties := o12, services := o13, signature := o } : Service.Vars)) (.tail _ (.tail _ (.tail _ (.tail _ (.tail _ (.tail _ (.tail _ (.tail _ (.tail _ (.tail _ (.tail _ (.tail _ (.tail _ (.head _)))))))))))))) hn (fun _ => rfl) rfl (fun _ _ => Signature.xml_only.part)) ?_
      rintro _ ⟨o14, rfl, h14⟩
      refine Turns.imp (Turns.opt (fun o => ({ provider := o1, group := o2, name := some o3, version := o4, description := o5, endpoints := o6, authenticated := o7, xTrustBoundary := o8, data := o9, licenses := o10, externalReferences := o11, properties := o12, services := o13, signature := o14, trustZone := o } : Service.Vars)) (.tail _ (.tail _ (.tail _ (.tail _ (.tail _ (.tail _ (.tail _ (.tail _ (.tail _ (.tail _ (.tail _ (.tail _ (.tail _ (.tail _ (.head _))))))))))))))) hn (fun _ => rfl) rfl (fun _ _ => tells_simple.part)) ?_
      rintro _ ⟨o15, rfl, h15⟩
      intro e
      have e := Except.ok.inj e
      exact {
        provider := h1 (congrArg Service.provider e)
        group := h2 (congrArg Service.group e)
        name := h3 (congrArg Service.name e)
        version := h4 (congrArg Service.version e)
        description := h5 (congrArg Service.description e)
        endpoints := h6 (congrArg Service.endpoints e)
        data := h9 (congrArg Service.data e)
        licenses := h10 (congrArg Service.licenses e)
        externalReferences := h11 (congrArg Service.externalReferences e)
        properties := h12 (congrArg Service.properties e)
        services := h13 (congrArg Service.services e)
        signature := fun _ => h14 (congrArg Service.signature e)
        trustZone := fun _ => h15 (congrArg Service.trustZone e) }

variable [ReadLimit]

theorem Service.xml_onlyN (v : SpecVersion) {ns : Option String} : ∀ {n : Nat} {x : Service},
    Tells ns (Service.writeXml v x) "service" (Service.readXmlN v n)
      (fun y => y = x.at v → Service.XmlOkN v n x)
  | 0, _ => tells_error (Service.xml_one fun _ => rfl) fun _ _ => ⟨_, fun _ => rfl⟩
  | _ + 1, _ => Service.xml_onlyWith v fun _ => Service.xml_onlyN v

theorem Service.xml_only (v : SpecVersion) {ns : Option String} {x : Service} :
    Tells ns (Service.writeXml v x) "service" (Service.readXml v)
      (fun y => y = x.at v → Service.XmlOk v x) := Service.xml_onlyN v

end Cdx
