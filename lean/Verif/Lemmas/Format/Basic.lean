import Verif.Lemmas.Xml
import Verif.Lemmas.Json
import Verif.Spec.Format.Basic

set_option linter.unusedSectionVars false
set_option linter.unusedSimpArgs false
set_option linter.unusedVariables false

/-!
# Lemmas on the file formats: texts, hashes, properties, organizations, references
-/

namespace Cdx

theorem AttachedText.json_ne_null {x : AttachedText} :
    AttachedText.toJson x ≠ .null := Json.mk_ne_null _

theorem AttachedText.json_rt {x : AttachedText} (h : AttachedText.JsonOk x) :
    AttachedText.ofJson (AttachedText.toJson x) = .ok x := by
  have hn : ["contentType", "encoding", "content"].Nodup := by decide
  refine bindOk (Json.fields_mk _) ?_
  refine bindOk (Json.opt_id hn (.head _) (fun y1 hy1 => Json.str_ne_null)
      (fun y1 hy1 => rfl)) ?_
  refine bindOk (Json.opt_id hn (.tail _ (.head _)) (fun y2 hy2 => Json.str_ne_null)
      (fun y2 hy2 => Json.enum_rt (h.encoding y2 hy2))) ?_
  refine bindOk (Json.req_mk hn (.tail _ (.tail _ (.head _))) (rfl)) ?_
  rfl

theorem AttachedText.xml_one {loose : Bool} {tag : String} {x : AttachedText} :
    OneElement loose tag (AttachedText.writeXml tag x) :=
  writeElem_one (goodAttrs (by decide : ["content-type", "encoding"].Nodup)) (.chars _)

theorem AttachedText.xml_wf {loose : Bool} {tag : String} {x : AttachedText} :
    WellFormed loose (AttachedText.writeXml tag x) := AttachedText.xml_one.wf

theorem AttachedText.xml_local {tag : String} : LocalAt tag AttachedText.readXml :=
  readWith_local readInner_local

theorem AttachedText.xml_reads {ns : Option String} {tag : String} {x : AttachedText} (h : AttachedText.XmlOk x) :
    Reads ns (AttachedText.writeXml tag x) tag AttachedText.readXml x := by
  have ha : ["content-type", "encoding"].Nodup := by decide
  refine reads_with (p := (x.contentType, x.encoding.map Encoding.display)) (reads_inner h.content) ?_ ?_
  · exact congrArg Except.ok (congrPair (optAttr_mk ha (.head _)) (optAttr_mk ha (.tail _ (.head _))))
  · dsimp only
    rw [map_stable h.encoding]

theorem Property.json_ne_null {x : Property} :
    Property.toJson x ≠ .null := Json.mk_ne_null _

theorem Property.json_rt {x : Property} :
    Property.ofJson (Property.toJson x) = .ok x := by
  have hn : ["name", "value"].Nodup := by decide
  refine bindOk (Json.fields_mk _) ?_
  refine bindOk (Json.req_mk hn (.head _) (rfl)) ?_
  refine bindOk (Json.req_mk hn (.tail _ (.head _)) (rfl)) ?_
  rfl

theorem Property.xml_one {loose : Bool} {x : Property} :
    OneElement loose "property" (Property.writeXml x) :=
  writeElem_one (goodAttrs (by decide : ["name"].Nodup)) (.chars _)

theorem Property.xml_wf {loose : Bool} {x : Property} :
    WellFormed loose (Property.writeXml x) := Property.xml_one.wf

theorem Property.xml_local {tag : String} : LocalAt tag Property.readXml :=
  readWith_local readSimple_local

theorem Property.xml_reads {ns : Option String} {x : Property} (h : Property.XmlOk x) :
    Reads ns (Property.writeXml x) "property" Property.readXml x := by
  have ha : ["name"].Nodup := by decide
  refine reads_with (p := (x.name)) (reads_text h.value) ?_ ?_
  · refine bindOk (reqAttr_mk ha (.head _)) ?_
    exact congrArg Except.ok rfl
  · rfl

theorem Hash.json_ne_null {x : Hash} :
    Hash.toJson x ≠ .null := Json.mk_ne_null _

theorem Hash.json_rt {x : Hash} (h : Hash.JsonOk x) :
    Hash.ofJson (Hash.toJson x) = .ok x := by
  have hn : ["alg", "content"].Nodup := by decide
  refine bindOk (Json.fields_mk _) ?_
  refine bindOk (Json.req_mk hn (.head _) (Json.enum_rt h.alg)) ?_
  refine bindOk (Json.req_mk hn (.tail _ (.head _)) (rfl)) ?_
  rfl

theorem Hash.xml_one {loose : Bool} {x : Hash} :
    OneElement loose "hash" (Hash.writeXml x) :=
  writeElem_one (goodAttrs (by decide : ["alg"].Nodup)) (.chars _)

theorem Hash.xml_wf {loose : Bool} {x : Hash} :
    WellFormed loose (Hash.writeXml x) := Hash.xml_one.wf

theorem Hash.xml_local {tag : String} : LocalAt tag Hash.readXml :=
  readWith_local readSimple_local

theorem Hash.xml_reads {ns : Option String} {x : Hash} (h : Hash.XmlOk x) :
    Reads ns (Hash.writeXml x) "hash" Hash.readXml x := by
  have ha : ["alg"].Nodup := by decide
  refine reads_with (p := (HashAlgorithm.display x.alg)) (reads_text h.content) ?_ ?_
  · refine bindOk (reqAttr_mk ha (.head _)) ?_
    exact congrArg Except.ok rfl
  · show _ = _
    rw [show HashAlgorithm.new (HashAlgorithm.display x.alg) = x.alg from h.alg]

theorem OrganizationalContact.json_ne_null {x : OrganizationalContact} :
    OrganizationalContact.toJson x ≠ .null := Json.mk_ne_null _

theorem OrganizationalContact.json_rt {x : OrganizationalContact} :
    OrganizationalContact.ofJson (OrganizationalContact.toJson x) = .ok x := by
  have hn : ["bomRef", "name", "email", "phone"].Nodup := by decide
  refine bindOk (Json.fields_mk _) ?_
  refine bindOk (Json.opt_id hn (.head _) (fun y4 hy4 => Json.str_ne_null)
      (fun y4 hy4 => rfl)) ?_
  refine bindOk (Json.opt_id hn (.tail _ (.head _)) (fun y5 hy5 => Json.str_ne_null)
      (fun y5 hy5 => rfl)) ?_
  refine bindOk (Json.opt_id hn (.tail _ (.tail _ (.head _))) (fun y6 hy6 => Json.str_ne_null)
      (fun y6 hy6 => rfl)) ?_
  refine bindOk (Json.opt_id hn (.tail _ (.tail _ (.tail _ (.head _)))) (fun y7 hy7 => Json.str_ne_null)
      (fun y7 hy7 => rfl)) ?_
  rfl

theorem OrganizationalContact.xml_body_wf {loose : Bool} {x : OrganizationalContact} : WellFormed loose (
    (writeOpt (writeSimple "name") x.name) ++
    ((writeOpt (writeSimple "email") x.email) ++
    ((writeOpt (writeSimple "phone") x.phone)))) :=
  (.append (writeOpt_wf fun _ _ => writeSimple_wf)
    (.append (writeOpt_wf fun _ _ => writeSimple_wf)
    (writeOpt_wf fun _ _ => writeSimple_wf)))

theorem OrganizationalContact.xml_one {loose : Bool} {tag : String} {x : OrganizationalContact} :
    OneElement loose tag (OrganizationalContact.writeXml tag x) :=
  writeElem_one (goodAttrs (by decide : ["bom-ref"].Nodup)) (OrganizationalContact.xml_body_wf)

theorem OrganizationalContact.xml_wf {loose : Bool} {tag : String} {x : OrganizationalContact} :
    WellFormed loose (OrganizationalContact.writeXml tag x) :=
  (OrganizationalContact.xml_one).wf

theorem OrganizationalContact.arms_local :
    ∀ p ∈ OrganizationalContact.arms, LocalArm p.1 p.2 :=
  (armsCons (arm_local readSimple_local _)
    (armsCons (arm_local readSimple_local _)
    (armsCons (arm_local readSimple_local _)
    armsNil)))

theorem OrganizationalContact.xml_local {tag : String} :
    LocalAt tag OrganizationalContact.readXml :=
  readStruct_local (by simp) (OrganizationalContact.arms_local)

theorem OrganizationalContact.xml_reads {ns : Option String} {tag : String} {x : OrganizationalContact} (h : OrganizationalContact.XmlOk x) :
    Reads ns (OrganizationalContact.writeXml tag x) tag OrganizationalContact.readXml x := by
  have hn : ["name", "email", "phone"].Nodup := by decide
  have ha : ["bom-ref"].Nodup := by decide
  refine reads_struct (p := (x.bomRef)) (OrganizationalContact.xml_body_wf) ?_
      (Goes.append (Goes.opt (fun o s => { s with name := o }) (.head _) hn (fun _ => rfl) rfl
          (fun y11 hy11 => reads_simple (h.name y11 hy11)))
        (Goes.append (Goes.opt (fun o s => { s with email := o }) (.tail _ (.head _)) hn (fun _ => rfl) rfl
          (fun y12 hy12 => reads_simple (h.email y12 hy12)))
        (Goes.opt (fun o s => { s with phone := o }) (.tail _ (.tail _ (.head _))) hn (fun _ => rfl) rfl
          (fun y13 hy13 => reads_simple (h.phone y13 hy13)))
        (writeOpt_wf fun _ _ => writeSimple_wf))
        (writeOpt_wf fun _ _ => writeSimple_wf)) ?_
  · exact congrArg Except.ok (optAttr_mk ha (.head _))
  · rfl

theorem OrganizationalEntity.json_ne_null {x : OrganizationalEntity} :
    OrganizationalEntity.toJson x ≠ .null := Json.mk_ne_null _

theorem OrganizationalEntity.json_rt {x : OrganizationalEntity} :
    OrganizationalEntity.ofJson (OrganizationalEntity.toJson x) = .ok x := by
  have hn : ["bomRef", "name", "url", "contact"].Nodup := by decide
  refine bindOk (Json.fields_mk _) ?_
  refine bindOk (Json.opt_id hn (.head _) (fun y14 hy14 => Json.str_ne_null)
      (fun y14 hy14 => rfl)) ?_
  refine bindOk (Json.opt_id hn (.tail _ (.head _)) (fun y15 hy15 => Json.str_ne_null)
      (fun y15 hy15 => rfl)) ?_
  refine bindOk (Json.opt_id hn (.tail _ (.tail _ (.head _))) (fun y16 hy16 => Json.ofList_ne_null)
      (fun y16 hy16 => Json.array_id (fun y17 hy17 => rfl))) ?_
  refine bindOk (Json.opt_id hn (.tail _ (.tail _ (.tail _ (.head _)))) (fun y18 hy18 => Json.ofList_ne_null)
      (fun y18 hy18 => Json.array_id (fun y19 hy19 => OrganizationalContact.json_rt))) ?_
  rfl

theorem OrganizationalEntity.xml_body_wf {loose : Bool} {x : OrganizationalEntity} : WellFormed loose (
    (writeOpt (writeSimple "name") x.name) ++
    ((writeOpt (fun l => l.flatMap (writeSimple "url")) x.url) ++
    ((writeOpt (fun l => l.flatMap (fun c => if OrganizationalContact.willWrite c then OrganizationalContact.writeXml "contact" c else [])) x.contact)))) :=
  (.append (writeOpt_wf fun _ _ => writeSimple_wf)
    (.append (writeOpt_wf fun _ _ => flatMap_wf fun _ _ => writeSimple_wf)
    (writeOpt_wf fun _ _ => flatMap_wf fun _ _ => (if_wf OrganizationalContact.xml_wf))))

theorem OrganizationalEntity.xml_one {loose : Bool} {tag : String} {x : OrganizationalEntity} :
    OneElement loose tag (OrganizationalEntity.writeXml tag x) :=
  writeElem_one (goodAttrs (by decide : ["bom-ref"].Nodup)) (OrganizationalEntity.xml_body_wf)

theorem OrganizationalEntity.xml_wf {loose : Bool} {tag : String} {x : OrganizationalEntity} :
    WellFormed loose (OrganizationalEntity.writeXml tag x) :=
  (OrganizationalEntity.xml_one).wf

theorem OrganizationalEntity.arms_local :
    ∀ p ∈ OrganizationalEntity.arms, LocalArm p.1 p.2 :=
  (armsCons (arm_local readSimple_local _)
    (armsCons (arm_local readSimple_local _)
    (armsCons (arm_local OrganizationalContact.xml_local _)
    armsNil)))

theorem OrganizationalEntity.xml_local {tag : String} :
    LocalAt tag OrganizationalEntity.readXml :=
  readStruct_local (by simp) (OrganizationalEntity.arms_local)

theorem OrganizationalEntity.xml_reads {ns : Option String} {tag : String} {x : OrganizationalEntity} (h : OrganizationalEntity.XmlOk x) :
    Reads ns (OrganizationalEntity.writeXml tag x) tag OrganizationalEntity.readXml x := by
  have hn : ["name", "url", "contact"].Nodup := by decide
  have ha : ["bom-ref"].Nodup := by decide
  refine reads_struct (p := (x.bomRef)) (OrganizationalEntity.xml_body_wf) ?_
      (Goes.append (Goes.opt (fun o s => { s with name := o }) (.head _) hn (fun _ => rfl) rfl
          (fun y25 hy25 => reads_simple (h.name y25 hy25)))
        (Goes.append (Goes.inline (fun o s => { s with url := o }) (.tail _ (.head _)) hn (fun _ => rfl) (fun _ _ => rfl) rfl h.url_ne
          (fun l26 hl26 y27 hy27 => reads_simple (h.url l26 hl26 y27 hy27)) (fun _ _ => writeSimple_wf))
        (Goes.inline (fun o s => { s with contact := o }) (.tail _ (.tail _ (.head _))) hn (fun _ => rfl) (fun _ _ => rfl) rfl h.contact_ne
          (fun l28 hl28 y29 hy29 => reads_if (h.contact l28 hl28 y29 hy29).2 (OrganizationalContact.xml_reads (h.contact l28 hl28 y29 hy29).1)) (fun _ _ => (if_wf OrganizationalContact.xml_wf)))
        (writeOpt_wf fun _ _ => flatMap_wf fun _ _ => writeSimple_wf))
        (writeOpt_wf fun _ _ => writeSimple_wf)) ?_
  · exact congrArg Except.ok (optAttr_mk ha (.head _))
  · rfl

theorem ExternalReference.json_ne_null {x : ExternalReference} :
    ExternalReference.toJson x ≠ .null := Json.mk_ne_null _

theorem ExternalReference.json_rt {x : ExternalReference} (h : ExternalReference.JsonOk x) :
    ExternalReference.ofJson (ExternalReference.toJson x) = .ok x := by
  have hn : ["type", "url", "comment", "hashes"].Nodup := by decide
  refine bindOk (Json.fields_mk _) ?_
  refine bindOk (Json.req_mk hn (.head _) (Json.enum_rt h.externalReferenceType)) ?_
  refine bindOk (Json.req_mk hn (.tail _ (.head _)) (Json.enum_rt h.url)) ?_
  refine bindOk (Json.opt_id hn (.tail _ (.tail _ (.head _))) (fun y32 hy32 => Json.str_ne_null)
      (fun y32 hy32 => rfl)) ?_
  refine bindOk (Json.opt_id hn (.tail _ (.tail _ (.tail _ (.head _)))) (fun y33 hy33 => Json.ofList_ne_null)
      (fun y33 hy33 => Json.array_id (fun y34 hy34 => Hash.json_rt ((h.hashes y33 hy33) y34 hy34)))) ?_
  rfl

theorem ExternalReference.xml_body_wf {loose : Bool} {x : ExternalReference} : WellFormed loose (
    ((fun e => writeSimple "url" (RefUri.display e)) x.url) ++
    ((writeOpt (writeSimple "comment") x.comment) ++
    ((writeOpt (writeList "hashes" Hash.writeXml) x.hashes)))) :=
  (.append (writeSimple_wf)
    (.append (writeOpt_wf fun _ _ => writeSimple_wf)
    (writeOpt_wf fun _ _ => (writeList_wf fun _ _ => Hash.xml_wf))))

theorem ExternalReference.xml_one {loose : Bool} {x : ExternalReference} :
    OneElement loose "reference" (ExternalReference.writeXml x) :=
  writeElem_one (goodAttrs (by decide : ["type"].Nodup)) (ExternalReference.xml_body_wf)

theorem ExternalReference.xml_wf {loose : Bool} {x : ExternalReference} :
    WellFormed loose (ExternalReference.writeXml x) :=
  (ExternalReference.xml_one).wf

theorem ExternalReference.arms_local :
    ∀ p ∈ ExternalReference.arms, LocalArm p.1 p.2 :=
  (armsCons (arm_local (map_local readSimple_local RefUri.ofUrl) _)
    (armsCons (arm_local readSimple_local _)
    (armsCons (arm_local (readList_local Hash.xml_local) _)
    armsNil)))

theorem ExternalReference.xml_local {tag : String} :
    LocalAt tag ExternalReference.readXml :=
  readStruct_local (by simp) (ExternalReference.arms_local)

theorem ExternalReference.xml_reads {ns : Option String} {x : ExternalReference} (h : ExternalReference.XmlOk x) :
    Reads ns (ExternalReference.writeXml x) "reference" ExternalReference.readXml x := by
  have hn : ["url", "comment", "hashes"].Nodup := by decide
  have ha : ["type"].Nodup := by decide
  refine reads_struct (p := (ExternalReferenceType.display x.externalReferenceType)) (ExternalReference.xml_body_wf) ?_
      (Goes.append (Goes.one (reads_enum h.url) (.head _) hn)
        (Goes.append (Goes.opt (fun o s => { s with comment := o }) (.tail _ (.head _)) hn (fun _ => rfl) rfl
          (fun y38 hy38 => reads_simple (h.comment y38 hy38)))
        (Goes.opt (fun o s => { s with hashes := o }) (.tail _ (.tail _ (.head _))) hn (fun _ => rfl) rfl
          (fun y39 hy39 => reads_list (fun y40 hy40 => Hash.xml_reads ((h.hashes y39 hy39) y40 hy40)) (fun _ _ => Hash.xml_wf)))
        (writeOpt_wf fun _ _ => writeSimple_wf))
        (writeSimple_wf)) ?_
  · refine bindOk (reqAttr_mk ha (.head _)) ?_
    exact congrArg Except.ok rfl
  · show Except.ok _ = Except.ok _
    apply congrArg Except.ok
    rw [show ExternalReferenceType.new (ExternalReferenceType.display x.externalReferenceType) = x.externalReferenceType from h.externalReferenceType]

theorem VulnerabilitySource.json_ne_null {x : VulnerabilitySource} :
    VulnerabilitySource.toJson x ≠ .null := Json.mk_ne_null _

theorem VulnerabilitySource.json_rt {x : VulnerabilitySource} :
    VulnerabilitySource.ofJson (VulnerabilitySource.toJson x) = .ok x := by
  have hn : ["name", "url"].Nodup := by decide
  refine bindOk (Json.fields_mk _) ?_
  refine bindOk (Json.opt_id hn (.head _) (fun y41 hy41 => Json.str_ne_null)
      (fun y41 hy41 => rfl)) ?_
  refine bindOk (Json.opt_id hn (.tail _ (.head _)) (fun y42 hy42 => Json.str_ne_null)
      (fun y42 hy42 => rfl)) ?_
  rfl

theorem VulnerabilitySource.xml_body_wf {loose : Bool} {x : VulnerabilitySource} : WellFormed loose (
    (writeOpt (writeSimple "name") x.name) ++
    ((writeOpt (writeSimple "url") x.url))) :=
  (.append (writeOpt_wf fun _ _ => writeSimple_wf)
    (writeOpt_wf fun _ _ => writeSimple_wf))

theorem VulnerabilitySource.xml_one {loose : Bool} {x : VulnerabilitySource} :
    OneElement loose "source" (VulnerabilitySource.writeXml x) :=
  writeElem_one goodNil (VulnerabilitySource.xml_body_wf)

theorem VulnerabilitySource.xml_wf {loose : Bool} {x : VulnerabilitySource} :
    WellFormed loose (VulnerabilitySource.writeXml x) :=
  (VulnerabilitySource.xml_one).wf

theorem VulnerabilitySource.arms_local :
    ∀ p ∈ VulnerabilitySource.arms, LocalArm p.1 p.2 :=
  (armsCons (arm_local readSimple_local _)
    (armsCons (arm_local readSimple_local _)
    armsNil))

theorem VulnerabilitySource.xml_local {tag : String} :
    LocalAt tag VulnerabilitySource.readXml :=
  readStruct_local (by simp) (VulnerabilitySource.arms_local)

theorem VulnerabilitySource.xml_reads {ns : Option String} {x : VulnerabilitySource} (h : VulnerabilitySource.XmlOk x) :
    Reads ns (VulnerabilitySource.writeXml x) "source" VulnerabilitySource.readXml x := by
  have hn : ["name", "url"].Nodup := by decide
  refine reads_struct (VulnerabilitySource.xml_body_wf) rfl
      (Goes.append (Goes.opt (fun o s => { s with name := o }) (.head _) hn (fun _ => rfl) rfl
          (fun y45 hy45 => reads_simple (h.name y45 hy45)))
        (Goes.opt (fun o s => { s with url := o }) (.tail _ (.head _)) hn (fun _ => rfl) rfl
          (fun y46 hy46 => reads_simple (h.url y46 hy46)))
        (writeOpt_wf fun _ _ => writeSimple_wf)) ?_
  rfl

theorem VulnerabilityReference.json_ne_null {x : VulnerabilityReference} :
    VulnerabilityReference.toJson x ≠ .null := Json.mk_ne_null _

theorem VulnerabilityReference.json_rt {x : VulnerabilityReference} :
    VulnerabilityReference.ofJson (VulnerabilityReference.toJson x) = .ok x := by
  have hn : ["id", "source"].Nodup := by decide
  refine bindOk (Json.fields_mk _) ?_
  refine bindOk (Json.req_mk hn (.head _) (rfl)) ?_
  refine bindOk (Json.req_mk hn (.tail _ (.head _)) (VulnerabilitySource.json_rt)) ?_
  rfl

theorem VulnerabilityReference.xml_body_wf {loose : Bool} {x : VulnerabilityReference} : WellFormed loose (
    ((writeSimple "id") x.id) ++
    ((VulnerabilitySource.writeXml x.vulnerabilitySource))) :=
  (.append (writeSimple_wf)
    (VulnerabilitySource.xml_wf))

theorem VulnerabilityReference.xml_one {loose : Bool} {x : VulnerabilityReference} :
    OneElement loose "reference" (VulnerabilityReference.writeXml x) :=
  writeElem_one goodNil (VulnerabilityReference.xml_body_wf)

theorem VulnerabilityReference.xml_wf {loose : Bool} {x : VulnerabilityReference} :
    WellFormed loose (VulnerabilityReference.writeXml x) :=
  (VulnerabilityReference.xml_one).wf

theorem VulnerabilityReference.arms_local :
    ∀ p ∈ VulnerabilityReference.arms, LocalArm p.1 p.2 :=
  (armsCons (arm_local readSimple_local _)
    (armsCons (arm_local VulnerabilitySource.xml_local _)
    armsNil))

theorem VulnerabilityReference.xml_local {tag : String} :
    LocalAt tag VulnerabilityReference.readXml :=
  readStruct_local (by simp) (VulnerabilityReference.arms_local)

theorem VulnerabilityReference.xml_reads {ns : Option String} {x : VulnerabilityReference} (h : VulnerabilityReference.XmlOk x) :
    Reads ns (VulnerabilityReference.writeXml x) "reference" VulnerabilityReference.readXml x := by
  have hn : ["id", "source"].Nodup := by decide
  refine reads_struct (VulnerabilityReference.xml_body_wf) rfl
      (Goes.append (Goes.one (reads_simple h.id) (.head _) hn)
        (Goes.one (VulnerabilitySource.xml_reads h.vulnerabilitySource) (.tail _ (.head _)) hn)
        (writeSimple_wf)) ?_
  rfl

theorem Advisory.json_ne_null {x : Advisory} :
    Advisory.toJson x ≠ .null := Json.mk_ne_null _

theorem Advisory.json_rt {x : Advisory} :
    Advisory.ofJson (Advisory.toJson x) = .ok x := by
  have hn : ["title", "url"].Nodup := by decide
  refine bindOk (Json.fields_mk _) ?_
  refine bindOk (Json.opt_id hn (.head _) (fun y47 hy47 => Json.str_ne_null)
      (fun y47 hy47 => rfl)) ?_
  refine bindOk (Json.req_mk hn (.tail _ (.head _)) (rfl)) ?_
  rfl

theorem Advisory.xml_body_wf {loose : Bool} {x : Advisory} : WellFormed loose (
    (writeOpt (writeSimple "title") x.title) ++
    (((writeSimple "url") x.url))) :=
  (.append (writeOpt_wf fun _ _ => writeSimple_wf)
    (writeSimple_wf))

theorem Advisory.xml_one {loose : Bool} {x : Advisory} :
    OneElement loose "advisory" (Advisory.writeXml x) :=
  writeElem_one goodNil (Advisory.xml_body_wf)

theorem Advisory.xml_wf {loose : Bool} {x : Advisory} :
    WellFormed loose (Advisory.writeXml x) :=
  (Advisory.xml_one).wf

theorem Advisory.arms_local :
    ∀ p ∈ Advisory.arms, LocalArm p.1 p.2 :=
  (armsCons (arm_local readSimple_local _)
    (armsCons (arm_local readSimple_local _)
    armsNil))

theorem Advisory.xml_local {tag : String} :
    LocalAt tag Advisory.readXml :=
  readStruct_local (by simp) (Advisory.arms_local)

theorem Advisory.xml_reads {ns : Option String} {x : Advisory} (h : Advisory.XmlOk x) :
    Reads ns (Advisory.writeXml x) "advisory" Advisory.readXml x := by
  have hn : ["title", "url"].Nodup := by decide
  refine reads_struct (Advisory.xml_body_wf) rfl
      (Goes.append (Goes.opt (fun o s => { s with title := o }) (.head _) hn (fun _ => rfl) rfl
          (fun y49 hy49 => reads_simple (h.title y49 hy49)))
        (Goes.one (reads_simple h.url) (.tail _ (.head _)) hn)
        (writeOpt_wf fun _ _ => writeSimple_wf)) ?_
  rfl

theorem VulnerabilityCredits.json_ne_null {x : VulnerabilityCredits} :
    VulnerabilityCredits.toJson x ≠ .null := Json.mk_ne_null _

theorem VulnerabilityCredits.json_rt {x : VulnerabilityCredits} :
    VulnerabilityCredits.ofJson (VulnerabilityCredits.toJson x) = .ok x := by
  have hn : ["organizations", "individuals"].Nodup := by decide
  refine bindOk (Json.fields_mk _) ?_
  refine bindOk (Json.opt_id hn (.head _) (fun y50 hy50 => Json.ofList_ne_null)
      (fun y50 hy50 => Json.array_id (fun y51 hy51 => OrganizationalEntity.json_rt))) ?_
  refine bindOk (Json.opt_id hn (.tail _ (.head _)) (fun y52 hy52 => Json.ofList_ne_null)
      (fun y52 hy52 => Json.array_id (fun y53 hy53 => OrganizationalContact.json_rt))) ?_
  rfl

theorem VulnerabilityCredits.xml_body_wf {loose : Bool} {x : VulnerabilityCredits} : WellFormed loose (
    (writeOpt (writeList "organizations" (fun c => if OrganizationalEntity.willWrite c then OrganizationalEntity.writeXml "organization" c else [])) x.organizations) ++
    ((writeOpt (writeList "individuals" (fun c => if OrganizationalContact.willWrite c then OrganizationalContact.writeXml "individual" c else [])) x.individuals))) :=
  (.append (writeOpt_wf fun _ _ => (writeList_wf fun _ _ => (if_wf OrganizationalEntity.xml_wf)))
    (writeOpt_wf fun _ _ => (writeList_wf fun _ _ => (if_wf OrganizationalContact.xml_wf))))

theorem VulnerabilityCredits.xml_one {loose : Bool} {x : VulnerabilityCredits} :
    OneElement loose "credits" (VulnerabilityCredits.writeXml x) :=
  writeElem_one goodNil (VulnerabilityCredits.xml_body_wf)

theorem VulnerabilityCredits.xml_wf {loose : Bool} {x : VulnerabilityCredits} :
    WellFormed loose (VulnerabilityCredits.writeXml x) :=
  (VulnerabilityCredits.xml_one).wf

theorem VulnerabilityCredits.arms_local :
    ∀ p ∈ VulnerabilityCredits.arms, LocalArm p.1 p.2 :=
  (armsCons (arm_local (readList_local OrganizationalEntity.xml_local) _)
    (armsCons (arm_local (readList_local OrganizationalContact.xml_local) _)
    armsNil))

theorem VulnerabilityCredits.xml_local {tag : String} :
    LocalAt tag VulnerabilityCredits.readXml :=
  readStruct_local (by simp) (VulnerabilityCredits.arms_local)

theorem VulnerabilityCredits.xml_reads {ns : Option String} {x : VulnerabilityCredits} (h : VulnerabilityCredits.XmlOk x) :
    Reads ns (VulnerabilityCredits.writeXml x) "credits" VulnerabilityCredits.readXml x := by
  have hn : ["organizations", "individuals"].Nodup := by decide
  refine reads_struct (VulnerabilityCredits.xml_body_wf) rfl
      (Goes.append (Goes.opt (fun o s => { s with organizations := o }) (.head _) hn (fun _ => rfl) rfl
          (fun y58 hy58 => reads_list (fun y59 hy59 => reads_if ((h.organizations y58 hy58) y59 hy59).2 (OrganizationalEntity.xml_reads ((h.organizations y58 hy58) y59 hy59).1)) (fun _ _ => (if_wf OrganizationalEntity.xml_wf))))
        (Goes.opt (fun o s => { s with individuals := o }) (.tail _ (.head _)) hn (fun _ => rfl) rfl
          (fun y60 hy60 => reads_list (fun y61 hy61 => reads_if ((h.individuals y60 hy60) y61 hy61).2 (OrganizationalContact.xml_reads ((h.individuals y60 hy60) y61 hy61).1)) (fun _ _ => (if_wf OrganizationalContact.xml_wf))))
        (writeOpt_wf fun _ _ => (writeList_wf fun _ _ => (if_wf OrganizationalEntity.xml_wf)))) ?_
  rfl

end Cdx
