import Verif.Lemmas.Xml
import Verif.Lemmas.Json
import Verif.Spec.Format.Data
import Verif.Lemmas.Format.Parts

set_option linter.unusedSectionVars false
set_option linter.unusedSimpArgs false
set_option linter.unusedVariables false

/-!
# Lemmas on the file formats: data, model cards, lifecycles
-/

namespace Cdx

theorem DataGovernanceResponsibleParty.json_ne_null {x : DataGovernanceResponsibleParty} : DataGovernanceResponsibleParty.toJson x ≠ .null := by cases x <;> exact nofun

theorem DataGovernanceResponsibleParty.json_rt {x : DataGovernanceResponsibleParty} :
    DataGovernanceResponsibleParty.ofJson (DataGovernanceResponsibleParty.toJson x) = .ok (x) := by
  cases x with
  | organization y => exact Json.map_ok (OrganizationalEntity.json_rt)
  | contact y => exact Json.map_ok (OrganizationalContact.json_rt)

theorem DataGovernanceResponsibleParty.xml_inner_wf {loose : Bool} {x : DataGovernanceResponsibleParty} : WellFormed loose (DataGovernanceResponsibleParty.writeInner x) := by
  cases x with
  | organization y => exact OrganizationalEntity.xml_wf
  | contact y => exact OrganizationalContact.xml_wf

theorem DataGovernanceResponsibleParty.xml_one {loose : Bool} {tag : String} {x : DataGovernanceResponsibleParty} :
    OneElement loose tag (DataGovernanceResponsibleParty.writeXml tag x) := writeElem_one goodNil (DataGovernanceResponsibleParty.xml_inner_wf)

theorem DataGovernanceResponsibleParty.xml_wf {loose : Bool} {tag : String} {x : DataGovernanceResponsibleParty} :
    WellFormed loose (DataGovernanceResponsibleParty.writeXml tag x) := (DataGovernanceResponsibleParty.xml_one).wf

theorem DataGovernanceResponsibleParty.arms_local :
    ∀ p ∈ DataGovernanceResponsibleParty.arms, LocalArm p.1 p.2 :=
  (armsCons (arm_local OrganizationalEntity.xml_local _)
    (armsCons (arm_local OrganizationalContact.xml_local _)
    armsNil))

theorem DataGovernanceResponsibleParty.xml_local {tag : String} :
    LocalAt tag DataGovernanceResponsibleParty.readXml :=
  readStruct_local (by simp) (DataGovernanceResponsibleParty.arms_local)

theorem DataGovernanceResponsibleParty.xml_reads {ns : Option String} {tag : String} {x : DataGovernanceResponsibleParty} (h : DataGovernanceResponsibleParty.XmlOk x) :
    Reads ns (DataGovernanceResponsibleParty.writeXml tag x) tag DataGovernanceResponsibleParty.readXml x := by
  have hn : ["organization", "contact"].Nodup := by decide
  cases x with
  | organization y => exact reads_struct (DataGovernanceResponsibleParty.xml_inner_wf) rfl (Goes.one (OrganizationalEntity.xml_reads h) (.head _) hn) rfl
  | contact y => exact reads_struct (DataGovernanceResponsibleParty.xml_inner_wf) rfl (Goes.one (OrganizationalContact.xml_reads h) (.tail _ (.head _)) hn) rfl

theorem DataGovernance.json_ne_null {x : DataGovernance} :
    DataGovernance.toJson x ≠ .null := Json.mk_ne_null _

theorem DataGovernance.json_rt {x : DataGovernance} :
    DataGovernance.ofJson (DataGovernance.toJson x) = .ok x := by
  have hn : ["custodians", "stewards", "owners"].Nodup := by decide
  refine bindOk (Json.fields_mk _) ?_
  refine bindOk (Json.opt_id hn (.head _) (fun y297 hy297 => Json.ofList_ne_null)
      (fun y297 hy297 => Json.array_id (fun y298 hy298 => DataGovernanceResponsibleParty.json_rt))) ?_
  refine bindOk (Json.opt_id hn (.tail _ (.head _)) (fun y299 hy299 => Json.ofList_ne_null)
      (fun y299 hy299 => Json.array_id (fun y300 hy300 => DataGovernanceResponsibleParty.json_rt))) ?_
  refine bindOk (Json.opt_id hn (.tail _ (.tail _ (.head _))) (fun y301 hy301 => Json.ofList_ne_null)
      (fun y301 hy301 => Json.array_id (fun y302 hy302 => DataGovernanceResponsibleParty.json_rt))) ?_
  rfl

theorem DataGovernance.xml_body_wf {loose : Bool} {x : DataGovernance} : WellFormed loose (
    (writeOpt (writeList "owners" (DataGovernanceResponsibleParty.writeXml "owner")) x.owners) ++
    ((writeOpt (writeList "custodians" (DataGovernanceResponsibleParty.writeXml "custodian")) x.custodians) ++
    ((writeOpt (writeList "stewards" (DataGovernanceResponsibleParty.writeXml "steward")) x.stewards)))) :=
  (.append (writeOpt_wf fun _ _ => (writeList_wf fun _ _ => DataGovernanceResponsibleParty.xml_wf))
    (.append (writeOpt_wf fun _ _ => (writeList_wf fun _ _ => DataGovernanceResponsibleParty.xml_wf))
    (writeOpt_wf fun _ _ => (writeList_wf fun _ _ => DataGovernanceResponsibleParty.xml_wf))))

theorem DataGovernance.xml_one {loose : Bool} {tag : String} {x : DataGovernance} :
    OneElement loose tag (DataGovernance.writeXml tag x) :=
  writeElem_one goodNil (DataGovernance.xml_body_wf)

theorem DataGovernance.xml_wf {loose : Bool} {tag : String} {x : DataGovernance} :
    WellFormed loose (DataGovernance.writeXml tag x) :=
  (DataGovernance.xml_one).wf

theorem DataGovernance.arms_local :
    ∀ p ∈ DataGovernance.arms, LocalArm p.1 p.2 :=
  (armsCons (arm_local (readList_local DataGovernanceResponsibleParty.xml_local) _)
    (armsCons (arm_local (readList_local DataGovernanceResponsibleParty.xml_local) _)
    (armsCons (arm_local (readList_local DataGovernanceResponsibleParty.xml_local) _)
    armsNil)))

theorem DataGovernance.xml_local {tag : String} (ht : tag ∈ ignoring) :
    LocalAt tag DataGovernance.readXml :=
  readStruct_local (fun _ => ht) (DataGovernance.arms_local)

theorem DataGovernance.xml_reads {ns : Option String} {tag : String} {x : DataGovernance} (h : DataGovernance.XmlOk x) :
    Reads ns (DataGovernance.writeXml tag x) tag DataGovernance.readXml x := by
  have hn : ["owners", "custodians", "stewards"].Nodup := by decide
  refine reads_struct (DataGovernance.xml_body_wf) rfl
      (Goes.append (Goes.opt (fun o s => { s with owners := o }) (.head _) hn (fun _ => rfl) rfl
          (fun y309 hy309 => reads_list (fun y310 hy310 => DataGovernanceResponsibleParty.xml_reads ((h.owners y309 hy309) y310 hy310)) (fun _ _ => DataGovernanceResponsibleParty.xml_wf)))
        (Goes.append (Goes.opt (fun o s => { s with custodians := o }) (.tail _ (.head _)) hn (fun _ => rfl) rfl
          (fun y311 hy311 => reads_list (fun y312 hy312 => DataGovernanceResponsibleParty.xml_reads ((h.custodians y311 hy311) y312 hy312)) (fun _ _ => DataGovernanceResponsibleParty.xml_wf)))
        (Goes.opt (fun o s => { s with stewards := o }) (.tail _ (.tail _ (.head _))) hn (fun _ => rfl) rfl
          (fun y313 hy313 => reads_list (fun y314 hy314 => DataGovernanceResponsibleParty.xml_reads ((h.stewards y313 hy313) y314 hy314)) (fun _ _ => DataGovernanceResponsibleParty.xml_wf)))
        (writeOpt_wf fun _ _ => (writeList_wf fun _ _ => DataGovernanceResponsibleParty.xml_wf)))
        (writeOpt_wf fun _ _ => (writeList_wf fun _ _ => DataGovernanceResponsibleParty.xml_wf))) ?_
  rfl

theorem Attachment.json_ne_null {x : Attachment} :
    Attachment.toJson x ≠ .null := Json.mk_ne_null _

theorem Attachment.json_rt {x : Attachment} :
    Attachment.ofJson (Attachment.toJson x) = .ok x := by
  have hn : ["content", "contentType", "encoding"].Nodup := by decide
  refine bindOk (Json.fields_mk _) ?_
  refine bindOk (Json.req_mk hn (.head _) (rfl)) ?_
  refine bindOk (Json.opt_id hn (.tail _ (.head _)) (fun y315 hy315 => Json.str_ne_null)
      (fun y315 hy315 => rfl)) ?_
  refine bindOk (Json.opt_id hn (.tail _ (.tail _ (.head _))) (fun y316 hy316 => Json.str_ne_null)
      (fun y316 hy316 => rfl)) ?_
  rfl

theorem Attachment.xml_one {tag : String} {x : Attachment} :
    OneElement true tag (Attachment.writeXml tag x) := by
  refine writeElem_one ?_ (.chars _)
  obtain ⟨c, t, e⟩ := x
  cases t <;> cases e
  · exact .inl (by simp [mkAttrs])
  · exact .inl (by simp [mkAttrs])
  · exact .inl (by simp [mkAttrs])
  · exact .inr ⟨rfl, .inl rfl⟩

theorem Attachment.xml_wf {tag : String} {x : Attachment} :
    WellFormed true (Attachment.writeXml tag x) := Attachment.xml_one.wf

mutual
theorem Attachment.lastText_events {el : XName} : ∀ (x : XNode) (st : Option String),
    el.localName ∉ x.names →
    ∃ st', ∀ rest, Attachment.lastText el st (x.events ++ rest) = Attachment.lastText el st' rest
  | .chars s, st, _ => ⟨some s, fun _ => rfl⟩
  | .cdata s, st, _ => ⟨st, fun _ => rfl⟩
  | .other, st, _ => ⟨st, fun _ => rfl⟩
  | .elem n attrs ns c, st, h => by
    simp only [XNode.names, List.mem_cons, not_or] at h
    obtain ⟨st', hst⟩ := Attachment.lastText_eventsAll c st h.2
    refine ⟨st', fun rest => ?_⟩
    have hne : n ≠ el := fun e => h.1 (e ▸ rfl)
    simp only [XNode.events, List.cons_append, List.append_assoc, List.nil_append]
    rw [Attachment.lastText, hst, Attachment.lastText, if_neg hne]
    all_goals exact nofun

theorem Attachment.lastText_eventsAll {el : XName} : ∀ (l : List XNode) (st : Option String),
    el.localName ∉ XNode.namesAll l →
    ∃ st', ∀ rest, Attachment.lastText el st (XNode.eventsAll l ++ rest) =
      Attachment.lastText el st' rest
  | [], st, _ => ⟨st, fun _ => rfl⟩
  | x :: l, st, h => by
    simp only [XNode.namesAll, List.mem_append, not_or] at h
    obtain ⟨st1, h1⟩ := Attachment.lastText_events x st h.1
    obtain ⟨st2, h2⟩ := Attachment.lastText_eventsAll l st1 h.2
    exact ⟨st2, fun rest => by rw [XNode.eventsAll, List.append_assoc, h1, h2]⟩
end

theorem Attachment.readContent_local {tag : String} (ht : tag ∈ ignoring) :
    LocalAt tag Attachment.readContent := by
  intro el attrs content h1 h2 h3
  obtain ⟨st, hst⟩ := Attachment.lastText_eventsAll (el := el) content none (h1 ▸ h2.1 ht)
  refine ⟨required "inner characters" el st, fun rest => ?_⟩
  simp only [Attachment.readContent, bind, Except.bind]
  rw [hst, Attachment.lastText, if_pos rfl]
  dsimp only
  cases required "inner characters" el st <;> rfl

theorem Attachment.xml_local {tag : String} (ht : tag ∈ ignoring) :
    LocalAt tag Attachment.readXml := readWith_local (Attachment.readContent_local ht)

theorem Attachment.reads_content {ns tag attrs s} (h : Trimmed s ∧ s ≠ "") :
    Reads ns (writeElem tag attrs [.chars s]) tag Attachment.readContent s := by
  refine ⟨attrs, [.chars s], ?_, fun rest => ?_⟩
  · have h' : xmlTrim s = s := h.1
    simp [writeElem, deliver, h', h.2]
  · simp [Attachment.readContent, Attachment.lastText, required, bind, Except.bind]

theorem Attachment.xml_reads {ns : Option String} {tag : String} {x : Attachment}
    (h : Attachment.XmlOk x) :
    Reads ns (Attachment.writeXml tag x) tag Attachment.readXml x := by
  obtain ⟨c, t, e⟩ := x
  obtain rfl : t = none := h.contentType
  refine reads_with (p := (none, e)) (Attachment.reads_content h.content) ?_ rfl
  cases e <;> rfl

theorem Graphic.json_ne_null {x : Graphic} :
    Graphic.toJson x ≠ .null := Json.mk_ne_null _

theorem Graphic.json_rt {x : Graphic} :
    Graphic.ofJson (Graphic.toJson x) = .ok x := by
  have hn : ["name", "image"].Nodup := by decide
  refine bindOk (Json.fields_mk _) ?_
  refine bindOk (Json.opt_id hn (.head _) (fun y317 hy317 => Json.str_ne_null)
      (fun y317 hy317 => rfl)) ?_
  refine bindOk (Json.opt_id hn (.tail _ (.head _)) (fun y318 hy318 => Attachment.json_ne_null)
      (fun y318 hy318 => Attachment.json_rt)) ?_
  rfl

theorem Graphic.xml_body_wf {x : Graphic} : WellFormed true (
    (writeOpt (writeSimple "name") x.name) ++
    ((writeOpt (Attachment.writeXml "image") x.image))) :=
  (.append (writeOpt_wf fun _ _ => writeSimple_wf)
    (writeOpt_wf fun _ _ => Attachment.xml_wf))

theorem Graphic.xml_one {x : Graphic} :
    OneElement true "graphic" (Graphic.writeXml x) :=
  writeElem_one goodNil (Graphic.xml_body_wf)

theorem Graphic.xml_wf {x : Graphic} :
    WellFormed true (Graphic.writeXml x) :=
  (Graphic.xml_one).wf

theorem Graphic.arms_local :
    ∀ p ∈ Graphic.arms, LocalArm p.1 p.2 :=
  (armsCons (arm_local readSimple_local _)
    (armsCons (arm_local (Attachment.xml_local (tag := "image") (by decide)) _)
    armsNil))

theorem Graphic.xml_local {tag : String} (ht : tag ∈ ignoring) :
    LocalAt tag Graphic.readXml :=
  readStruct_local (fun _ => ht) (Graphic.arms_local)

theorem Graphic.xml_reads {ns : Option String} {x : Graphic} (h : Graphic.XmlOk x) :
    Reads ns (Graphic.writeXml x) "graphic" Graphic.readXml x := by
  have hn : ["name", "image"].Nodup := by decide
  refine reads_struct (Graphic.xml_body_wf) rfl
      (Goes.append (Goes.opt (fun o s => { s with name := o }) (.head _) hn (fun _ => rfl) rfl
          (fun y321 hy321 => reads_simple (h.name y321 hy321)))
        (Goes.opt (fun o s => { s with image := o }) (.tail _ (.head _)) hn (fun _ => rfl) rfl
          (fun y322 hy322 => Attachment.xml_reads (h.image y322 hy322)))
        (writeOpt_wf fun _ _ => writeSimple_wf)) ?_
  rfl

theorem GraphicsCollection.json_ne_null {x : GraphicsCollection} :
    GraphicsCollection.toJson x ≠ .null := Json.mk_ne_null _

theorem GraphicsCollection.json_rt {x : GraphicsCollection} :
    GraphicsCollection.ofJson (GraphicsCollection.toJson x) = .ok x := by
  have hn : ["description", "collection"].Nodup := by decide
  refine bindOk (Json.fields_mk _) ?_
  refine bindOk (Json.opt_id hn (.head _) (fun y323 hy323 => Json.str_ne_null)
      (fun y323 hy323 => rfl)) ?_
  refine bindOk (Json.opt_id hn (.tail _ (.head _)) (fun y324 hy324 => Json.ofList_ne_null)
      (fun y324 hy324 => Json.array_id (fun y325 hy325 => Graphic.json_rt))) ?_
  rfl

theorem GraphicsCollection.xml_body_wf {x : GraphicsCollection} : WellFormed true (
    (writeOpt (writeSimple "description") x.description) ++
    ((writeOpt (writeList "collection" Graphic.writeXml) x.collection))) :=
  (.append (writeOpt_wf fun _ _ => writeSimple_wf)
    (writeOpt_wf fun _ _ => (writeList_wf fun _ _ => Graphic.xml_wf)))

theorem GraphicsCollection.xml_one {tag : String} {x : GraphicsCollection} :
    OneElement true tag (GraphicsCollection.writeXml tag x) :=
  writeElem_one goodNil (GraphicsCollection.xml_body_wf)

theorem GraphicsCollection.xml_wf {tag : String} {x : GraphicsCollection} :
    WellFormed true (GraphicsCollection.writeXml tag x) :=
  (GraphicsCollection.xml_one).wf

theorem GraphicsCollection.arms_local :
    ∀ p ∈ GraphicsCollection.arms, LocalArm p.1 p.2 :=
  (armsCons (arm_local readSimple_local _)
    (armsCons (arm_local (readListWith_local (tag := "collection") (fun _ => by decide) (Graphic.xml_local (tag := "graphic") (by decide))) _)
    armsNil))

theorem GraphicsCollection.xml_local {tag : String} (ht : tag ∈ ignoring) :
    LocalAt tag GraphicsCollection.readXml :=
  readStruct_local (fun _ => ht) (GraphicsCollection.arms_local)

theorem GraphicsCollection.xml_reads {ns : Option String} {tag : String} {x : GraphicsCollection} (h : GraphicsCollection.XmlOk x) :
    Reads ns (GraphicsCollection.writeXml tag x) tag GraphicsCollection.readXml x := by
  have hn : ["description", "collection"].Nodup := by decide
  refine reads_struct (GraphicsCollection.xml_body_wf) rfl
      (Goes.append (Goes.opt (fun o s => { s with description := o }) (.head _) hn (fun _ => rfl) rfl
          (fun y329 hy329 => reads_simple (h.description y329 hy329)))
        (Goes.opt (fun o s => { s with collection := o }) (.tail _ (.head _)) hn (fun _ => rfl) rfl
          (fun y330 hy330 => reads_listIgn (fun y331 hy331 => Graphic.xml_reads ((h.collection y330 hy330) y331 hy331)) (fun _ _ => Graphic.xml_wf)))
        (writeOpt_wf fun _ _ => writeSimple_wf)) ?_
  rfl

theorem DataContents.json_ne_null {x : DataContents} :
    DataContents.toJson x ≠ .null := Json.mk_ne_null _

theorem DataContents.json_rt {x : DataContents} :
    DataContents.ofJson (DataContents.toJson x) = .ok x := by
  have hn : ["attachment", "url", "properties"].Nodup := by decide
  refine bindOk (Json.fields_mk _) ?_
  refine bindOk (Json.opt_id hn (.head _) (fun y332 hy332 => Attachment.json_ne_null)
      (fun y332 hy332 => Attachment.json_rt)) ?_
  refine bindOk (Json.opt_id hn (.tail _ (.head _)) (fun y333 hy333 => Json.str_ne_null)
      (fun y333 hy333 => rfl)) ?_
  refine bindOk (Json.opt_id hn (.tail _ (.tail _ (.head _))) (fun y334 hy334 => Json.ofList_ne_null)
      (fun y334 hy334 => Json.array_id (fun y335 hy335 => Property.json_rt))) ?_
  rfl

theorem DataContents.xml_body_wf {x : DataContents} : WellFormed true (
    (writeOpt (Attachment.writeXml "attachment") x.attachment) ++
    ((writeOpt (writeSimple "url") x.url) ++
    ((writeOpt (writeList "properties" Property.writeXml) x.properties)))) :=
  (.append (writeOpt_wf fun _ _ => Attachment.xml_wf)
    (.append (writeOpt_wf fun _ _ => writeSimple_wf)
    (writeOpt_wf fun _ _ => (writeList_wf fun _ _ => Property.xml_wf))))

theorem DataContents.xml_one {x : DataContents} :
    OneElement true "contents" (DataContents.writeXml x) :=
  writeElem_one goodNil (DataContents.xml_body_wf)

theorem DataContents.xml_wf {x : DataContents} :
    WellFormed true (DataContents.writeXml x) :=
  (DataContents.xml_one).wf

theorem DataContents.arms_local :
    ∀ p ∈ DataContents.arms, LocalArm p.1 p.2 :=
  (armsCons (arm_local (Attachment.xml_local (tag := "attachment") (by decide)) _)
    (armsCons (arm_local readSimple_local _)
    (armsCons (arm_local (readListLax_local Property.xml_local) _)
    armsNil)))

theorem DataContents.xml_local {tag : String} (ht : tag ∈ ignoring) :
    LocalAt tag DataContents.readXml :=
  readStruct_local (fun _ => ht) (DataContents.arms_local)

theorem DataContents.xml_reads {ns : Option String} {x : DataContents} (h : DataContents.XmlOk x) :
    Reads ns (DataContents.writeXml x) "contents" DataContents.readXml x := by
  have hn : ["attachment", "url", "properties"].Nodup := by decide
  refine reads_struct (DataContents.xml_body_wf) rfl
      (Goes.append (Goes.opt (fun o s => { s with attachment := o }) (.head _) hn (fun _ => rfl) rfl
          (fun y340 hy340 => Attachment.xml_reads (h.attachment y340 hy340)))
        (Goes.append (Goes.opt (fun o s => { s with url := o }) (.tail _ (.head _)) hn (fun _ => rfl) rfl
          (fun y341 hy341 => reads_simple (h.url y341 hy341)))
        (Goes.opt (fun o s => { s with properties := o }) (.tail _ (.tail _ (.head _))) hn (fun _ => rfl) rfl
          (fun y342 hy342 => reads_listLax (fun y343 hy343 => Property.xml_reads ((h.properties y342 hy342) y343 hy343)) (fun _ _ => Property.xml_wf)))
        (writeOpt_wf fun _ _ => writeSimple_wf))
        (writeOpt_wf fun _ _ => Attachment.xml_wf)) ?_
  rfl

theorem ComponentData.json_ne_null {x : ComponentData} :
    ComponentData.toJson x ≠ .null := Json.mk_ne_null _

theorem ComponentData.json_rt {x : ComponentData} (h : ComponentData.JsonOk x) :
    ComponentData.ofJson (ComponentData.toJson x) = .ok x := by
  have hn : ["bomRef", "type", "name", "contents", "classification", "sensitiveData", "graphics", "description", "governance"].Nodup := by decide
  refine bindOk (Json.fields_mk _) ?_
  refine bindOk (Json.opt_id hn (.head _) (fun y344 hy344 => Json.str_ne_null)
      (fun y344 hy344 => rfl)) ?_
  refine bindOk (Json.req_mk hn (.tail _ (.head _)) (Json.enum_rt h.dataType)) ?_
  refine bindOk (Json.opt_id hn (.tail _ (.tail _ (.head _))) (fun y345 hy345 => Json.str_ne_null)
      (fun y345 hy345 => rfl)) ?_
  refine bindOk (Json.opt_id hn (.tail _ (.tail _ (.tail _ (.head _)))) (fun y346 hy346 => DataContents.json_ne_null)
      (fun y346 hy346 => DataContents.json_rt)) ?_
  refine bindOk (Json.opt_id hn (.tail _ (.tail _ (.tail _ (.tail _ (.head _))))) (fun y347 hy347 => Json.str_ne_null)
      (fun y347 hy347 => rfl)) ?_
  refine bindOk (Json.opt_id hn (.tail _ (.tail _ (.tail _ (.tail _ (.tail _ (.head _)))))) (fun y348 hy348 => Json.str_ne_null)
      (fun y348 hy348 => rfl)) ?_
  refine bindOk (Json.opt_id hn (.tail _ (.tail _ (.tail _ (.tail _ (.tail _ (.tail _ (.head _))))))) (fun y349 hy349 => GraphicsCollection.json_ne_null)
      (fun y349 hy349 => GraphicsCollection.json_rt)) ?_
  refine bindOk (Json.opt_id hn (.tail _ (.tail _ (.tail _ (.tail _ (.tail _ (.tail _ (.tail _ (.head _)))))))) (fun y350 hy350 => Json.str_ne_null)
      (fun y350 hy350 => rfl)) ?_
  refine bindOk (Json.opt_id hn (.tail _ (.tail _ (.tail _ (.tail _ (.tail _ (.tail _ (.tail _ (.tail _ (.head _))))))))) (fun y351 hy351 => DataGovernance.json_ne_null)
      (fun y351 hy351 => DataGovernance.json_rt)) ?_
  rfl

theorem ComponentData.xml_body_wf {x : ComponentData} : WellFormed true (
    ((fun e => writeSimple "type" (ComponentDataType.display e)) x.dataType) ++
    ((writeOpt (writeSimple "name") x.name) ++
    ((writeOpt DataContents.writeXml x.contents) ++
    ((writeOpt (writeSimple "classification") x.classification) ++
    ((writeOpt (writeSimple "sensitiveData") x.sensitiveData) ++
    ((writeOpt (GraphicsCollection.writeXml "graphics") x.graphics) ++
    ((writeOpt (writeSimple "description") x.description) ++
    ((writeOpt (DataGovernance.writeXml "governance") x.governance))))))))) :=
  (.append (writeSimple_wf)
    (.append (writeOpt_wf fun _ _ => writeSimple_wf)
    (.append (writeOpt_wf fun _ _ => DataContents.xml_wf)
    (.append (writeOpt_wf fun _ _ => writeSimple_wf)
    (.append (writeOpt_wf fun _ _ => writeSimple_wf)
    (.append (writeOpt_wf fun _ _ => GraphicsCollection.xml_wf)
    (.append (writeOpt_wf fun _ _ => writeSimple_wf)
    (writeOpt_wf fun _ _ => DataGovernance.xml_wf))))))))

theorem ComponentData.xml_one {tag : String} {x : ComponentData} :
    OneElement true tag (ComponentData.writeXml tag x) :=
  writeElem_one (goodAttrs (by decide : ["bom-ref"].Nodup)) (ComponentData.xml_body_wf)

theorem ComponentData.xml_wf {tag : String} {x : ComponentData} :
    WellFormed true (ComponentData.writeXml tag x) :=
  (ComponentData.xml_one).wf

theorem ComponentData.arms_local :
    ∀ p ∈ ComponentData.arms, LocalArm p.1 p.2 :=
  (armsCons (arm_local (map_local readSimple_local ComponentDataType.new) _)
    (armsCons (arm_local readSimple_local _)
    (armsCons (arm_local (DataContents.xml_local (tag := "contents") (by decide)) _)
    (armsCons (arm_local readSimple_local _)
    (armsCons (arm_local readSimple_local _)
    (armsCons (arm_local (GraphicsCollection.xml_local (tag := "graphics") (by decide)) _)
    (armsCons (arm_local readSimple_local _)
    (armsCons (arm_local (DataGovernance.xml_local (tag := "governance") (by decide)) _)
    armsNil))))))))

theorem ComponentData.xml_local {tag : String} (ht : tag ∈ ignoring) :
    LocalAt tag ComponentData.readXml :=
  readStruct_local (fun _ => ht) (ComponentData.arms_local)

theorem ComponentData.xml_reads {ns : Option String} {tag : String} {x : ComponentData} (h : ComponentData.XmlOk x) :
    Reads ns (ComponentData.writeXml tag x) tag ComponentData.readXml x := by
  have hn : ["type", "name", "contents", "classification", "sensitiveData", "graphics", "description", "governance"].Nodup := by decide
  have ha : ["bom-ref"].Nodup := by decide
  refine reads_struct (p := (x.bomRef)) (ComponentData.xml_body_wf) ?_
      (Goes.append (Goes.one (reads_enum h.dataType) (.head _) hn)
        (Goes.append (Goes.opt (fun o s => { s with name := o }) (.tail _ (.head _)) hn (fun _ => rfl) rfl
          (fun y359 hy359 => reads_simple (h.name y359 hy359)))
        (Goes.append (Goes.opt (fun o s => { s with contents := o }) (.tail _ (.tail _ (.head _))) hn (fun _ => rfl) rfl
          (fun y360 hy360 => DataContents.xml_reads (h.contents y360 hy360)))
        (Goes.append (Goes.opt (fun o s => { s with classification := o }) (.tail _ (.tail _ (.tail _ (.head _)))) hn (fun _ => rfl) rfl
          (fun y361 hy361 => reads_simple (h.classification y361 hy361)))
        (Goes.append (Goes.opt (fun o s => { s with sensitiveData := o }) (.tail _ (.tail _ (.tail _ (.tail _ (.head _))))) hn (fun _ => rfl) rfl
          (fun y362 hy362 => reads_simple (h.sensitiveData y362 hy362)))
        (Goes.append (Goes.opt (fun o s => { s with graphics := o }) (.tail _ (.tail _ (.tail _ (.tail _ (.tail _ (.head _)))))) hn (fun _ => rfl) rfl
          (fun y363 hy363 => GraphicsCollection.xml_reads (h.graphics y363 hy363)))
        (Goes.append (Goes.opt (fun o s => { s with description := o }) (.tail _ (.tail _ (.tail _ (.tail _ (.tail _ (.tail _ (.head _))))))) hn (fun _ => rfl) rfl
          (fun y364 hy364 => reads_simple (h.description y364 hy364)))
        (Goes.opt (fun o s => { s with governance := o }) (.tail _ (.tail _ (.tail _ (.tail _ (.tail _ (.tail _ (.tail _ (.head _)))))))) hn (fun _ => rfl) rfl
          (fun y365 hy365 => DataGovernance.xml_reads (h.governance y365 hy365)))
        (writeOpt_wf fun _ _ => writeSimple_wf))
        (writeOpt_wf fun _ _ => GraphicsCollection.xml_wf))
        (writeOpt_wf fun _ _ => writeSimple_wf))
        (writeOpt_wf fun _ _ => writeSimple_wf))
        (writeOpt_wf fun _ _ => DataContents.xml_wf))
        (writeOpt_wf fun _ _ => writeSimple_wf))
        (writeSimple_wf)) ?_
  · exact congrArg Except.ok (optAttr_mk ha (.head _))
  · rfl

theorem ModelParametersApproach.json_ne_null {x : ModelParametersApproach} :
    ModelParametersApproach.toJson x ≠ .null := Json.mk_ne_null _

theorem ModelParametersApproach.json_rt {x : ModelParametersApproach} (h : ModelParametersApproach.JsonOk x) :
    ModelParametersApproach.ofJson (ModelParametersApproach.toJson x) = .ok x := by
  have hn : ["type"].Nodup := by decide
  refine bindOk (Json.fields_mk _) ?_
  refine bindOk (Json.opt_id hn (.head _) (fun y367 hy367 => Json.str_ne_null)
      (fun y367 hy367 => Json.enum_rt (h.approachType y367 hy367))) ?_
  rfl

theorem ModelParametersApproach.xml_body_wf {loose : Bool} {x : ModelParametersApproach} : WellFormed loose (
    (writeOpt (fun e => writeSimple "type" (ApproachType.display e)) x.approachType)) :=
  (writeOpt_wf fun _ _ => writeSimple_wf)

theorem ModelParametersApproach.xml_one {loose : Bool} {x : ModelParametersApproach} :
    OneElement loose "approach" (ModelParametersApproach.writeXml x) :=
  writeElem_one goodNil (ModelParametersApproach.xml_body_wf)

theorem ModelParametersApproach.xml_wf {loose : Bool} {x : ModelParametersApproach} :
    WellFormed loose (ModelParametersApproach.writeXml x) :=
  (ModelParametersApproach.xml_one).wf

theorem ModelParametersApproach.arms_local :
    ∀ p ∈ ModelParametersApproach.arms, LocalArm p.1 p.2 :=
  (armsCons (arm_local (map_local readSimple_local ApproachType.new) _)
    armsNil)

theorem ModelParametersApproach.xml_local {tag : String} (ht : tag ∈ ignoring) :
    LocalAt tag ModelParametersApproach.readXml :=
  readStruct_local (fun _ => ht) (ModelParametersApproach.arms_local)

theorem ModelParametersApproach.xml_reads {ns : Option String} {x : ModelParametersApproach} (h : ModelParametersApproach.XmlOk x) :
    Reads ns (ModelParametersApproach.writeXml x) "approach" ModelParametersApproach.readXml x := by
  have hn : ["type"].Nodup := by decide
  refine reads_struct (ModelParametersApproach.xml_body_wf) rfl
      (Goes.opt (fun o s => { s with approachType := o }) (.head _) hn (fun _ => rfl) rfl
          (fun y369 hy369 => reads_enum (h.approachType y369 hy369))) ?_
  rfl

theorem Dataset.json_ne_null {x : Dataset} : Dataset.toJson x ≠ .null := by
  cases x <;> exact nofun

theorem Dataset.json_rt {x : Dataset} (h : Dataset.JsonOk x) :
    Dataset.ofJson (Dataset.toJson x) = .ok x := by
  cases x with
  | component y =>
    have : ComponentData.ofJson (Dataset.toJson (.component y)) = .ok y := ComponentData.json_rt h
    rw [Dataset.ofJson, this]
  | reference r => rfl

theorem Dataset.xml_one {x : Dataset} : OneElement true "dataset" (Dataset.writeXml x) := by
  cases x with
  | component y => exact ComponentData.xml_one
  | reference r => exact writeElem_one goodNil writeSimple_wf

theorem Dataset.xml_wf {x : Dataset} : WellFormed true (Dataset.writeXml x) := Dataset.xml_one.wf

theorem Dataset.xml_local {tag : String} (ht : tag ∈ ignoring) : LocalAt tag Dataset.readXml :=
  map_local (ComponentData.xml_local ht) _

theorem Dataset.xml_reads {ns : Option String} {x : Dataset} (h : Dataset.XmlOk x) :
    Reads ns (Dataset.writeXml x) "dataset" Dataset.readXml x := by
  cases x with
  | component y => exact reads_map (ComponentData.xml_reads h)
  | reference r => exact h.elim

theorem MLParameter.json_ne_null {x : MLParameter} :
    MLParameter.toJson x ≠ .null := Json.mk_ne_null _

theorem MLParameter.json_rt {x : MLParameter} :
    MLParameter.ofJson (MLParameter.toJson x) = .ok x := by
  have hn : ["format"].Nodup := by decide
  refine bindOk (Json.fields_mk _) ?_
  refine bindOk (Json.opt_id hn (.head _) (fun y370 hy370 => Json.str_ne_null)
      (fun y370 hy370 => rfl)) ?_
  rfl

theorem MLParameter.xml_body_wf {loose : Bool} {x : MLParameter} : WellFormed loose (
    (writeOpt (writeSimple "format") x.format)) :=
  (writeOpt_wf fun _ _ => writeSimple_wf)

theorem MLParameter.xml_one {loose : Bool} {tag : String} {x : MLParameter} :
    OneElement loose tag (MLParameter.writeXml tag x) :=
  writeElem_one goodNil (MLParameter.xml_body_wf)

theorem MLParameter.xml_wf {loose : Bool} {tag : String} {x : MLParameter} :
    WellFormed loose (MLParameter.writeXml tag x) :=
  (MLParameter.xml_one).wf

theorem MLParameter.arms_local :
    ∀ p ∈ MLParameter.arms, LocalArm p.1 p.2 :=
  (armsCons (arm_local readSimple_local _)
    armsNil)

theorem MLParameter.xml_local {tag : String} (ht : tag ∈ ignoring) :
    LocalAt tag MLParameter.readXml :=
  readStruct_local (fun _ => ht) (MLParameter.arms_local)

theorem MLParameter.xml_reads {ns : Option String} {tag : String} {x : MLParameter} (h : MLParameter.XmlOk x) :
    Reads ns (MLParameter.writeXml tag x) tag MLParameter.readXml x := by
  have hn : ["format"].Nodup := by decide
  refine reads_struct (MLParameter.xml_body_wf) rfl
      (Goes.opt (fun o s => { s with format := o }) (.head _) hn (fun _ => rfl) rfl
          (fun y372 hy372 => reads_simple (h.format y372 hy372))) ?_
  rfl

theorem ModelParameters.json_ne_null {x : ModelParameters} :
    ModelParameters.toJson x ≠ .null := Json.mk_ne_null _

theorem ModelParameters.json_rt {x : ModelParameters} (h : ModelParameters.JsonOk x) :
    ModelParameters.ofJson (ModelParameters.toJson x) = .ok x := by
  have hn : ["approach", "task", "architectureFamily", "modelArchitecture", "datasets", "inputs", "outputs"].Nodup := by decide
  refine bindOk (Json.fields_mk _) ?_
  refine bindOk (Json.opt_id hn (.head _) (fun y376 hy376 => ModelParametersApproach.json_ne_null)
      (fun y376 hy376 => ModelParametersApproach.json_rt (h.approach y376 hy376))) ?_
  refine bindOk (Json.opt_id hn (.tail _ (.head _)) (fun y377 hy377 => Json.str_ne_null)
      (fun y377 hy377 => rfl)) ?_
  refine bindOk (Json.opt_id hn (.tail _ (.tail _ (.head _))) (fun y378 hy378 => Json.str_ne_null)
      (fun y378 hy378 => rfl)) ?_
  refine bindOk (Json.opt_id hn (.tail _ (.tail _ (.tail _ (.head _)))) (fun y379 hy379 => Json.str_ne_null)
      (fun y379 hy379 => rfl)) ?_
  refine bindOk (Json.opt_id hn (.tail _ (.tail _ (.tail _ (.tail _ (.head _))))) (fun y380 hy380 => Json.ofList_ne_null)
      (fun y380 hy380 => Json.array_id (fun y381 hy381 => Dataset.json_rt ((h.datasets y380 hy380) y381 hy381)))) ?_
  refine bindOk (Json.opt_id hn (.tail _ (.tail _ (.tail _ (.tail _ (.tail _ (.head _)))))) (fun y382 hy382 => Json.ofList_ne_null)
      (fun y382 hy382 => Json.array_id (fun y383 hy383 => MLParameter.json_rt))) ?_
  refine bindOk (Json.opt_id hn (.tail _ (.tail _ (.tail _ (.tail _ (.tail _ (.tail _ (.head _))))))) (fun y384 hy384 => Json.ofList_ne_null)
      (fun y384 hy384 => Json.array_id (fun y385 hy385 => MLParameter.json_rt))) ?_
  rfl

theorem ModelParameters.xml_body_wf {x : ModelParameters} : WellFormed true (
    (writeOpt ModelParametersApproach.writeXml x.approach) ++
    ((writeOpt (writeSimple "task") x.task) ++
    ((writeOpt (writeSimple "architectureFamily") x.architectureFamily) ++
    ((writeOpt (writeSimple "modelArchitecture") x.modelArchitecture) ++
    ((writeOpt (writeList "datasets" Dataset.writeXml) x.datasets) ++
    ((writeOpt (writeList "inputs" (MLParameter.writeXml "input")) x.inputs) ++
    ((writeOpt (writeList "outputs" (MLParameter.writeXml "output")) x.outputs)))))))) :=
  (.append (writeOpt_wf fun _ _ => ModelParametersApproach.xml_wf)
    (.append (writeOpt_wf fun _ _ => writeSimple_wf)
    (.append (writeOpt_wf fun _ _ => writeSimple_wf)
    (.append (writeOpt_wf fun _ _ => writeSimple_wf)
    (.append (writeOpt_wf fun _ _ => (writeList_wf fun _ _ => Dataset.xml_wf))
    (.append (writeOpt_wf fun _ _ => (writeList_wf fun _ _ => MLParameter.xml_wf))
    (writeOpt_wf fun _ _ => (writeList_wf fun _ _ => MLParameter.xml_wf))))))))

theorem ModelParameters.xml_one {x : ModelParameters} :
    OneElement true "modelParameters" (ModelParameters.writeXml x) :=
  writeElem_one goodNil (ModelParameters.xml_body_wf)

theorem ModelParameters.xml_wf {x : ModelParameters} :
    WellFormed true (ModelParameters.writeXml x) :=
  (ModelParameters.xml_one).wf

theorem ModelParameters.arms_local :
    ∀ p ∈ ModelParameters.arms, LocalArm p.1 p.2 :=
  (armsCons (arm_local (ModelParametersApproach.xml_local (tag := "approach") (by decide)) _)
    (armsCons (arm_local readSimple_local _)
    (armsCons (arm_local readSimple_local _)
    (armsCons (arm_local readSimple_local _)
    (armsCons (arm_local (readList_local (Dataset.xml_local (tag := "dataset") (by decide))) _)
    (armsCons (arm_local (readListWith_local (tag := "inputs") (fun _ => by decide) (MLParameter.xml_local (tag := "input") (by decide))) _)
    (armsCons (arm_local (readListWith_local (tag := "outputs") (fun _ => by decide) (MLParameter.xml_local (tag := "output") (by decide))) _)
    armsNil)))))))

theorem ModelParameters.xml_local {tag : String} (ht : tag ∈ ignoring) :
    LocalAt tag ModelParameters.readXml :=
  readStruct_local (fun _ => ht) (ModelParameters.arms_local)

theorem ModelParameters.xml_reads {ns : Option String} {x : ModelParameters} (h : ModelParameters.XmlOk x) :
    Reads ns (ModelParameters.writeXml x) "modelParameters" ModelParameters.readXml x := by
  have hn : ["approach", "task", "architectureFamily", "modelArchitecture", "datasets", "inputs", "outputs"].Nodup := by decide
  refine reads_struct (ModelParameters.xml_body_wf) rfl
      (Goes.append (Goes.opt (fun o s => { s with approach := o }) (.head _) hn (fun _ => rfl) rfl
          (fun y396 hy396 => ModelParametersApproach.xml_reads (h.approach y396 hy396)))
        (Goes.append (Goes.opt (fun o s => { s with task := o }) (.tail _ (.head _)) hn (fun _ => rfl) rfl
          (fun y397 hy397 => reads_simple (h.task y397 hy397)))
        (Goes.append (Goes.opt (fun o s => { s with architectureFamily := o }) (.tail _ (.tail _ (.head _))) hn (fun _ => rfl) rfl
          (fun y398 hy398 => reads_simple (h.architectureFamily y398 hy398)))
        (Goes.append (Goes.opt (fun o s => { s with modelArchitecture := o }) (.tail _ (.tail _ (.tail _ (.head _)))) hn (fun _ => rfl) rfl
          (fun y399 hy399 => reads_simple (h.modelArchitecture y399 hy399)))
        (Goes.append (Goes.opt (fun o s => { s with datasets := o }) (.tail _ (.tail _ (.tail _ (.tail _ (.head _))))) hn (fun _ => rfl) rfl
          (fun y400 hy400 => reads_list (fun y401 hy401 => Dataset.xml_reads ((h.datasets y400 hy400) y401 hy401)) (fun _ _ => Dataset.xml_wf)))
        (Goes.append (Goes.opt (fun o s => { s with inputs := o }) (.tail _ (.tail _ (.tail _ (.tail _ (.tail _ (.head _)))))) hn (fun _ => rfl) rfl
          (fun y402 hy402 => reads_listIgn (fun y403 hy403 => MLParameter.xml_reads ((h.inputs y402 hy402) y403 hy403)) (fun _ _ => MLParameter.xml_wf)))
        (Goes.opt (fun o s => { s with outputs := o }) (.tail _ (.tail _ (.tail _ (.tail _ (.tail _ (.tail _ (.head _))))))) hn (fun _ => rfl) rfl
          (fun y404 hy404 => reads_listIgn (fun y405 hy405 => MLParameter.xml_reads ((h.outputs y404 hy404) y405 hy405)) (fun _ _ => MLParameter.xml_wf)))
        (writeOpt_wf fun _ _ => (writeList_wf fun _ _ => MLParameter.xml_wf)))
        (writeOpt_wf fun _ _ => (writeList_wf fun _ _ => Dataset.xml_wf)))
        (writeOpt_wf fun _ _ => writeSimple_wf))
        (writeOpt_wf fun _ _ => writeSimple_wf))
        (writeOpt_wf fun _ _ => writeSimple_wf))
        (writeOpt_wf fun _ _ => ModelParametersApproach.xml_wf)) ?_
  rfl

theorem ConfidenceInterval.json_ne_null {x : ConfidenceInterval} :
    ConfidenceInterval.toJson x ≠ .null := Json.mk_ne_null _

theorem ConfidenceInterval.json_rt {x : ConfidenceInterval} :
    ConfidenceInterval.ofJson (ConfidenceInterval.toJson x) = .ok x := by
  have hn : ["lowerBound", "upperBound"].Nodup := by decide
  refine bindOk (Json.fields_mk _) ?_
  refine bindOk (Json.opt_id hn (.head _) (fun y406 hy406 => Json.str_ne_null)
      (fun y406 hy406 => rfl)) ?_
  refine bindOk (Json.opt_id hn (.tail _ (.head _)) (fun y407 hy407 => Json.str_ne_null)
      (fun y407 hy407 => rfl)) ?_
  rfl

theorem ConfidenceInterval.xml_body_wf {loose : Bool} {x : ConfidenceInterval} : WellFormed loose (
    (writeOpt (writeSimple "lowerBound") x.lowerBound) ++
    ((writeOpt (writeSimple "upperBound") x.upperBound))) :=
  (.append (writeOpt_wf fun _ _ => writeSimple_wf)
    (writeOpt_wf fun _ _ => writeSimple_wf))

theorem ConfidenceInterval.xml_one {loose : Bool} {x : ConfidenceInterval} :
    OneElement loose "confidenceInterval" (ConfidenceInterval.writeXml x) :=
  writeElem_one goodNil (ConfidenceInterval.xml_body_wf)

theorem ConfidenceInterval.xml_wf {loose : Bool} {x : ConfidenceInterval} :
    WellFormed loose (ConfidenceInterval.writeXml x) :=
  (ConfidenceInterval.xml_one).wf

theorem ConfidenceInterval.arms_local :
    ∀ p ∈ ConfidenceInterval.arms, LocalArm p.1 p.2 :=
  (armsCons (arm_local readSimple_local _)
    (armsCons (arm_local readSimple_local _)
    armsNil))

theorem ConfidenceInterval.xml_local {tag : String} (ht : tag ∈ ignoring) :
    LocalAt tag ConfidenceInterval.readXml :=
  readStruct_local (fun _ => ht) (ConfidenceInterval.arms_local)

theorem ConfidenceInterval.xml_reads {ns : Option String} {x : ConfidenceInterval} (h : ConfidenceInterval.XmlOk x) :
    Reads ns (ConfidenceInterval.writeXml x) "confidenceInterval" ConfidenceInterval.readXml x := by
  have hn : ["lowerBound", "upperBound"].Nodup := by decide
  refine reads_struct (ConfidenceInterval.xml_body_wf) rfl
      (Goes.append (Goes.opt (fun o s => { s with lowerBound := o }) (.head _) hn (fun _ => rfl) rfl
          (fun y410 hy410 => reads_simple (h.lowerBound y410 hy410)))
        (Goes.opt (fun o s => { s with upperBound := o }) (.tail _ (.head _)) hn (fun _ => rfl) rfl
          (fun y411 hy411 => reads_simple (h.upperBound y411 hy411)))
        (writeOpt_wf fun _ _ => writeSimple_wf)) ?_
  rfl

theorem PerformanceMetric.json_ne_null {x : PerformanceMetric} :
    PerformanceMetric.toJson x ≠ .null := Json.mk_ne_null _

theorem PerformanceMetric.json_rt {x : PerformanceMetric} :
    PerformanceMetric.ofJson (PerformanceMetric.toJson x) = .ok x := by
  have hn : ["type", "value", "slice", "confidence_interval"].Nodup := by decide
  refine bindOk (Json.fields_mk _) ?_
  refine bindOk (Json.opt_id hn (.head _) (fun y412 hy412 => Json.str_ne_null)
      (fun y412 hy412 => rfl)) ?_
  refine bindOk (Json.opt_id hn (.tail _ (.head _)) (fun y413 hy413 => Json.str_ne_null)
      (fun y413 hy413 => rfl)) ?_
  refine bindOk (Json.opt_id hn (.tail _ (.tail _ (.head _))) (fun y414 hy414 => Json.str_ne_null)
      (fun y414 hy414 => rfl)) ?_
  refine bindOk (Json.opt_id hn (.tail _ (.tail _ (.tail _ (.head _)))) (fun y415 hy415 => ConfidenceInterval.json_ne_null)
      (fun y415 hy415 => ConfidenceInterval.json_rt)) ?_
  rfl

theorem PerformanceMetric.xml_body_wf {loose : Bool} {x : PerformanceMetric} : WellFormed loose (
    (writeOpt (writeSimple "type") x.metricType) ++
    ((writeOpt (writeSimple "value") x.value) ++
    ((writeOpt (writeSimple "slice") x.slice) ++
    ((writeOpt ConfidenceInterval.writeXml x.confidenceInterval))))) :=
  (.append (writeOpt_wf fun _ _ => writeSimple_wf)
    (.append (writeOpt_wf fun _ _ => writeSimple_wf)
    (.append (writeOpt_wf fun _ _ => writeSimple_wf)
    (writeOpt_wf fun _ _ => ConfidenceInterval.xml_wf))))

theorem PerformanceMetric.xml_one {loose : Bool} {x : PerformanceMetric} :
    OneElement loose "performanceMetric" (PerformanceMetric.writeXml x) :=
  writeElem_one goodNil (PerformanceMetric.xml_body_wf)

theorem PerformanceMetric.xml_wf {loose : Bool} {x : PerformanceMetric} :
    WellFormed loose (PerformanceMetric.writeXml x) :=
  (PerformanceMetric.xml_one).wf

theorem PerformanceMetric.arms_local :
    ∀ p ∈ PerformanceMetric.arms, LocalArm p.1 p.2 :=
  (armsCons (arm_local readSimple_local _)
    (armsCons (arm_local readSimple_local _)
    (armsCons (arm_local readSimple_local _)
    (armsCons (arm_local (ConfidenceInterval.xml_local (tag := "confidenceInterval") (by decide)) _)
    armsNil))))

theorem PerformanceMetric.xml_local {tag : String} (ht : tag ∈ ignoring) :
    LocalAt tag PerformanceMetric.readXml :=
  readStruct_local (fun _ => ht) (PerformanceMetric.arms_local)

theorem PerformanceMetric.xml_reads {ns : Option String} {x : PerformanceMetric} (h : PerformanceMetric.XmlOk x) :
    Reads ns (PerformanceMetric.writeXml x) "performanceMetric" PerformanceMetric.readXml x := by
  have hn : ["type", "value", "slice", "confidenceInterval"].Nodup := by decide
  refine reads_struct (PerformanceMetric.xml_body_wf) rfl
      (Goes.append (Goes.opt (fun o s => { s with metricType := o }) (.head _) hn (fun _ => rfl) rfl
          (fun y420 hy420 => reads_simple (h.metricType y420 hy420)))
        (Goes.append (Goes.opt (fun o s => { s with value := o }) (.tail _ (.head _)) hn (fun _ => rfl) rfl
          (fun y421 hy421 => reads_simple (h.value y421 hy421)))
        (Goes.append (Goes.opt (fun o s => { s with slice := o }) (.tail _ (.tail _ (.head _))) hn (fun _ => rfl) rfl
          (fun y422 hy422 => reads_simple (h.slice y422 hy422)))
        (Goes.opt (fun o s => { s with confidenceInterval := o }) (.tail _ (.tail _ (.tail _ (.head _)))) hn (fun _ => rfl) rfl
          (fun y423 hy423 => ConfidenceInterval.xml_reads (h.confidenceInterval y423 hy423)))
        (writeOpt_wf fun _ _ => writeSimple_wf))
        (writeOpt_wf fun _ _ => writeSimple_wf))
        (writeOpt_wf fun _ _ => writeSimple_wf)) ?_
  rfl

theorem QuantitativeAnalysis.json_ne_null {x : QuantitativeAnalysis} :
    QuantitativeAnalysis.toJson x ≠ .null := Json.mk_ne_null _

theorem QuantitativeAnalysis.json_rt {x : QuantitativeAnalysis} :
    QuantitativeAnalysis.ofJson (QuantitativeAnalysis.toJson x) = .ok x := by
  have hn : ["performanceMetrics", "graphics"].Nodup := by decide
  refine bindOk (Json.fields_mk _) ?_
  refine bindOk (Json.opt_id hn (.head _) (fun y424 hy424 => Json.ofList_ne_null)
      (fun y424 hy424 => Json.array_id (fun y425 hy425 => PerformanceMetric.json_rt))) ?_
  refine bindOk (Json.opt_id hn (.tail _ (.head _)) (fun y426 hy426 => GraphicsCollection.json_ne_null)
      (fun y426 hy426 => GraphicsCollection.json_rt)) ?_
  rfl

theorem QuantitativeAnalysis.xml_body_wf {x : QuantitativeAnalysis} : WellFormed true (
    (writeOpt (writeList "performanceMetrics" PerformanceMetric.writeXml) x.performanceMetrics) ++
    ((writeOpt (GraphicsCollection.writeXml "graphics") x.graphics))) :=
  (.append (writeOpt_wf fun _ _ => (writeList_wf fun _ _ => PerformanceMetric.xml_wf))
    (writeOpt_wf fun _ _ => GraphicsCollection.xml_wf))

theorem QuantitativeAnalysis.xml_one {x : QuantitativeAnalysis} :
    OneElement true "quantitativeAnalysis" (QuantitativeAnalysis.writeXml x) :=
  writeElem_one goodNil (QuantitativeAnalysis.xml_body_wf)

theorem QuantitativeAnalysis.xml_wf {x : QuantitativeAnalysis} :
    WellFormed true (QuantitativeAnalysis.writeXml x) :=
  (QuantitativeAnalysis.xml_one).wf

theorem QuantitativeAnalysis.arms_local :
    ∀ p ∈ QuantitativeAnalysis.arms, LocalArm p.1 p.2 :=
  (armsCons (arm_local (readListWith_local (tag := "performanceMetrics") (fun _ => by decide) (PerformanceMetric.xml_local (tag := "performanceMetric") (by decide))) _)
    (armsCons (arm_local (GraphicsCollection.xml_local (tag := "graphics") (by decide)) _)
    armsNil))

theorem QuantitativeAnalysis.xml_local {tag : String} (ht : tag ∈ ignoring) :
    LocalAt tag QuantitativeAnalysis.readXml :=
  readStruct_local (fun _ => ht) (QuantitativeAnalysis.arms_local)

theorem QuantitativeAnalysis.xml_reads {ns : Option String} {x : QuantitativeAnalysis} (h : QuantitativeAnalysis.XmlOk x) :
    Reads ns (QuantitativeAnalysis.writeXml x) "quantitativeAnalysis" QuantitativeAnalysis.readXml x := by
  have hn : ["performanceMetrics", "graphics"].Nodup := by decide
  refine reads_struct (QuantitativeAnalysis.xml_body_wf) rfl
      (Goes.append (Goes.opt (fun o s => { s with performanceMetrics := o }) (.head _) hn (fun _ => rfl) rfl
          (fun y430 hy430 => reads_listIgn (fun y431 hy431 => PerformanceMetric.xml_reads ((h.performanceMetrics y430 hy430) y431 hy431)) (fun _ _ => PerformanceMetric.xml_wf)))
        (Goes.opt (fun o s => { s with graphics := o }) (.tail _ (.head _)) hn (fun _ => rfl) rfl
          (fun y432 hy432 => GraphicsCollection.xml_reads (h.graphics y432 hy432)))
        (writeOpt_wf fun _ _ => (writeList_wf fun _ _ => PerformanceMetric.xml_wf))) ?_
  rfl

theorem Considerations.json_ne_null {x : Considerations} : Considerations.toJson x ≠ .null := nofun

theorem Considerations.json_rt {x : Considerations} :
    Considerations.ofJson (Considerations.toJson x) = .ok x := rfl

theorem Considerations.xml_wf {loose : Bool} {x : Considerations} :
    WellFormed loose (Considerations.writeXml x) := writeElem_wf goodNil .nil

theorem ModelCard.json_ne_null {x : ModelCard} :
    ModelCard.toJson x ≠ .null := Json.mk_ne_null _

theorem ModelCard.json_rt {x : ModelCard} (h : ModelCard.JsonOk x) :
    ModelCard.ofJson (ModelCard.toJson x) = .ok x := by
  have hn : ["bomRef", "modelParameters", "quantitativeAnalysis", "considerations", "properties"].Nodup := by decide
  refine bindOk (Json.fields_mk _) ?_
  refine bindOk (Json.opt_id hn (.head _) (fun y434 hy434 => Json.str_ne_null)
      (fun y434 hy434 => rfl)) ?_
  refine bindOk (Json.opt_id hn (.tail _ (.head _)) (fun y435 hy435 => ModelParameters.json_ne_null)
      (fun y435 hy435 => ModelParameters.json_rt (h.modelParameters y435 hy435))) ?_
  refine bindOk (Json.opt_id hn (.tail _ (.tail _ (.head _))) (fun y436 hy436 => QuantitativeAnalysis.json_ne_null)
      (fun y436 hy436 => QuantitativeAnalysis.json_rt)) ?_
  refine bindOk (Json.opt_id hn (.tail _ (.tail _ (.tail _ (.head _)))) (fun y437 hy437 => Considerations.json_ne_null)
      (fun y437 hy437 => Considerations.json_rt)) ?_
  refine bindOk (Json.opt_id hn (.tail _ (.tail _ (.tail _ (.tail _ (.head _))))) (fun y438 hy438 => Json.ofList_ne_null)
      (fun y438 hy438 => Json.array_id (fun y439 hy439 => Property.json_rt))) ?_
  rfl

theorem ModelCard.xml_body_wf {x : ModelCard} : WellFormed true (
    (writeOpt ModelParameters.writeXml x.modelParameters) ++
    ((writeOpt QuantitativeAnalysis.writeXml x.quantitativeAnalysis) ++
    ((writeOpt Considerations.writeXml x.considerations) ++
    ((writeOpt (writeList "properties" Property.writeXml) x.properties))))) :=
  (.append (writeOpt_wf fun _ _ => ModelParameters.xml_wf)
    (.append (writeOpt_wf fun _ _ => QuantitativeAnalysis.xml_wf)
    (.append (writeOpt_wf fun _ _ => Considerations.xml_wf)
    (writeOpt_wf fun _ _ => (writeList_wf fun _ _ => Property.xml_wf)))))

theorem ModelCard.xml_one {x : ModelCard} :
    OneElement true "modelCard" (ModelCard.writeXml x) :=
  writeElem_one (goodAttrs (by decide : ["bom-ref"].Nodup)) (ModelCard.xml_body_wf)

theorem ModelCard.xml_wf {x : ModelCard} :
    WellFormed true (ModelCard.writeXml x) :=
  (ModelCard.xml_one).wf

theorem ModelCard.arms_local :
    ∀ p ∈ ModelCard.arms, LocalArm p.1 p.2 :=
  (armsCons (arm_local (ModelParameters.xml_local (tag := "modelParameters") (by decide)) _)
    (armsCons (arm_local (QuantitativeAnalysis.xml_local (tag := "quantitativeAnalysis") (by decide)) _)
    armsNil))

theorem ModelCard.xml_local {tag : String} (ht : tag ∈ ignoring) :
    LocalAt tag ModelCard.readXml :=
  readStruct_local (fun _ => ht) (ModelCard.arms_local)

theorem ModelCard.xml_reads {ns : Option String} {x : ModelCard} (h : ModelCard.XmlOk x) :
    Reads ns (ModelCard.writeXml x) "modelCard" ModelCard.readXml x := by
  obtain ⟨bomRef, modelParameters, quantitativeAnalysis, considerations, properties⟩ := x
  obtain rfl : considerations = none := h.considerations
  obtain rfl : properties = none := h.properties
  have hn : ["modelParameters", "quantitativeAnalysis"].Nodup := by decide
  have ha : ["bom-ref"].Nodup := by decide
  refine reads_struct (p := (bomRef)) (ModelCard.xml_body_wf) ?_
      (Goes.append (Goes.opt (fun o s => { s with modelParameters := o }) (.head _) hn (fun _ => rfl) rfl
          (fun y442 hy442 => ModelParameters.xml_reads (h.modelParameters y442 hy442)))
        (Goes.append (Goes.opt (fun o s => { s with quantitativeAnalysis := o }) (.tail _ (.head _)) hn (fun _ => rfl) rfl
          (fun y443 hy443 => QuantitativeAnalysis.xml_reads (h.quantitativeAnalysis y443 hy443)))
        (Goes.append (Goes.nil)
        (Goes.nil)
        (writeOpt_wf fun _ _ => Considerations.xml_wf))
        (writeOpt_wf fun _ _ => QuantitativeAnalysis.xml_wf))
        (writeOpt_wf fun _ _ => ModelParameters.xml_wf)) ?_
  · exact congrArg Except.ok (optAttr_mk ha (.head _))
  · rfl

theorem VulnerabilityProofOfConcept.json_ne_null {x : VulnerabilityProofOfConcept} :
    VulnerabilityProofOfConcept.toJson x ≠ .null := Json.mk_ne_null _

theorem VulnerabilityProofOfConcept.json_rt {x : VulnerabilityProofOfConcept} :
    VulnerabilityProofOfConcept.ofJson (VulnerabilityProofOfConcept.toJson x) = .ok x := by
  have hn : ["reproductionSteps", "environment", "supportingMaterial"].Nodup := by decide
  refine bindOk (Json.fields_mk _) ?_
  refine bindOk (Json.opt_id hn (.head _) (fun y444 hy444 => Json.str_ne_null)
      (fun y444 hy444 => rfl)) ?_
  refine bindOk (Json.opt_id hn (.tail _ (.head _)) (fun y445 hy445 => Json.str_ne_null)
      (fun y445 hy445 => rfl)) ?_
  refine bindOk (Json.opt_id hn (.tail _ (.tail _ (.head _))) (fun y446 hy446 => Json.ofList_ne_null)
      (fun y446 hy446 => Json.array_id (fun y447 hy447 => Attachment.json_rt))) ?_
  rfl

theorem VulnerabilityProofOfConcept.xml_body_wf {x : VulnerabilityProofOfConcept} : WellFormed true (
    (writeOpt (writeSimple "reproductionSteps") x.reproductionSteps) ++
    ((writeOpt (writeSimple "environment") x.environment) ++
    ((writeOpt (writeList "supportingMaterial" (Attachment.writeXml "attachment")) x.supportingMaterial)))) :=
  (.append (writeOpt_wf fun _ _ => writeSimple_wf)
    (.append (writeOpt_wf fun _ _ => writeSimple_wf)
    (writeOpt_wf fun _ _ => (writeList_wf fun _ _ => Attachment.xml_wf))))

theorem VulnerabilityProofOfConcept.xml_one {x : VulnerabilityProofOfConcept} :
    OneElement true "proofOfConcept" (VulnerabilityProofOfConcept.writeXml x) :=
  writeElem_one goodNil (VulnerabilityProofOfConcept.xml_body_wf)

theorem VulnerabilityProofOfConcept.xml_wf {x : VulnerabilityProofOfConcept} :
    WellFormed true (VulnerabilityProofOfConcept.writeXml x) :=
  (VulnerabilityProofOfConcept.xml_one).wf

theorem VulnerabilityProofOfConcept.arms_local :
    ∀ p ∈ VulnerabilityProofOfConcept.arms, LocalArm p.1 p.2 :=
  (armsCons (arm_local readSimple_local _)
    (armsCons (arm_local readSimple_local _)
    (armsCons (arm_local (readList_local (Attachment.xml_local (tag := "attachment") (by decide))) _)
    armsNil)))

theorem VulnerabilityProofOfConcept.xml_local {tag : String} (ht : tag ∈ ignoring) :
    LocalAt tag VulnerabilityProofOfConcept.readXml :=
  readStruct_local (fun _ => ht) (VulnerabilityProofOfConcept.arms_local)

theorem VulnerabilityProofOfConcept.xml_reads {ns : Option String} {x : VulnerabilityProofOfConcept} (h : VulnerabilityProofOfConcept.XmlOk x) :
    Reads ns (VulnerabilityProofOfConcept.writeXml x) "proofOfConcept" VulnerabilityProofOfConcept.readXml x := by
  have hn : ["reproductionSteps", "environment", "supportingMaterial"].Nodup := by decide
  refine reads_struct (VulnerabilityProofOfConcept.xml_body_wf) rfl
      (Goes.append (Goes.opt (fun o s => { s with reproductionSteps := o }) (.head _) hn (fun _ => rfl) rfl
          (fun y452 hy452 => reads_simple (h.reproductionSteps y452 hy452)))
        (Goes.append (Goes.opt (fun o s => { s with environment := o }) (.tail _ (.head _)) hn (fun _ => rfl) rfl
          (fun y453 hy453 => reads_simple (h.environment y453 hy453)))
        (Goes.opt (fun o s => { s with supportingMaterial := o }) (.tail _ (.tail _ (.head _))) hn (fun _ => rfl) rfl
          (fun y454 hy454 => reads_list (fun y455 hy455 => Attachment.xml_reads ((h.supportingMaterial y454 hy454) y455 hy455)) (fun _ _ => Attachment.xml_wf)))
        (writeOpt_wf fun _ _ => writeSimple_wf))
        (writeOpt_wf fun _ _ => writeSimple_wf)) ?_
  rfl

theorem DataClassification.json_ne_null {x : DataClassification} :
    DataClassification.toJson x ≠ .null := Json.mk_ne_null _

theorem DataClassification.json_rt {x : DataClassification} (h : DataClassification.JsonOk x) :
    DataClassification.ofJson (DataClassification.toJson x) = .ok x := by
  have hn : ["flow", "classification"].Nodup := by decide
  refine bindOk (Json.fields_mk _) ?_
  refine bindOk (Json.req_mk hn (.head _) (Json.enum_rt h.flow)) ?_
  refine bindOk (Json.req_mk hn (.tail _ (.head _)) (rfl)) ?_
  rfl

theorem DataClassification.xml_one {loose : Bool} {x : DataClassification} :
    OneElement loose "classification" (DataClassification.writeXml x) :=
  writeElem_one (goodAttrs (by decide : ["flow"].Nodup)) (.chars _)

theorem DataClassification.xml_wf {loose : Bool} {x : DataClassification} :
    WellFormed loose (DataClassification.writeXml x) := DataClassification.xml_one.wf

theorem DataClassification.xml_local {tag : String} : LocalAt tag DataClassification.readXml :=
  readWith_local readSimple_local

theorem DataClassification.xml_reads {ns : Option String} {x : DataClassification} (h : DataClassification.XmlOk x) :
    Reads ns (DataClassification.writeXml x) "classification" DataClassification.readXml x := by
  have ha : ["flow"].Nodup := by decide
  refine reads_with (p := (DataFlowType.display x.flow)) (reads_text h.classification) ?_ ?_
  · refine bindOk (reqAttr_mk ha (.head _)) ?_
    exact congrArg Except.ok rfl
  · show _ = _
    rw [show DataFlowType.new (DataFlowType.display x.flow) = x.flow from h.flow]

theorem ServiceData.json_ne_null {x : ServiceData} : ServiceData.toJson x ≠ .null :=
  Json.mk_ne_null _

theorem ServiceData.json_rt {x : ServiceData} (h : ServiceData.JsonOk x) :
    ServiceData.ofJson (ServiceData.toJson x) = .ok x := by
  have hn : ["name", "description", "flow", "classification", "governance", "source",
    "destination"].Nodup := by decide
  have hc : DataClassification.ofJson (.obj (Json.mkFields
      [("name", x.name.map Json.str), ("description", x.description.map Json.str),
       ("flow", some (Json.ofEnum DataFlowType.display x.classification.flow)),
       ("classification", some (Json.str x.classification.classification)),
       ("governance", x.governance.map DataGovernance.toJson),
       ("source", x.source.map (Json.ofList Json.str)),
       ("destination", x.destination.map (Json.ofList Json.str))])) = .ok x.classification := by
    refine bindOk rfl ?_
    refine bindOk (Json.req_mk hn (.tail _ (.tail _ (.head _)))
      (Json.enum_rt h.classification.flow)) ?_
    refine bindOk (Json.req_mk hn (.tail _ (.tail _ (.tail _ (.head _)))) rfl) ?_
    rfl
  refine bindOk (Json.fields_mk _) ?_
  refine bindOk (Json.opt_id hn (.head _) (fun _ _ => Json.str_ne_null) (fun _ _ => rfl)) ?_
  refine bindOk (Json.opt_id hn (.tail _ (.head _)) (fun _ _ => Json.str_ne_null) (fun _ _ => rfl)) ?_
  refine bindOk hc ?_
  refine bindOk (Json.opt_id hn (.tail _ (.tail _ (.tail _ (.tail _ (.head _)))))
    (fun _ _ => DataGovernance.json_ne_null) (fun _ _ => DataGovernance.json_rt)) ?_
  refine bindOk (Json.opt_id hn (.tail _ (.tail _ (.tail _ (.tail _ (.tail _ (.head _))))))
    (fun _ _ => Json.ofList_ne_null) (fun _ _ => Json.array_id (fun _ _ => rfl))) ?_
  refine bindOk (Json.opt_id hn (.tail _ (.tail _ (.tail _ (.tail _ (.tail _ (.tail _ (.head _)))))))
    (fun _ _ => Json.ofList_ne_null) (fun _ _ => Json.array_id (fun _ _ => rfl))) ?_
  rfl

theorem ServiceData.xml_body_wf {loose : Bool} {x : ServiceData} : WellFormed loose (
    (DataClassification.writeXml x.classification) ++
    ((writeOpt (DataGovernance.writeXml "governance") x.governance) ++
    ((writeOpt (writeList "source" (writeSimple "url")) x.source) ++
    (writeOpt (writeList "destination" (writeSimple "url")) x.destination)))) :=
  .append DataClassification.xml_wf (.append (writeOpt_wf fun _ _ => DataGovernance.xml_wf)
    (.append (writeOpt_wf fun _ _ => writeList_wf fun _ _ => writeSimple_wf)
      (writeOpt_wf fun _ _ => writeList_wf fun _ _ => writeSimple_wf)))

theorem ServiceData.xml_one {x : ServiceData} :
    OneElement true "dataflow" (ServiceData.writeXml x) := by
  refine writeElem_one ?_ ServiceData.xml_body_wf
  obtain ⟨n, d, _, _, _, _⟩ := x
  cases n <;> cases d
  · exact .inl (by simp [mkAttrs])
  · exact .inl (by simp [mkAttrs])
  · exact .inl (by simp [mkAttrs])
  · exact .inr ⟨rfl, .inr ⟨rfl, rfl⟩⟩

theorem ServiceData.xml_wf {x : ServiceData} : WellFormed true (ServiceData.writeXml x) :=
  ServiceData.xml_one.wf

theorem ServiceData.xml_local {tag : String} (ht : tag ∈ ignoring) :
    LocalAt tag ServiceData.readXml :=
  readStruct_local (fun _ => ht) (armsCons (arm_local DataClassification.xml_local _)
    (armsCons (arm_local (DataGovernance.xml_local (tag := "governance") (by decide)) _)
    (armsCons (arm_local (readList_local readSimple_local) _)
    (armsCons (arm_local (readList_local readSimple_local) _) armsNil))))

theorem ServiceData.xml_reads {ns : Option String} {x : ServiceData} (h : ServiceData.XmlOk x) :
    Reads ns (ServiceData.writeXml x) "dataflow" ServiceData.readXml x := by
  obtain ⟨name, description, classification, governance, source, destination⟩ := x
  obtain rfl : description = none := h.description
  have hn : ["classification", "governance", "source", "destination"].Nodup := by decide
  refine reads_struct (p := (name, none)) ServiceData.xml_body_wf ?_
    (Goes.append (Goes.one (DataClassification.xml_reads h.classification) (.head _) hn)
      (Goes.append (Goes.opt (fun o s => { s with governance := o }) (.tail _ (.head _)) hn
          (fun _ => rfl) rfl (fun y hy => DataGovernance.xml_reads (h.governance y hy)))
        (Goes.append (Goes.opt (fun o s => { s with source := o }) (.tail _ (.tail _ (.head _))) hn
            (fun _ => rfl) rfl
            (fun y hy => reads_list (fun z hz => reads_simple (h.source y hy z hz))
              (fun _ _ => writeSimple_wf)))
          (Goes.opt (fun o s => { s with destination := o }) (.tail _ (.tail _ (.tail _ (.head _)))) hn
            (fun _ => rfl) rfl
            (fun y hy => reads_list (fun z hz => reads_simple (h.destination y hy z hz))
              (fun _ _ => writeSimple_wf)))
          (writeOpt_wf fun _ _ => writeList_wf fun _ _ => writeSimple_wf))
        (writeOpt_wf fun _ _ => DataGovernance.xml_wf))
      DataClassification.xml_wf) rfl
  cases name <;> rfl

theorem ServiceDataChoice.json_ne_null {v : SpecVersion} {x : ServiceDataChoice} :
    ServiceDataChoice.toJson v x ≠ .null := by
  cases x with
  | classification l => exact nofun
  | serviceData l => cases v <;> exact nofun

theorem ServiceDataChoice.json_rt (v : SpecVersion) {x : ServiceDataChoice}
    (h : ServiceDataChoice.JsonOk v x) :
    ServiceDataChoice.ofJson v (ServiceDataChoice.toJson v x) = .ok (x.at v) := by
  have main : ∀ l : List DataClassification, (∀ x ∈ l, DataClassification.JsonOk x) →
      ServiceDataChoice.ofJson v (Json.ofList DataClassification.toJson l) =
        .ok (.classification l) := by
    intro l h
    have : Json.array DataClassification.ofJson (Json.ofList DataClassification.toJson l) = .ok l :=
      Json.array_id fun y hy => DataClassification.json_rt (h y hy)
    rw [ServiceDataChoice.ofJson, this]
  cases x with
  | classification l => exact main l h
  | serviceData l =>
    have h' : ∀ x ∈ l.map (·.classification), DataClassification.JsonOk x := by
      intro x hx
      obtain ⟨y, hy, rfl⟩ := List.mem_map.mp hx
      exact h.2 y hy
    cases v with
    | v1_3 => exact main _ h'
    | v1_4 => exact main _ h'
    | v1_5 => exact absurd rfl h.1

theorem ServiceDataChoice.xml_inner_wf {loose : Bool} {v : SpecVersion}
    (hl : v = .v1_5 → loose = true) {x : ServiceDataChoice} :
    WellFormed loose (ServiceDataChoice.writeInner v x) := by
  cases x with
  | classification l => exact flatMap_wf fun _ _ => DataClassification.xml_wf
  | serviceData l =>
    cases v with
    | v1_3 => exact flatMap_wf fun _ _ => DataClassification.xml_wf
    | v1_4 => exact flatMap_wf fun _ _ => DataClassification.xml_wf
    | v1_5 => exact WellFormed.loosen (flatMap_wf fun _ _ => ServiceData.xml_wf) (hl rfl)

theorem ServiceDataChoice.xml_one {loose : Bool} {v : SpecVersion}
    (hl : v = .v1_5 → loose = true) {x : ServiceDataChoice} :
    OneElement loose "data" (ServiceDataChoice.writeXml v x) :=
  writeElem_one goodNil (ServiceDataChoice.xml_inner_wf hl)

theorem ServiceDataChoice.xml_wf {loose : Bool} {v : SpecVersion}
    (hl : v = .v1_5 → loose = true) {x : ServiceDataChoice} :
    WellFormed loose (ServiceDataChoice.writeXml v x) := (ServiceDataChoice.xml_one hl).wf

theorem ServiceDataChoice.xml_local (v : SpecVersion) {tag : String} (ht : tag ∈ ignoring) :
    LocalAt tag (ServiceDataChoice.readXml v) :=
  readStruct_local (fun _ => ht) (armsAppend
    (armsCons (arm_local DataClassification.xml_local _) armsNil)
    (armsSince15 (armsCons (arm_local (ServiceData.xml_local (tag := "dataflow") (by decide)) _) armsNil)))

theorem ServiceDataChoice.reads_classes (v : SpecVersion) {ns : Option String}
    {l : List DataClassification} (h : ∀ x ∈ l, DataClassification.XmlOk x) :
    Reads ns (writeElem "data" [] (l.flatMap DataClassification.writeXml)) "data"
      (ServiceDataChoice.readXml v) (.classification l) := by
  cases v with
  | v1_3 =>
    have hn : ["classification"].Nodup := by decide
    exact reads_struct (flatMap_wf fun _ _ => DataClassification.xml_wf) rfl
      (Goes.inlineReq (fun o s => { s with classifications := o }) (.head _) hn (fun _ _ => rfl) rfl
        (fun y hy => DataClassification.xml_reads (h y hy)) (fun _ => DataClassification.xml_wf)) rfl
  | v1_4 =>
    have hn : ["classification"].Nodup := by decide
    exact reads_struct (flatMap_wf fun _ _ => DataClassification.xml_wf) rfl
      (Goes.inlineReq (fun o s => { s with classifications := o }) (.head _) hn (fun _ _ => rfl) rfl
        (fun y hy => DataClassification.xml_reads (h y hy)) (fun _ => DataClassification.xml_wf)) rfl
  | v1_5 =>
    have hn : ["classification", "dataflow"].Nodup := by decide
    exact reads_struct (flatMap_wf fun _ _ => DataClassification.xml_wf) rfl
      (Goes.inlineReq (fun o s => { s with classifications := o }) (.head _) hn (fun _ _ => rfl) rfl
        (fun y hy => DataClassification.xml_reads (h y hy)) (fun _ => DataClassification.xml_wf)) rfl

theorem ServiceDataChoice.xml_reads (v : SpecVersion) {ns : Option String} {x : ServiceDataChoice}
    (h : ServiceDataChoice.XmlOk v x) :
    Reads ns (ServiceDataChoice.writeXml v x) "data" (ServiceDataChoice.readXml v) (x.at v) := by
  cases x with
  | classification l => exact ServiceDataChoice.reads_classes v h
  | serviceData l =>
    have h' : v ≠ .v1_5 → ∀ x ∈ l.map (·.classification), DataClassification.XmlOk x := by
      intro hv x hx
      obtain ⟨y, hy, rfl⟩ := List.mem_map.mp hx
      exact h.2 hv y hy
    cases v with
    | v1_3 => exact ServiceDataChoice.reads_classes .v1_3 (h' nofun)
    | v1_4 => exact ServiceDataChoice.reads_classes .v1_4 (h' nofun)
    | v1_5 =>
      have hn : ["classification", "dataflow"].Nodup := by decide
      refine reads_struct (flatMap_wf fun _ _ => ServiceData.xml_wf) rfl
        (Goes.inlineReq (fun o s => { s with serviceData := o }) (.tail _ (.head _)) hn
          (fun _ _ => rfl) rfl
          (fun y hy => ServiceData.xml_reads ((h.1 rfl).2 y hy)) (fun _ => ServiceData.xml_wf)) ?_
      cases l with
      | nil => exact absurd rfl (h.1 rfl).1
      | cons y l => rfl

theorem Swid.json_ne_null {x : Swid} :
    Swid.toJson x ≠ .null := Json.mk_ne_null _

theorem Swid.json_rt {x : Swid} (h : Swid.JsonOk x) :
    Swid.ofJson (Swid.toJson x) = .ok x := by
  have hn : ["tagId", "name", "version", "tagVersion", "patch", "text", "url"].Nodup := by decide
  refine bindOk (Json.fields_mk _) ?_
  refine bindOk (Json.req_mk hn (.head _) (rfl)) ?_
  refine bindOk (Json.req_mk hn (.tail _ (.head _)) (rfl)) ?_
  refine bindOk (Json.opt_id hn (.tail _ (.tail _ (.head _))) (fun y458 hy458 => Json.str_ne_null)
      (fun y458 hy458 => rfl)) ?_
  refine bindOk (Json.opt_id hn (.tail _ (.tail _ (.tail _ (.head _)))) (fun y459 hy459 => Json.nat_ne_null)
      (fun y459 hy459 => Json.u32_rt (h.tagVersion y459 hy459))) ?_
  refine bindOk (Json.opt_id hn (.tail _ (.tail _ (.tail _ (.tail _ (.head _))))) (fun y460 hy460 => Json.bool_ne_null)
      (fun y460 hy460 => rfl)) ?_
  refine bindOk (Json.opt_id hn (.tail _ (.tail _ (.tail _ (.tail _ (.tail _ (.head _)))))) (fun y461 hy461 => AttachedText.json_ne_null)
      (fun y461 hy461 => AttachedText.json_rt (h.text y461 hy461))) ?_
  refine bindOk (Json.opt_id hn (.tail _ (.tail _ (.tail _ (.tail _ (.tail _ (.tail _ (.head _))))))) (fun y462 hy462 => Json.str_ne_null)
      (fun y462 hy462 => rfl)) ?_
  rfl

theorem optParse_u32 {el : String} {x : Option Nat} (h : ∀ y, x = some y → y < 2 ^ 32) :
    optParse (parseU32Attr el) (x.map showNat) = .ok x := by
  cases x with
  | none => rfl
  | some y => simp [optParse, parseU32Attr, parseU32_show (h y rfl), Except.map]

theorem optParse_bool {el : String} {x : Option Bool} :
    optParse (parseBool el) (x.map boolStr) = .ok x := by
  cases x with
  | none => rfl
  | some y => cases y <;> rfl

theorem Swid.xml_body_wf {loose : Bool} {x : Swid} : WellFormed loose (
    (writeOpt (AttachedText.writeXml "text") x.text) ++ (writeOpt (writeSimple "url") x.url)) :=
  .append (writeOpt_wf fun _ _ => AttachedText.xml_wf) (writeOpt_wf fun _ _ => writeSimple_wf)

theorem Swid.xml_one {loose : Bool} {x : Swid} : OneElement loose "swid" (Swid.writeXml x) :=
  writeElem_one (goodAttrs
    (by decide : ["tagId", "name", "version", "tagVersion", "patch"].Nodup)) Swid.xml_body_wf

theorem Swid.xml_wf {loose : Bool} {x : Swid} : WellFormed loose (Swid.writeXml x) :=
  Swid.xml_one.wf

theorem Swid.xml_local {tag : String} : LocalAt tag Swid.readXml :=
  readStruct_local (by simp) (armsCons (arm_local AttachedText.xml_local _)
    (armsCons (arm_local readSimple_local _) armsNil))

theorem Swid.xml_reads {ns : Option String} {x : Swid} (h : Swid.XmlOk x) :
    Reads ns (Swid.writeXml x) "swid" Swid.readXml x := by
  have hn : ["text", "url"].Nodup := by decide
  have ha : ["tagId", "name", "version", "tagVersion", "patch"].Nodup := by decide
  refine reads_struct (p := (x.tagId, x.name, x.version, x.tagVersion, x.patch)) Swid.xml_body_wf ?_
    (Goes.append (Goes.opt (fun o s => { s with text := o }) (.head _) hn (fun _ => rfl) rfl
        (fun y hy => AttachedText.xml_reads (h.text y hy)))
      (Goes.opt (fun o s => { s with url := o }) (.tail _ (.head _)) hn (fun _ => rfl) rfl
        (fun y hy => reads_simple (h.url y hy)))
      (writeOpt_wf fun _ _ => AttachedText.xml_wf)) rfl
  have e2 : optAttr (mkAttrs [("tagId", some x.tagId), ("name", some x.name), ("version", x.version),
      ("tagVersion", x.tagVersion.map showNat), ("patch", x.patch.map boolStr)]) "version" = x.version :=
    optAttr_mk ha (.tail _ (.tail _ (.head _)))
  have e3 : optAttr (mkAttrs [("tagId", some x.tagId), ("name", some x.name), ("version", x.version),
      ("tagVersion", x.tagVersion.map showNat), ("patch", x.patch.map boolStr)]) "tagVersion" = x.tagVersion.map showNat :=
    optAttr_mk ha (.tail _ (.tail _ (.tail _ (.head _))))
  have e4 : optAttr (mkAttrs [("tagId", some x.tagId), ("name", some x.name), ("version", x.version),
      ("tagVersion", x.tagVersion.map showNat), ("patch", x.patch.map boolStr)]) "patch" = x.patch.map boolStr :=
    optAttr_mk ha (.tail _ (.tail _ (.tail _ (.tail _ (.head _)))))
  refine bindOk (reqAttr_mk ha (.head _)) ?_
  refine bindOk (reqAttr_mk ha (.tail _ (.head _))) ?_
  rw [e2, e3, e4]
  refine bindOk (optParse_u32 h.tagVersion) ?_
  exact bindOk optParse_bool rfl

theorem LifecycleDescription.json_ne_null {x : LifecycleDescription} :
    LifecycleDescription.toJson x ≠ .null := Json.mk_ne_null _

theorem LifecycleDescription.json_rt {x : LifecycleDescription} :
    LifecycleDescription.ofJson (LifecycleDescription.toJson x) = .ok x := by
  have hn : ["name", "description"].Nodup := by decide
  refine bindOk (Json.fields_mk _) ?_
  refine bindOk (Json.req_mk hn (.head _) (rfl)) ?_
  refine bindOk (Json.opt_id hn (.tail _ (.head _)) (fun y463 hy463 => Json.str_ne_null)
      (fun y463 hy463 => rfl)) ?_
  rfl

theorem Lifecycle.json_ne_null {x : Lifecycle} : Lifecycle.toJson x ≠ .null := by
  cases x <;> exact nofun

theorem Lifecycle.json_rt {x : Lifecycle} (h : Lifecycle.JsonOk x) :
    Lifecycle.ofJson (Lifecycle.toJson x) = .ok x := by
  cases x with
  | phase p => exact congrArg (fun q => Except.ok (Lifecycle.phase q)) h
  | description d =>
    obtain ⟨n, d⟩ := d
    cases d <;> rfl

theorem Lifecycle.xml_one {loose : Bool} {x : Lifecycle} :
    OneElement loose "lifecycle" (Lifecycle.writeXml x) := by
  cases x with
  | phase p => exact writeElem_one goodNil writeSimple_wf
  | description d =>
    exact writeElem_one goodNil (.append writeSimple_wf (writeOpt_wf fun _ _ => writeSimple_wf))

theorem Lifecycle.xml_wf {loose : Bool} {x : Lifecycle} :
    WellFormed loose (Lifecycle.writeXml x) := Lifecycle.xml_one.wf

theorem Lifecycle.xml_local {tag : String} : LocalAt tag Lifecycle.readXml :=
  readStruct_local (by simp) (armsCons (arm_local readSimple_local _)
    (armsCons (arm_local readSimple_local _) (armsCons (arm_local readSimple_local _) armsNil)))

theorem Lifecycle.xml_reads {ns : Option String} {x : Lifecycle} (h : Lifecycle.XmlOk x) :
    Reads ns (Lifecycle.writeXml x) "lifecycle" Lifecycle.readXml x := by
  have hn : ["phase", "name", "description"].Nodup := by decide
  cases x with
  | phase p =>
    exact reads_struct writeSimple_wf rfl (Goes.one (reads_simple h.2) (.head _) hn)
      (congrArg (fun q => Except.ok (Lifecycle.phase q)) h.1)
  | description d =>
    exact reads_struct (.append writeSimple_wf (writeOpt_wf fun _ _ => writeSimple_wf)) rfl
      (Goes.append (Goes.one (reads_simple h.1) (.tail _ (.head _)) hn)
        (Goes.opt (fun o s => { s with description := o }) (.tail _ (.tail _ (.head _))) hn
          (fun _ => rfl) rfl (fun y hy => reads_simple (h.2 y hy))) writeSimple_wf) rfl

end Cdx
