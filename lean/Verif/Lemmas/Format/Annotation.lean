import Verif.Lemmas.Xml
import Verif.Lemmas.Json
import Verif.Spec.Format.Annotation
import Verif.Lemmas.Format.Vulnerability

set_option linter.unusedSectionVars false
set_option linter.unusedSimpArgs false
set_option linter.unusedVariables false

/-!
# Lemmas on the file formats: annotations
-/

namespace Cdx

variable [F32Format]

variable [ReadLimit]

theorem Annotator.json_ne_null {v : SpecVersion} {x : Annotator} : Annotator.toJson v x ≠ .null := by cases x <;> exact nofun

theorem Annotator.json_rt (v : SpecVersion) {x : Annotator} (h : Annotator.JsonOk v x) :
    Annotator.ofJson v (Annotator.toJson v x) = .ok (x.at v) := by
  cases x with
  | organization y => exact Json.map_ok (OrganizationalEntity.json_rt)
  | individual y => exact Json.map_ok (OrganizationalContact.json_rt)
  | component y => exact Json.map_ok (Component.json_rt v h)
  | service y => exact Json.map_ok (Service.json_rt v h)

theorem Annotator.xml_inner_wf {loose : Bool} {v : SpecVersion} (hl : v = .v1_5 → loose = true) {x : Annotator} : WellFormed loose (Annotator.writeInner v x) := by
  cases x with
  | organization y => exact OrganizationalEntity.xml_wf
  | individual y => exact OrganizationalContact.xml_wf
  | component y => exact (Component.xml_wf hl)
  | service y => exact (Service.xml_wf hl)

theorem Annotator.xml_one {loose : Bool} {v : SpecVersion} (hl : v = .v1_5 → loose = true) {x : Annotator} :
    OneElement loose "annotator" (Annotator.writeXml v x) := writeElem_one goodNil (Annotator.xml_inner_wf hl)

theorem Annotator.xml_wf {loose : Bool} {v : SpecVersion} (hl : v = .v1_5 → loose = true) {x : Annotator} :
    WellFormed loose (Annotator.writeXml v x) := (Annotator.xml_one hl).wf

theorem Annotator.arms_local (v : SpecVersion) :
    ∀ p ∈ Annotator.arms v, LocalArm p.1 p.2 :=
  (armsCons (arm_local OrganizationalEntity.xml_local _)
    (armsCons (arm_local OrganizationalContact.xml_local _)
    (armsCons (arm_local (Component.xml_local v) _)
    (armsCons (arm_local (Service.xml_local v) _)
    armsNil))))

theorem Annotator.xml_local (v : SpecVersion) {tag : String} :
    LocalAt tag (Annotator.readXml v) :=
  readStruct_local (by simp) (Annotator.arms_local v)

theorem Annotator.xml_reads (v : SpecVersion) {ns : Option String} {x : Annotator} (h : Annotator.XmlOk v x) :
    Reads ns (Annotator.writeXml v x) "annotator" (Annotator.readXml v) (x.at v) := by
  have hn : ["organization", "individual", "component", "service"].Nodup := by decide
  cases x with
  | organization y => exact reads_struct (Annotator.xml_inner_wf fun _ => rfl) rfl (Goes.one (OrganizationalEntity.xml_reads h) (.head _) hn) rfl
  | individual y => exact reads_struct (Annotator.xml_inner_wf fun _ => rfl) rfl (Goes.one (OrganizationalContact.xml_reads h) (.tail _ (.head _)) hn) rfl
  | component y => exact reads_struct (Annotator.xml_inner_wf fun _ => rfl) rfl (Goes.one (Component.xml_reads v h) (.tail _ (.tail _ (.head _))) hn) rfl
  | service y => exact reads_struct (Annotator.xml_inner_wf fun _ => rfl) rfl (Goes.one (Service.xml_reads v h) (.tail _ (.tail _ (.tail _ (.head _)))) hn) rfl

theorem Annotation.subjects_wf {loose : Bool} {l : List String} :
    WellFormed loose (Annotation.writeSubjects l) := by
  unfold Annotation.writeSubjects
  split
  · exact .nil
  · exact writeList_wf fun _ _ => writeSimple_wf

theorem Annotation.json_ne_null {v : SpecVersion} {x : Annotation} :
    Annotation.toJson v x ≠ .null := Json.mk_ne_null _

theorem Annotation.json_rt (v : SpecVersion) {x : Annotation} (h : Annotation.JsonOk v x) :
    Annotation.ofJson v (Annotation.toJson v x) = .ok (x.at v) := by
  have hn : ["bom-ref", "subjects", "annotator", "timestamp", "text", "signature"].Nodup := by decide
  refine bindOk (Json.fields_mk _) ?_
  refine bindOk (Json.opt_id hn (.head _) (fun y1225 hy1225 => Json.str_ne_null)
      (fun y1225 hy1225 => rfl)) ?_
  refine bindOk (Json.req_mk hn (.tail _ (.head _)) (Json.array_id (fun _ _ => rfl))) ?_
  refine bindOk (Json.req_mk hn (.tail _ (.tail _ (.head _))) (Annotator.json_rt v h.annotator)) ?_
  refine bindOk (Json.req_mk hn (.tail _ (.tail _ (.tail _ (.head _)))) (rfl)) ?_
  refine bindOk (Json.req_mk hn (.tail _ (.tail _ (.tail _ (.tail _ (.head _))))) (rfl)) ?_
  refine bindOk (Json.opt_id hn (.tail _ (.tail _ (.tail _ (.tail _ (.tail _ (.head _)))))) (fun y1226 hy1226 => Signature.json_ne_null)
      (fun y1226 hy1226 => Signature.json_rt (h.signature y1226 hy1226))) ?_
  rfl

theorem Annotation.xml_body_wf {loose : Bool} {v : SpecVersion} (hl : v = .v1_5 → loose = true) {x : Annotation} : WellFormed loose (
    (Annotation.writeSubjects x.subjects) ++
    (((Annotator.writeXml v) x.annotator) ++
    (((writeSimple "timestamp") x.timestamp) ++
    (((writeSimple "text") x.text) ++
    ((writeOpt Signature.writeXml x.signature)))))) :=
  (.append (Annotation.subjects_wf)
    (.append ((Annotator.xml_wf hl))
    (.append (writeSimple_wf)
    (.append (writeSimple_wf)
    (writeOpt_wf fun _ _ => Signature.xml_wf)))))

theorem Annotation.xml_one {loose : Bool} {v : SpecVersion} (hl : v = .v1_5 → loose = true) {x : Annotation} :
    OneElement loose "annotation" (Annotation.writeXml v x) :=
  writeElem_one (goodAttrs (by decide : ["bom-ref"].Nodup)) (Annotation.xml_body_wf hl)

theorem Annotation.xml_wf {loose : Bool} {v : SpecVersion} (hl : v = .v1_5 → loose = true) {x : Annotation} :
    WellFormed loose (Annotation.writeXml v x) :=
  (Annotation.xml_one hl).wf

theorem Annotation.arms_local (v : SpecVersion) :
    ∀ p ∈ Annotation.arms v, LocalArm p.1 p.2 :=
  (armsCons (arm_local (readList_local readRef_local) _)
    (armsCons (arm_local (Annotator.xml_local v) _)
    (armsCons (arm_local readSimple_local _)
    (armsCons (arm_local readSimple_local _)
    (armsCons (arm_local Signature.xml_local _)
    armsNil)))))

theorem Annotation.xml_local (v : SpecVersion) {tag : String} :
    LocalAt tag (Annotation.readXml v) :=
  readStruct_local (by simp) (Annotation.arms_local v)

theorem Annotation.xml_reads (v : SpecVersion) {ns : Option String} {x : Annotation} (h : Annotation.XmlOk v x) :
    Reads ns (Annotation.writeXml v x) "annotation" (Annotation.readXml v) (x.at v) := by
  obtain ⟨bomRef, subjects, annotator, timestamp, text, signature⟩ := x
  obtain rfl : subjects = [] := h.subjects
  have hn : ["subjects", "annotator", "timestamp", "text", "signature"].Nodup := by decide
  have ha : ["bom-ref"].Nodup := by decide
  refine reads_struct (p := (bomRef)) (Annotation.xml_body_wf (fun _ => rfl)) ?_
      (Goes.append (Goes.nil)
        (Goes.append (Goes.one (Annotator.xml_reads v h.annotator) (.tail _ (.head _)) hn)
        (Goes.append (Goes.one (reads_simple h.timestamp) (.tail _ (.tail _ (.head _))) hn)
        (Goes.append (Goes.one (reads_simple h.text) (.tail _ (.tail _ (.tail _ (.head _)))) hn)
        (Goes.opt (fun o s => { s with signature := o }) (.tail _ (.tail _ (.tail _ (.tail _ (.head _))))) hn (fun _ => rfl) rfl
          (fun y1228 hy1228 => Signature.xml_reads (h.signature y1228 hy1228)))
        (writeSimple_wf))
        (writeSimple_wf))
        ((Annotator.xml_wf fun _ => rfl)))
        (Annotation.subjects_wf)) ?_
  · exact congrArg Except.ok (optAttr_mk ha (.head _))
  · rfl

end Cdx
