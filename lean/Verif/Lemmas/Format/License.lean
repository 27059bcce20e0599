import Verif.Lemmas.Xml
import Verif.Lemmas.Json
import Verif.Spec.Format.License
import Verif.Lemmas.Format.Basic

set_option linter.unusedSectionVars false
set_option linter.unusedSimpArgs false
set_option linter.unusedVariables false

/-!
# Lemmas on the file formats: licenses
-/

namespace Cdx

theorem LicenseContact.json_ne_null {x : LicenseContact} : LicenseContact.toJson x ≠ .null := by cases x <;> exact nofun

theorem LicenseContact.json_rt {x : LicenseContact} :
    LicenseContact.ofJson (LicenseContact.toJson x) = .ok (x) := by
  cases x with
  | organization y => exact Json.map_ok (OrganizationalEntity.json_rt)
  | contact y => exact Json.map_ok (OrganizationalContact.json_rt)

theorem LicenseContact.xml_inner_wf {loose : Bool} {x : LicenseContact} : WellFormed loose (LicenseContact.writeInner x) := by
  cases x with
  | organization y => exact OrganizationalEntity.xml_wf
  | contact y => exact OrganizationalContact.xml_wf

theorem LicenseContact.xml_one {loose : Bool} {tag : String} {x : LicenseContact} :
    OneElement loose tag (LicenseContact.writeXml tag x) := writeElem_one goodNil (LicenseContact.xml_inner_wf)

theorem LicenseContact.xml_wf {loose : Bool} {tag : String} {x : LicenseContact} :
    WellFormed loose (LicenseContact.writeXml tag x) := (LicenseContact.xml_one).wf

theorem LicenseContact.arms_local :
    ∀ p ∈ LicenseContact.arms, LocalArm p.1 p.2 :=
  (armsCons (arm_local OrganizationalEntity.xml_local _)
    (armsCons (arm_local OrganizationalContact.xml_local _)
    armsNil))

theorem LicenseContact.xml_local {tag : String} :
    LocalAt tag LicenseContact.readXml :=
  readStruct_local (by simp) (LicenseContact.arms_local)

theorem LicenseContact.xml_reads {ns : Option String} {tag : String} {x : LicenseContact} (h : LicenseContact.XmlOk x) :
    Reads ns (LicenseContact.writeXml tag x) tag LicenseContact.readXml x := by
  have hn : ["organization", "individual"].Nodup := by decide
  cases x with
  | organization y => exact reads_struct (LicenseContact.xml_inner_wf) rfl (Goes.one (OrganizationalEntity.xml_reads h) (.head _) hn) rfl
  | contact y => exact reads_struct (LicenseContact.xml_inner_wf) rfl (Goes.one (OrganizationalContact.xml_reads h) (.tail _ (.head _)) hn) rfl

theorem Licensing.json_ne_null {x : Licensing} :
    Licensing.toJson x ≠ .null := Json.mk_ne_null _

theorem Licensing.json_rt {x : Licensing} (h : Licensing.JsonOk x) :
    Licensing.ofJson (Licensing.toJson x) = .ok x := by
  have hn : ["altIds", "licensor", "licensee", "purchaser", "purchaseOrder", "licenseTypes", "lastRenewal", "expiration"].Nodup := by decide
  refine bindOk (Json.fields_mk _) ?_
  refine bindOk (Json.null_id hn (.head _) (fun y64 hy64 => Json.ofList_ne_null)
      (fun y64 hy64 => Json.array_id (fun y65 hy65 => rfl))) ?_
  refine bindOk (Json.null_id hn (.tail _ (.head _)) (fun y66 hy66 => LicenseContact.json_ne_null)
      (fun y66 hy66 => LicenseContact.json_rt)) ?_
  refine bindOk (Json.null_id hn (.tail _ (.tail _ (.head _))) (fun y67 hy67 => LicenseContact.json_ne_null)
      (fun y67 hy67 => LicenseContact.json_rt)) ?_
  refine bindOk (Json.null_id hn (.tail _ (.tail _ (.tail _ (.head _)))) (fun y68 hy68 => LicenseContact.json_ne_null)
      (fun y68 hy68 => LicenseContact.json_rt)) ?_
  refine bindOk (Json.null_id hn (.tail _ (.tail _ (.tail _ (.tail _ (.head _))))) (fun y69 hy69 => Json.str_ne_null)
      (fun y69 hy69 => rfl)) ?_
  refine bindOk (Json.null_id hn (.tail _ (.tail _ (.tail _ (.tail _ (.tail _ (.head _)))))) (fun y70 hy70 => Json.ofList_ne_null)
      (fun y70 hy70 => Json.array_id (fun y71 hy71 => Json.enum_rt ((h.licenseTypes y70 hy70) y71 hy71)))) ?_
  refine bindOk (Json.null_id hn (.tail _ (.tail _ (.tail _ (.tail _ (.tail _ (.tail _ (.head _))))))) (fun y72 hy72 => Json.str_ne_null)
      (fun y72 hy72 => rfl)) ?_
  refine bindOk (Json.null_id hn (.tail _ (.tail _ (.tail _ (.tail _ (.tail _ (.tail _ (.tail _ (.head _)))))))) (fun y73 hy73 => Json.str_ne_null)
      (fun y73 hy73 => rfl)) ?_
  rfl

theorem Licensing.xml_body_wf {loose : Bool} {x : Licensing} : WellFormed loose (
    (writeOpt (writeList "altIds" (writeSimple "altId")) x.altIds) ++
    ((writeOpt (LicenseContact.writeXml "licensor") x.licensor) ++
    ((writeOpt (LicenseContact.writeXml "licensee") x.licensee) ++
    ((writeOpt (LicenseContact.writeXml "purchaser") x.purchaser) ++
    ((writeOpt (writeSimple "purchaseOrder") x.purchaseOrder) ++
    ((writeOpt (writeList "licenseTypes" (fun e => writeSimple "licenseType" (LicenseType.display e))) x.licenseTypes) ++
    ((writeOpt (writeSimple "lastRenewal") x.lastRenewal) ++
    ((writeOpt (writeSimple "expiration") x.expiration))))))))) :=
  (.append (writeOpt_wf fun _ _ => (writeList_wf fun _ _ => writeSimple_wf))
    (.append (writeOpt_wf fun _ _ => LicenseContact.xml_wf)
    (.append (writeOpt_wf fun _ _ => LicenseContact.xml_wf)
    (.append (writeOpt_wf fun _ _ => LicenseContact.xml_wf)
    (.append (writeOpt_wf fun _ _ => writeSimple_wf)
    (.append (writeOpt_wf fun _ _ => (writeList_wf fun _ _ => writeSimple_wf))
    (.append (writeOpt_wf fun _ _ => writeSimple_wf)
    (writeOpt_wf fun _ _ => writeSimple_wf))))))))

theorem Licensing.xml_one {loose : Bool} {x : Licensing} :
    OneElement loose "licensing" (Licensing.writeXml x) :=
  writeElem_one goodNil (Licensing.xml_body_wf)

theorem Licensing.xml_wf {loose : Bool} {x : Licensing} :
    WellFormed loose (Licensing.writeXml x) :=
  (Licensing.xml_one).wf

theorem Licensing.arms_local :
    ∀ p ∈ Licensing.arms, LocalArm p.1 p.2 :=
  (armsCons (arm_local (readList_local readSimple_local) _)
    (armsCons (arm_local LicenseContact.xml_local _)
    (armsCons (arm_local LicenseContact.xml_local _)
    (armsCons (arm_local LicenseContact.xml_local _)
    (armsCons (arm_local readSimple_local _)
    (armsCons (arm_local (readList_local (map_local readSimple_local LicenseType.new)) _)
    (armsCons (arm_local readSimple_local _)
    (armsCons (arm_local readSimple_local _)
    armsNil))))))))

theorem Licensing.xml_local {tag : String} :
    LocalAt tag Licensing.readXml :=
  readStruct_local (by simp) (Licensing.arms_local)

theorem Licensing.xml_reads {ns : Option String} {x : Licensing} (h : Licensing.XmlOk x) :
    Reads ns (Licensing.writeXml x) "licensing" Licensing.readXml x := by
  have hn : ["altIds", "licensor", "licensee", "purchaser", "purchaseOrder", "licenseTypes", "lastRenewal", "expiration"].Nodup := by decide
  refine reads_struct (Licensing.xml_body_wf) rfl
      (Goes.append (Goes.opt (fun o s => { s with altIds := o }) (.head _) hn (fun _ => rfl) rfl
          (fun y84 hy84 => reads_list (fun y85 hy85 => reads_simple ((h.altIds y84 hy84) y85 hy85)) (fun _ _ => writeSimple_wf)))
        (Goes.append (Goes.opt (fun o s => { s with licensor := o }) (.tail _ (.head _)) hn (fun _ => rfl) rfl
          (fun y86 hy86 => LicenseContact.xml_reads (h.licensor y86 hy86)))
        (Goes.append (Goes.opt (fun o s => { s with licensee := o }) (.tail _ (.tail _ (.head _))) hn (fun _ => rfl) rfl
          (fun y87 hy87 => LicenseContact.xml_reads (h.licensee y87 hy87)))
        (Goes.append (Goes.opt (fun o s => { s with purchaser := o }) (.tail _ (.tail _ (.tail _ (.head _)))) hn (fun _ => rfl) rfl
          (fun y88 hy88 => LicenseContact.xml_reads (h.purchaser y88 hy88)))
        (Goes.append (Goes.opt (fun o s => { s with purchaseOrder := o }) (.tail _ (.tail _ (.tail _ (.tail _ (.head _))))) hn (fun _ => rfl) rfl
          (fun y89 hy89 => reads_simple (h.purchaseOrder y89 hy89)))
        (Goes.append (Goes.opt (fun o s => { s with licenseTypes := o }) (.tail _ (.tail _ (.tail _ (.tail _ (.tail _ (.head _)))))) hn (fun _ => rfl) rfl
          (fun y90 hy90 => reads_list (fun y91 hy91 => reads_enum ((h.licenseTypes y90 hy90) y91 hy91)) (fun _ _ => writeSimple_wf)))
        (Goes.append (Goes.opt (fun o s => { s with lastRenewal := o }) (.tail _ (.tail _ (.tail _ (.tail _ (.tail _ (.tail _ (.head _))))))) hn (fun _ => rfl) rfl
          (fun y92 hy92 => reads_simple (h.lastRenewal y92 hy92)))
        (Goes.opt (fun o s => { s with expiration := o }) (.tail _ (.tail _ (.tail _ (.tail _ (.tail _ (.tail _ (.tail _ (.head _)))))))) hn (fun _ => rfl) rfl
          (fun y93 hy93 => reads_simple (h.expiration y93 hy93)))
        (writeOpt_wf fun _ _ => writeSimple_wf))
        (writeOpt_wf fun _ _ => (writeList_wf fun _ _ => writeSimple_wf)))
        (writeOpt_wf fun _ _ => writeSimple_wf))
        (writeOpt_wf fun _ _ => LicenseContact.xml_wf))
        (writeOpt_wf fun _ _ => LicenseContact.xml_wf))
        (writeOpt_wf fun _ _ => LicenseContact.xml_wf))
        (writeOpt_wf fun _ _ => (writeList_wf fun _ _ => writeSimple_wf))) ?_
  rfl

theorem LicenseIdentifier.xml_wf {loose : Bool} {x : LicenseIdentifier} : WellFormed loose (LicenseIdentifier.writeXml x) := by
  cases x with
  | spdxId y => exact writeSimple_wf
  | name y => exact writeSimple_wf

theorem License.json_ne_null {v : SpecVersion} {x : License} :
    License.toJson v x ≠ .null := Json.mk_ne_null _

theorem License.json_rt (v : SpecVersion) {x : License} (h : License.JsonOk v x) :
    License.ofJson v (License.toJson v x) = .ok (x.at v) := by
  cases v with
  | v1_3 =>
    obtain ⟨bomRef, licenseIdentifier, text, url, licensing, properties⟩ := x
    cases licenseIdentifier with
    | spdxId z =>
      have hn : ["id", "text", "url"].Nodup := by decide
      refine bindOk (Json.fields_mk _) ?_
      refine bindOk rfl ?_
      refine bindOk (Json.flat_head rfl (Json.map_ok (rfl))) ?_
      refine bindOk (Json.opt_id hn (.tail _ (.head _)) (fun y96 hy96 => AttachedText.json_ne_null)
          (fun y96 hy96 => AttachedText.json_rt (h.text y96 hy96))) ?_
      refine bindOk (Json.opt_id hn (.tail _ (.tail _ (.head _))) (fun y97 hy97 => Json.str_ne_null)
          (fun y97 hy97 => rfl)) ?_
      refine bindOk rfl ?_
      refine bindOk rfl ?_
      rfl
    | name z =>
      have hn : ["name", "text", "url"].Nodup := by decide
      refine bindOk (Json.fields_mk _) ?_
      refine bindOk rfl ?_
      refine bindOk (Json.flat_head rfl (Json.map_ok (rfl))) ?_
      refine bindOk (Json.opt_id hn (.tail _ (.head _)) (fun y98 hy98 => AttachedText.json_ne_null)
          (fun y98 hy98 => AttachedText.json_rt (h.text y98 hy98))) ?_
      refine bindOk (Json.opt_id hn (.tail _ (.tail _ (.head _))) (fun y99 hy99 => Json.str_ne_null)
          (fun y99 hy99 => rfl)) ?_
      refine bindOk rfl ?_
      refine bindOk rfl ?_
      rfl
  | v1_4 =>
    obtain ⟨bomRef, licenseIdentifier, text, url, licensing, properties⟩ := x
    cases licenseIdentifier with
    | spdxId z =>
      have hn : ["id", "text", "url"].Nodup := by decide
      refine bindOk (Json.fields_mk _) ?_
      refine bindOk rfl ?_
      refine bindOk (Json.flat_head rfl (Json.map_ok (rfl))) ?_
      refine bindOk (Json.opt_id hn (.tail _ (.head _)) (fun y100 hy100 => AttachedText.json_ne_null)
          (fun y100 hy100 => AttachedText.json_rt (h.text y100 hy100))) ?_
      refine bindOk (Json.opt_id hn (.tail _ (.tail _ (.head _))) (fun y101 hy101 => Json.str_ne_null)
          (fun y101 hy101 => rfl)) ?_
      refine bindOk rfl ?_
      refine bindOk rfl ?_
      rfl
    | name z =>
      have hn : ["name", "text", "url"].Nodup := by decide
      refine bindOk (Json.fields_mk _) ?_
      refine bindOk rfl ?_
      refine bindOk (Json.flat_head rfl (Json.map_ok (rfl))) ?_
      refine bindOk (Json.opt_id hn (.tail _ (.head _)) (fun y102 hy102 => AttachedText.json_ne_null)
          (fun y102 hy102 => AttachedText.json_rt (h.text y102 hy102))) ?_
      refine bindOk (Json.opt_id hn (.tail _ (.tail _ (.head _))) (fun y103 hy103 => Json.str_ne_null)
          (fun y103 hy103 => rfl)) ?_
      refine bindOk rfl ?_
      refine bindOk rfl ?_
      rfl
  | v1_5 =>
    obtain ⟨bomRef, licenseIdentifier, text, url, licensing, properties⟩ := x
    cases licenseIdentifier with
    | spdxId z =>
      have hn : ["id", "text", "url", "bomRef", "licensing", "properties"].Nodup := by decide
      refine bindOk (Json.fields_mk _) ?_
      refine bindOk (Json.opt_id hn (.tail _ (.tail _ (.tail _ (.head _)))) (fun y104 hy104 => Json.str_ne_null)
          (fun y104 hy104 => rfl)) ?_
      refine bindOk (Json.flat_head rfl (Json.map_ok (rfl))) ?_
      refine bindOk (Json.opt_id hn (.tail _ (.head _)) (fun y105 hy105 => AttachedText.json_ne_null)
          (fun y105 hy105 => AttachedText.json_rt (h.text y105 hy105))) ?_
      refine bindOk (Json.opt_id hn (.tail _ (.tail _ (.head _))) (fun y106 hy106 => Json.str_ne_null)
          (fun y106 hy106 => rfl)) ?_
      refine bindOk (Json.opt_id hn (.tail _ (.tail _ (.tail _ (.tail _ (.head _))))) (fun y107 hy107 => Licensing.json_ne_null)
          (fun y107 hy107 => Licensing.json_rt ((h.licensing rfl) y107 hy107))) ?_
      refine bindOk (Json.opt_id hn (.tail _ (.tail _ (.tail _ (.tail _ (.tail _ (.head _)))))) (fun y108 hy108 => Json.ofList_ne_null)
          (fun y108 hy108 => Json.array_id (fun y109 hy109 => Property.json_rt))) ?_
      rfl
    | name z =>
      have hn : ["name", "text", "url", "bomRef", "licensing", "properties"].Nodup := by decide
      refine bindOk (Json.fields_mk _) ?_
      refine bindOk (Json.opt_id hn (.tail _ (.tail _ (.tail _ (.head _)))) (fun y110 hy110 => Json.str_ne_null)
          (fun y110 hy110 => rfl)) ?_
      refine bindOk (Json.flat_head rfl (Json.map_ok (rfl))) ?_
      refine bindOk (Json.opt_id hn (.tail _ (.head _)) (fun y111 hy111 => AttachedText.json_ne_null)
          (fun y111 hy111 => AttachedText.json_rt (h.text y111 hy111))) ?_
      refine bindOk (Json.opt_id hn (.tail _ (.tail _ (.head _))) (fun y112 hy112 => Json.str_ne_null)
          (fun y112 hy112 => rfl)) ?_
      refine bindOk (Json.opt_id hn (.tail _ (.tail _ (.tail _ (.tail _ (.head _))))) (fun y113 hy113 => Licensing.json_ne_null)
          (fun y113 hy113 => Licensing.json_rt ((h.licensing rfl) y113 hy113))) ?_
      refine bindOk (Json.opt_id hn (.tail _ (.tail _ (.tail _ (.tail _ (.tail _ (.head _)))))) (fun y114 hy114 => Json.ofList_ne_null)
          (fun y114 hy114 => Json.array_id (fun y115 hy115 => Property.json_rt))) ?_
      rfl

theorem License.xml_body_wf {loose : Bool} {v : SpecVersion} {x : License} : WellFormed loose (
    (LicenseIdentifier.writeXml x.licenseIdentifier) ++
    ((writeOpt (AttachedText.writeXml "text") x.text) ++
    ((writeOpt (writeSimple "url") x.url) ++
    ((since15 v (writeOpt (writeList "properties" Property.writeXml) x.properties) []))))) :=
  (.append (LicenseIdentifier.xml_wf)
    (.append (writeOpt_wf fun _ _ => AttachedText.xml_wf)
    (.append (writeOpt_wf fun _ _ => writeSimple_wf)
    (since15_wf fun _ => (writeOpt_wf fun _ _ => (writeList_wf fun _ _ => Property.xml_wf))))))

theorem License.xml_one {loose : Bool} {v : SpecVersion} {x : License} :
    OneElement loose "license" (License.writeXml v x) :=
  writeElem_one (goodAttrs (by decide : ["bom-ref"].Nodup)) (License.xml_body_wf)

theorem License.xml_wf {loose : Bool} {v : SpecVersion} {x : License} :
    WellFormed loose (License.writeXml v x) :=
  (License.xml_one).wf

theorem License.arms_local (v : SpecVersion) :
    ∀ p ∈ License.arms v, LocalArm p.1 p.2 :=
  (armsAppend (armsCons (armOnce_local readInner_local _ _)
    (armsCons (armOnce_local readInner_local _ _)
    (armsCons (arm_local AttachedText.xml_local _)
    (armsCons (arm_local readSimple_local _)
    armsNil))))
    (armsSince15 (armsCons (arm_local Licensing.xml_local _)
    (armsCons (arm_local (readListLax_local Property.xml_local) _)
    armsNil))))

theorem License.xml_local (v : SpecVersion) {tag : String} :
    LocalAt tag (License.readXml v) :=
  readStruct_local (by simp) (License.arms_local v)

theorem License.xml_reads (v : SpecVersion) {ns : Option String} {x : License} (h : License.XmlOk v x) :
    Reads ns (License.writeXml v x) "license" (License.readXml v) (x.at v) := by
  cases v with
  | v1_3 =>
    obtain ⟨bomRef, licenseIdentifier, text, url, licensing, properties⟩ := x
    cases licenseIdentifier with
    | spdxId z =>
      have hn : ["id", "name", "text", "url"].Nodup := by decide
      have ha : ["bom-ref"].Nodup := by decide
      refine reads_struct (p := (none)) (License.xml_body_wf) ?_
          (Goes.append (Goes.once (reads_inner (attrs := []) h.licenseIdentifier) (.head _) hn rfl)
            (Goes.append (Goes.opt (fun o s => { s with text := o }) (.tail _ (.tail _ (.head _))) hn (fun _ => rfl) rfl
              (fun y120 hy120 => AttachedText.xml_reads (h.text y120 hy120)))
            (Goes.append (Goes.opt (fun o s => { s with url := o }) (.tail _ (.tail _ (.tail _ (.head _)))) hn (fun _ => rfl) rfl
              (fun y121 hy121 => reads_simple (h.url y121 hy121)))
            (Goes.nil)
            (writeOpt_wf fun _ _ => writeSimple_wf))
            (writeOpt_wf fun _ _ => AttachedText.xml_wf))
            (LicenseIdentifier.xml_wf)) ?_
      · exact congrArg Except.ok rfl
      · rfl
    | name z =>
      have hn : ["id", "name", "text", "url"].Nodup := by decide
      have ha : ["bom-ref"].Nodup := by decide
      refine reads_struct (p := (none)) (License.xml_body_wf) ?_
          (Goes.append (Goes.once (reads_inner (attrs := []) h.licenseIdentifier) (.tail _ (.head _)) hn rfl)
            (Goes.append (Goes.opt (fun o s => { s with text := o }) (.tail _ (.tail _ (.head _))) hn (fun _ => rfl) rfl
              (fun y122 hy122 => AttachedText.xml_reads (h.text y122 hy122)))
            (Goes.append (Goes.opt (fun o s => { s with url := o }) (.tail _ (.tail _ (.tail _ (.head _)))) hn (fun _ => rfl) rfl
              (fun y123 hy123 => reads_simple (h.url y123 hy123)))
            (Goes.nil)
            (writeOpt_wf fun _ _ => writeSimple_wf))
            (writeOpt_wf fun _ _ => AttachedText.xml_wf))
            (LicenseIdentifier.xml_wf)) ?_
      · exact congrArg Except.ok rfl
      · rfl
  | v1_4 =>
    obtain ⟨bomRef, licenseIdentifier, text, url, licensing, properties⟩ := x
    cases licenseIdentifier with
    | spdxId z =>
      have hn : ["id", "name", "text", "url"].Nodup := by decide
      have ha : ["bom-ref"].Nodup := by decide
      refine reads_struct (p := (none)) (License.xml_body_wf) ?_
          (Goes.append (Goes.once (reads_inner (attrs := []) h.licenseIdentifier) (.head _) hn rfl)
            (Goes.append (Goes.opt (fun o s => { s with text := o }) (.tail _ (.tail _ (.head _))) hn (fun _ => rfl) rfl
              (fun y124 hy124 => AttachedText.xml_reads (h.text y124 hy124)))
            (Goes.append (Goes.opt (fun o s => { s with url := o }) (.tail _ (.tail _ (.tail _ (.head _)))) hn (fun _ => rfl) rfl
              (fun y125 hy125 => reads_simple (h.url y125 hy125)))
            (Goes.nil)
            (writeOpt_wf fun _ _ => writeSimple_wf))
            (writeOpt_wf fun _ _ => AttachedText.xml_wf))
            (LicenseIdentifier.xml_wf)) ?_
      · exact congrArg Except.ok rfl
      · rfl
    | name z =>
      have hn : ["id", "name", "text", "url"].Nodup := by decide
      have ha : ["bom-ref"].Nodup := by decide
      refine reads_struct (p := (none)) (License.xml_body_wf) ?_
          (Goes.append (Goes.once (reads_inner (attrs := []) h.licenseIdentifier) (.tail _ (.head _)) hn rfl)
            (Goes.append (Goes.opt (fun o s => { s with text := o }) (.tail _ (.tail _ (.head _))) hn (fun _ => rfl) rfl
              (fun y126 hy126 => AttachedText.xml_reads (h.text y126 hy126)))
            (Goes.append (Goes.opt (fun o s => { s with url := o }) (.tail _ (.tail _ (.tail _ (.head _)))) hn (fun _ => rfl) rfl
              (fun y127 hy127 => reads_simple (h.url y127 hy127)))
            (Goes.nil)
            (writeOpt_wf fun _ _ => writeSimple_wf))
            (writeOpt_wf fun _ _ => AttachedText.xml_wf))
            (LicenseIdentifier.xml_wf)) ?_
      · exact congrArg Except.ok rfl
      · rfl
  | v1_5 =>
    obtain ⟨bomRef, licenseIdentifier, text, url, licensing, properties⟩ := x
    cases licenseIdentifier with
    | spdxId z =>
      obtain rfl : licensing = none := (h.licensing rfl)
      have hn : ["id", "name", "text", "url", "licensing", "properties"].Nodup := by decide
      have ha : ["bom-ref"].Nodup := by decide
      refine reads_struct (p := (bomRef)) (License.xml_body_wf) ?_
          (Goes.append (Goes.once (reads_inner (attrs := []) h.licenseIdentifier) (.head _) hn rfl)
            (Goes.append (Goes.opt (fun o s => { s with text := o }) (.tail _ (.tail _ (.head _))) hn (fun _ => rfl) rfl
              (fun y128 hy128 => AttachedText.xml_reads (h.text y128 hy128)))
            (Goes.append (Goes.opt (fun o s => { s with url := o }) (.tail _ (.tail _ (.tail _ (.head _)))) hn (fun _ => rfl) rfl
              (fun y129 hy129 => reads_simple (h.url y129 hy129)))
            (Goes.opt (fun o s => { s with properties := o }) (.tail _ (.tail _ (.tail _ (.tail _ (.tail _ (.head _)))))) hn (fun _ => rfl) rfl
              (fun y130 hy130 => reads_listLax (fun y131 hy131 => Property.xml_reads (((h.properties rfl) y130 hy130) y131 hy131)) (fun _ _ => Property.xml_wf)))
            (writeOpt_wf fun _ _ => writeSimple_wf))
            (writeOpt_wf fun _ _ => AttachedText.xml_wf))
            (LicenseIdentifier.xml_wf)) ?_
      · exact congrArg Except.ok (optAttr_mk ha (.head _))
      · rfl
    | name z =>
      obtain rfl : licensing = none := (h.licensing rfl)
      have hn : ["id", "name", "text", "url", "licensing", "properties"].Nodup := by decide
      have ha : ["bom-ref"].Nodup := by decide
      refine reads_struct (p := (bomRef)) (License.xml_body_wf) ?_
          (Goes.append (Goes.once (reads_inner (attrs := []) h.licenseIdentifier) (.tail _ (.head _)) hn rfl)
            (Goes.append (Goes.opt (fun o s => { s with text := o }) (.tail _ (.tail _ (.head _))) hn (fun _ => rfl) rfl
              (fun y132 hy132 => AttachedText.xml_reads (h.text y132 hy132)))
            (Goes.append (Goes.opt (fun o s => { s with url := o }) (.tail _ (.tail _ (.tail _ (.head _)))) hn (fun _ => rfl) rfl
              (fun y133 hy133 => reads_simple (h.url y133 hy133)))
            (Goes.opt (fun o s => { s with properties := o }) (.tail _ (.tail _ (.tail _ (.tail _ (.tail _ (.head _)))))) hn (fun _ => rfl) rfl
              (fun y134 hy134 => reads_listLax (fun y135 hy135 => Property.xml_reads (((h.properties rfl) y134 hy134) y135 hy135)) (fun _ _ => Property.xml_wf)))
            (writeOpt_wf fun _ _ => writeSimple_wf))
            (writeOpt_wf fun _ _ => AttachedText.xml_wf))
            (LicenseIdentifier.xml_wf)) ?_
      · exact congrArg Except.ok (optAttr_mk ha (.head _))
      · rfl

theorem SpdxExpression.json_ne_null {x : SpdxExpression} :
    SpdxExpression.toJson x ≠ .null := Json.mk_ne_null _

theorem SpdxExpression.json_rt {x : SpdxExpression} :
    SpdxExpression.ofJson (SpdxExpression.toJson x) = .ok x := by
  have hn : ["bomRef", "expression"].Nodup := by decide
  refine bindOk (Json.fields_mk _) ?_
  refine bindOk (Json.opt_id hn (.head _) (fun y136 hy136 => Json.str_ne_null)
      (fun y136 hy136 => rfl)) ?_
  refine bindOk (Json.req_mk hn (.tail _ (.head _)) (rfl)) ?_
  rfl

theorem SpdxExpression.xml_one {loose : Bool} {x : SpdxExpression} :
    OneElement loose "expression" (SpdxExpression.writeXml x) :=
  writeElem_one (goodAttrs (by decide : ["bom-ref"].Nodup)) (.chars _)

theorem SpdxExpression.xml_wf {loose : Bool} {x : SpdxExpression} :
    WellFormed loose (SpdxExpression.writeXml x) := SpdxExpression.xml_one.wf

theorem SpdxExpression.xml_local {tag : String} : LocalAt tag SpdxExpression.readXml :=
  readWith_local readSimple_local

theorem SpdxExpression.xml_reads {ns : Option String} {x : SpdxExpression} (h : SpdxExpression.XmlOk x) :
    Reads ns (SpdxExpression.writeXml x) "expression" SpdxExpression.readXml x := by
  have ha : ["bom-ref"].Nodup := by decide
  refine reads_with (p := (x.bomRef)) (reads_text h.expression) ?_ ?_
  · exact congrArg Except.ok (optAttr_mk ha (.head _))
  · rfl

theorem SpdxExpression.not_license {x : SpdxExpression} {α : Type} {f : Json → Except String α} :
    ∃ e, Json.tagged [("license", f)] (SpdxExpression.toJson x) = .error e := by
  obtain ⟨b, e⟩ := x
  cases b with
  | none => exact ⟨_, rfl⟩
  | some b => exact ⟨_, rfl⟩

theorem LicenseChoice.json_ne_null {v : SpecVersion} {x : LicenseChoice} :
    LicenseChoice.toJson v x ≠ .null := by
  cases x <;> exact nofun

theorem LicenseChoice.json_rt (v : SpecVersion) {x : LicenseChoice} (h : LicenseChoice.JsonOk v x) :
    LicenseChoice.ofJson v (LicenseChoice.toJson v x) = .ok (x.at v) := by
  cases x with
  | license l =>
    have : Json.tagged [("license", fun j => (License.ofJson v j).map LicenseChoice.license)]
        (LicenseChoice.toJson v (.license l)) = .ok (.license (l.at v)) :=
      Json.map_ok (License.json_rt v h)
    rw [LicenseChoice.ofJson, this]
    rfl
  | expression e =>
    obtain ⟨m, hm⟩ := SpdxExpression.not_license (x := e)
      (f := fun j => (License.ofJson v j).map LicenseChoice.license)
    rw [LicenseChoice.toJson, LicenseChoice.ofJson, hm]
    exact Json.map_ok SpdxExpression.json_rt

theorem Licenses.json_ne_null {v : SpecVersion} {x : Licenses} : Licenses.toJson v x ≠ .null :=
  Json.ofList_ne_null

theorem Licenses.json_rt (v : SpecVersion) {x : Licenses} (h : Licenses.JsonOk v x) :
    Licenses.ofJson v (Licenses.toJson v x) = .ok (x.at v) :=
  Json.array_ofList fun y hy => LicenseChoice.json_rt v (h y hy)

theorem LicenseChoice.xml_wf {loose : Bool} {v : SpecVersion} {x : LicenseChoice} :
    WellFormed loose (LicenseChoice.writeXml v x) := by
  cases x with
  | license l => exact License.xml_wf
  | expression e => exact SpdxExpression.xml_wf

theorem Licenses.xml_wf {loose : Bool} {v : SpecVersion} {x : Licenses} :
    WellFormed loose (Licenses.writeXml v x) := writeList_wf fun _ _ => LicenseChoice.xml_wf

theorem Licenses.xml_local (v : SpecVersion) {tag : String} : LocalAt tag (Licenses.readXml v) :=
  readStruct_local (by simp) (armsCons (arm_local (License.xml_local v) _)
    (armsCons (arm_local SpdxExpression.xml_local _) armsNil))

theorem Licenses.xml_reads (v : SpecVersion) {ns : Option String} {x : Licenses}
    (h : Licenses.XmlOk v x) :
    Reads ns (Licenses.writeXml v x) "licenses" (Licenses.readXml v) (x.at v) := by
  have hn : ["license", "expression"].Nodup := by decide
  refine reads_struct (flatMap_wf fun _ _ => LicenseChoice.xml_wf) rfl
    (Goes.each (step := fun y l => l ++ [LicenseChoice.at v y]) (fun y hy st => ?_)
      (fun _ _ => LicenseChoice.xml_wf)) ?_
  · have h := h y hy
    cases y with
    | license l => exact Goes.one (License.xml_reads v h) (.head _) hn
    | expression e => exact Goes.one (SpdxExpression.xml_reads h) (.tail _ (.head _)) hn
  · have := foldl_snoc (x.map (LicenseChoice.at v)) []
    rw [List.foldl_map, List.nil_append] at this
    exact congrArg Except.ok this

end Cdx
