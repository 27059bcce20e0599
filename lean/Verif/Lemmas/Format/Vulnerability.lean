import Verif.Lemmas.Xml
import Verif.Lemmas.Json
import Verif.Spec.Format.Vulnerability
import Verif.Lemmas.Format.Metadata

set_option linter.unusedSectionVars false
set_option linter.unusedSimpArgs false
set_option linter.unusedVariables false

/-!
# Lemmas on the file formats: vulnerabilities
-/

namespace Cdx

variable [F32Format]

variable [ReadLimit]

theorem reads_none {ns : Option String} {tag : String} :
    Reads ns (writeSimple tag "") tag readOptional none := by
  refine ⟨[], [], ?_, fun rest => ?_⟩
  · have h : xmlTrim "" = "" := by decide +kernel
    simp [writeSimple, deliver, h]
  · simp [readOptional]

/-- An optional text that is written even if it is absent. -/
theorem reads_always {ns : Option String} {tag : String} {o : Option String}
    (h : ∀ s, o = some s → Trimmed s ∧ s ≠ "") :
    Reads ns (writeSimple tag (o.getD "")) tag readOptional o := by
  cases o with
  | none => exact reads_none
  | some s => exact reads_optional (h s rfl).1 (h s rfl).2

theorem Vulnerability.json_ne_null {v : SpecVersion} {x : Vulnerability} :
    Vulnerability.toJson v x ≠ .null := Json.mk_ne_null _

theorem Vulnerability.json_rt (v : SpecVersion) {x : Vulnerability} (h : Vulnerability.JsonOk v x) :
    Vulnerability.ofJson v (Vulnerability.toJson v x) = .ok (x.at v) := by
  cases v with
  | v1_3 =>
    have hn : ["bom-ref", "id", "source", "references", "ratings", "cwes", "description", "detail", "recommendation", "advisories", "created", "published", "updated", "credits", "tools", "analysis", "affects", "properties"].Nodup := by decide
    refine bindOk (Json.fields_mk _) ?_
    refine bindOk (Json.opt_id hn (.head _) (fun y1056 hy1056 => Json.str_ne_null)
        (fun y1056 hy1056 => rfl)) ?_
    refine bindOk (Json.opt_id hn (.tail _ (.head _)) (fun y1057 hy1057 => Json.str_ne_null)
        (fun y1057 hy1057 => rfl)) ?_
    refine bindOk (Json.opt_id hn (.tail _ (.tail _ (.head _))) (fun y1058 hy1058 => VulnerabilitySource.json_ne_null)
        (fun y1058 hy1058 => VulnerabilitySource.json_rt)) ?_
    refine bindOk (Json.opt_id hn (.tail _ (.tail _ (.tail _ (.head _)))) (fun y1059 hy1059 => Json.ofList_ne_null)
        (fun y1059 hy1059 => Json.array_id (fun y1060 hy1060 => VulnerabilityReference.json_rt))) ?_
    refine bindOk (Json.opt_id hn (.tail _ (.tail _ (.tail _ (.tail _ (.head _))))) (fun y1061 hy1061 => Json.ofList_ne_null)
        (fun y1061 hy1061 => Json.array_id (fun y1062 hy1062 => VulnerabilityRating.json_rt ((h.vulnerabilityRatings y1061 hy1061) y1062 hy1062)))) ?_
    refine bindOk (Json.opt_id hn (.tail _ (.tail _ (.tail _ (.tail _ (.tail _ (.head _)))))) (fun y1063 hy1063 => Json.ofList_ne_null)
        (fun y1063 hy1063 => Json.array_id (fun y1064 hy1064 => Json.u32_rt ((h.cwes y1063 hy1063) y1064 hy1064)))) ?_
    refine bindOk (Json.opt_id hn (.tail _ (.tail _ (.tail _ (.tail _ (.tail _ (.tail _ (.head _))))))) (fun y1065 hy1065 => Json.str_ne_null)
        (fun y1065 hy1065 => rfl)) ?_
    refine bindOk (Json.opt_id hn (.tail _ (.tail _ (.tail _ (.tail _ (.tail _ (.tail _ (.tail _ (.head _)))))))) (fun y1066 hy1066 => Json.str_ne_null)
        (fun y1066 hy1066 => rfl)) ?_
    refine bindOk (Json.opt_id hn (.tail _ (.tail _ (.tail _ (.tail _ (.tail _ (.tail _ (.tail _ (.tail _ (.head _))))))))) (fun y1067 hy1067 => Json.str_ne_null)
        (fun y1067 hy1067 => rfl)) ?_
    refine bindOk rfl ?_
    refine bindOk rfl ?_
    refine bindOk (Json.opt_id hn (.tail _ (.tail _ (.tail _ (.tail _ (.tail _ (.tail _ (.tail _ (.tail _ (.tail _ (.head _)))))))))) (fun y1068 hy1068 => Json.ofList_ne_null)
        (fun y1068 hy1068 => Json.array_id (fun y1069 hy1069 => Advisory.json_rt))) ?_
    refine bindOk (Json.opt_id hn (.tail _ (.tail _ (.tail _ (.tail _ (.tail _ (.tail _ (.tail _ (.tail _ (.tail _ (.tail _ (.head _))))))))))) (fun y1070 hy1070 => Json.str_ne_null)
        (fun y1070 hy1070 => rfl)) ?_
    refine bindOk (Json.opt_id hn (.tail _ (.tail _ (.tail _ (.tail _ (.tail _ (.tail _ (.tail _ (.tail _ (.tail _ (.tail _ (.tail _ (.head _)))))))))))) (fun y1071 hy1071 => Json.str_ne_null)
        (fun y1071 hy1071 => rfl)) ?_
    refine bindOk (Json.opt_id hn (.tail _ (.tail _ (.tail _ (.tail _ (.tail _ (.tail _ (.tail _ (.tail _ (.tail _ (.tail _ (.tail _ (.tail _ (.head _))))))))))))) (fun y1072 hy1072 => Json.str_ne_null)
        (fun y1072 hy1072 => rfl)) ?_
    refine bindOk rfl ?_
    refine bindOk (Json.opt_id hn (.tail _ (.tail _ (.tail _ (.tail _ (.tail _ (.tail _ (.tail _ (.tail _ (.tail _ (.tail _ (.tail _ (.tail _ (.tail _ (.head _)))))))))))))) (fun y1073 hy1073 => VulnerabilityCredits.json_ne_null)
        (fun y1073 hy1073 => VulnerabilityCredits.json_rt)) ?_
    refine bindOk (Json.opt_mk hn (.tail _ (.tail _ (.tail _ (.tail _ (.tail _ (.tail _ (.tail _ (.tail _ (.tail _ (.tail _ (.tail _ (.tail _ (.tail _ (.tail _ (.head _))))))))))))))) (fun y1074 hy1074 => Tools.json_ne_null)
        (fun y1074 hy1074 => Tools.json_rt .v1_3 (h.tools y1074 hy1074))) ?_
    refine bindOk (Json.opt_mk hn (.tail _ (.tail _ (.tail _ (.tail _ (.tail _ (.tail _ (.tail _ (.tail _ (.tail _ (.tail _ (.tail _ (.tail _ (.tail _ (.tail _ (.tail _ (.head _)))))))))))))))) (fun y1075 hy1075 => VulnerabilityAnalysis.json_ne_null)
        (fun y1075 hy1075 => VulnerabilityAnalysis.json_rt .v1_3 (h.vulnerabilityAnalysis y1075 hy1075))) ?_
    refine bindOk (Json.opt_id hn (.tail _ (.tail _ (.tail _ (.tail _ (.tail _ (.tail _ (.tail _ (.tail _ (.tail _ (.tail _ (.tail _ (.tail _ (.tail _ (.tail _ (.tail _ (.tail _ (.head _))))))))))))))))) (fun y1076 hy1076 => Json.ofList_ne_null)
        (fun y1076 hy1076 => Json.array_id (fun y1077 hy1077 => VulnerabilityTarget.json_rt ((h.vulnerabilityTargets y1076 hy1076) y1077 hy1077)))) ?_
    refine bindOk (Json.opt_id hn (.tail _ (.tail _ (.tail _ (.tail _ (.tail _ (.tail _ (.tail _ (.tail _ (.tail _ (.tail _ (.tail _ (.tail _ (.tail _ (.tail _ (.tail _ (.tail _ (.tail _ (.head _)))))))))))))))))) (fun y1078 hy1078 => Json.ofList_ne_null)
        (fun y1078 hy1078 => Json.array_id (fun y1079 hy1079 => Property.json_rt))) ?_
    rfl
  | v1_4 =>
    have hn : ["bom-ref", "id", "source", "references", "ratings", "cwes", "description", "detail", "recommendation", "advisories", "created", "published", "updated", "credits", "tools", "analysis", "affects", "properties"].Nodup := by decide
    refine bindOk (Json.fields_mk _) ?_
    refine bindOk (Json.opt_id hn (.head _) (fun y1080 hy1080 => Json.str_ne_null)
        (fun y1080 hy1080 => rfl)) ?_
    refine bindOk (Json.opt_id hn (.tail _ (.head _)) (fun y1081 hy1081 => Json.str_ne_null)
        (fun y1081 hy1081 => rfl)) ?_
    refine bindOk (Json.opt_id hn (.tail _ (.tail _ (.head _))) (fun y1082 hy1082 => VulnerabilitySource.json_ne_null)
        (fun y1082 hy1082 => VulnerabilitySource.json_rt)) ?_
    refine bindOk (Json.opt_id hn (.tail _ (.tail _ (.tail _ (.head _)))) (fun y1083 hy1083 => Json.ofList_ne_null)
        (fun y1083 hy1083 => Json.array_id (fun y1084 hy1084 => VulnerabilityReference.json_rt))) ?_
    refine bindOk (Json.opt_id hn (.tail _ (.tail _ (.tail _ (.tail _ (.head _))))) (fun y1085 hy1085 => Json.ofList_ne_null)
        (fun y1085 hy1085 => Json.array_id (fun y1086 hy1086 => VulnerabilityRating.json_rt ((h.vulnerabilityRatings y1085 hy1085) y1086 hy1086)))) ?_
    refine bindOk (Json.opt_id hn (.tail _ (.tail _ (.tail _ (.tail _ (.tail _ (.head _)))))) (fun y1087 hy1087 => Json.ofList_ne_null)
        (fun y1087 hy1087 => Json.array_id (fun y1088 hy1088 => Json.u32_rt ((h.cwes y1087 hy1087) y1088 hy1088)))) ?_
    refine bindOk (Json.opt_id hn (.tail _ (.tail _ (.tail _ (.tail _ (.tail _ (.tail _ (.head _))))))) (fun y1089 hy1089 => Json.str_ne_null)
        (fun y1089 hy1089 => rfl)) ?_
    refine bindOk (Json.opt_id hn (.tail _ (.tail _ (.tail _ (.tail _ (.tail _ (.tail _ (.tail _ (.head _)))))))) (fun y1090 hy1090 => Json.str_ne_null)
        (fun y1090 hy1090 => rfl)) ?_
    refine bindOk (Json.opt_id hn (.tail _ (.tail _ (.tail _ (.tail _ (.tail _ (.tail _ (.tail _ (.tail _ (.head _))))))))) (fun y1091 hy1091 => Json.str_ne_null)
        (fun y1091 hy1091 => rfl)) ?_
    refine bindOk rfl ?_
    refine bindOk rfl ?_
    refine bindOk (Json.opt_id hn (.tail _ (.tail _ (.tail _ (.tail _ (.tail _ (.tail _ (.tail _ (.tail _ (.tail _ (.head _)))))))))) (fun y1092 hy1092 => Json.ofList_ne_null)
        (fun y1092 hy1092 => Json.array_id (fun y1093 hy1093 => Advisory.json_rt))) ?_
    refine bindOk (Json.opt_id hn (.tail _ (.tail _ (.tail _ (.tail _ (.tail _ (.tail _ (.tail _ (.tail _ (.tail _ (.tail _ (.head _))))))))))) (fun y1094 hy1094 => Json.str_ne_null)
        (fun y1094 hy1094 => rfl)) ?_
    refine bindOk (Json.opt_id hn (.tail _ (.tail _ (.tail _ (.tail _ (.tail _ (.tail _ (.tail _ (.tail _ (.tail _ (.tail _ (.tail _ (.head _)))))))))))) (fun y1095 hy1095 => Json.str_ne_null)
        (fun y1095 hy1095 => rfl)) ?_
    refine bindOk (Json.opt_id hn (.tail _ (.tail _ (.tail _ (.tail _ (.tail _ (.tail _ (.tail _ (.tail _ (.tail _ (.tail _ (.tail _ (.tail _ (.head _))))))))))))) (fun y1096 hy1096 => Json.str_ne_null)
        (fun y1096 hy1096 => rfl)) ?_
    refine bindOk rfl ?_
    refine bindOk (Json.opt_id hn (.tail _ (.tail _ (.tail _ (.tail _ (.tail _ (.tail _ (.tail _ (.tail _ (.tail _ (.tail _ (.tail _ (.tail _ (.tail _ (.head _)))))))))))))) (fun y1097 hy1097 => VulnerabilityCredits.json_ne_null)
        (fun y1097 hy1097 => VulnerabilityCredits.json_rt)) ?_
    refine bindOk (Json.opt_mk hn (.tail _ (.tail _ (.tail _ (.tail _ (.tail _ (.tail _ (.tail _ (.tail _ (.tail _ (.tail _ (.tail _ (.tail _ (.tail _ (.tail _ (.head _))))))))))))))) (fun y1098 hy1098 => Tools.json_ne_null)
        (fun y1098 hy1098 => Tools.json_rt .v1_4 (h.tools y1098 hy1098))) ?_
    refine bindOk (Json.opt_mk hn (.tail _ (.tail _ (.tail _ (.tail _ (.tail _ (.tail _ (.tail _ (.tail _ (.tail _ (.tail _ (.tail _ (.tail _ (.tail _ (.tail _ (.tail _ (.head _)))))))))))))))) (fun y1099 hy1099 => VulnerabilityAnalysis.json_ne_null)
        (fun y1099 hy1099 => VulnerabilityAnalysis.json_rt .v1_4 (h.vulnerabilityAnalysis y1099 hy1099))) ?_
    refine bindOk (Json.opt_id hn (.tail _ (.tail _ (.tail _ (.tail _ (.tail _ (.tail _ (.tail _ (.tail _ (.tail _ (.tail _ (.tail _ (.tail _ (.tail _ (.tail _ (.tail _ (.tail _ (.head _))))))))))))))))) (fun y1100 hy1100 => Json.ofList_ne_null)
        (fun y1100 hy1100 => Json.array_id (fun y1101 hy1101 => VulnerabilityTarget.json_rt ((h.vulnerabilityTargets y1100 hy1100) y1101 hy1101)))) ?_
    refine bindOk (Json.opt_id hn (.tail _ (.tail _ (.tail _ (.tail _ (.tail _ (.tail _ (.tail _ (.tail _ (.tail _ (.tail _ (.tail _ (.tail _ (.tail _ (.tail _ (.tail _ (.tail _ (.tail _ (.head _)))))))))))))))))) (fun y1102 hy1102 => Json.ofList_ne_null)
        (fun y1102 hy1102 => Json.array_id (fun y1103 hy1103 => Property.json_rt))) ?_
    rfl
  | v1_5 =>
    have hn : ["bom-ref", "id", "source", "references", "ratings", "cwes", "description", "detail", "recommendation", "advisories", "created", "published", "updated", "credits", "tools", "analysis", "affects", "properties", "workaround", "proofOfConcept", "rejected"].Nodup := by decide
    refine bindOk (Json.fields_mk _) ?_
    refine bindOk (Json.opt_id hn (.head _) (fun y1104 hy1104 => Json.str_ne_null)
        (fun y1104 hy1104 => rfl)) ?_
    refine bindOk (Json.opt_id hn (.tail _ (.head _)) (fun y1105 hy1105 => Json.str_ne_null)
        (fun y1105 hy1105 => rfl)) ?_
    refine bindOk (Json.opt_id hn (.tail _ (.tail _ (.head _))) (fun y1106 hy1106 => VulnerabilitySource.json_ne_null)
        (fun y1106 hy1106 => VulnerabilitySource.json_rt)) ?_
    refine bindOk (Json.opt_id hn (.tail _ (.tail _ (.tail _ (.head _)))) (fun y1107 hy1107 => Json.ofList_ne_null)
        (fun y1107 hy1107 => Json.array_id (fun y1108 hy1108 => VulnerabilityReference.json_rt))) ?_
    refine bindOk (Json.opt_id hn (.tail _ (.tail _ (.tail _ (.tail _ (.head _))))) (fun y1109 hy1109 => Json.ofList_ne_null)
        (fun y1109 hy1109 => Json.array_id (fun y1110 hy1110 => VulnerabilityRating.json_rt ((h.vulnerabilityRatings y1109 hy1109) y1110 hy1110)))) ?_
    refine bindOk (Json.opt_id hn (.tail _ (.tail _ (.tail _ (.tail _ (.tail _ (.head _)))))) (fun y1111 hy1111 => Json.ofList_ne_null)
        (fun y1111 hy1111 => Json.array_id (fun y1112 hy1112 => Json.u32_rt ((h.cwes y1111 hy1111) y1112 hy1112)))) ?_
    refine bindOk (Json.opt_id hn (.tail _ (.tail _ (.tail _ (.tail _ (.tail _ (.tail _ (.head _))))))) (fun y1113 hy1113 => Json.str_ne_null)
        (fun y1113 hy1113 => rfl)) ?_
    refine bindOk (Json.opt_id hn (.tail _ (.tail _ (.tail _ (.tail _ (.tail _ (.tail _ (.tail _ (.head _)))))))) (fun y1114 hy1114 => Json.str_ne_null)
        (fun y1114 hy1114 => rfl)) ?_
    refine bindOk (Json.opt_id hn (.tail _ (.tail _ (.tail _ (.tail _ (.tail _ (.tail _ (.tail _ (.tail _ (.head _))))))))) (fun y1115 hy1115 => Json.str_ne_null)
        (fun y1115 hy1115 => rfl)) ?_
    refine bindOk (Json.opt_id hn (.tail _ (.tail _ (.tail _ (.tail _ (.tail _ (.tail _ (.tail _ (.tail _ (.tail _ (.tail _ (.tail _ (.tail _ (.tail _ (.tail _ (.tail _ (.tail _ (.tail _ (.tail _ (.head _))))))))))))))))))) (fun y1116 hy1116 => Json.str_ne_null)
        (fun y1116 hy1116 => rfl)) ?_
    refine bindOk (Json.opt_id hn (.tail _ (.tail _ (.tail _ (.tail _ (.tail _ (.tail _ (.tail _ (.tail _ (.tail _ (.tail _ (.tail _ (.tail _ (.tail _ (.tail _ (.tail _ (.tail _ (.tail _ (.tail _ (.tail _ (.head _)))))))))))))))))))) (fun y1117 hy1117 => VulnerabilityProofOfConcept.json_ne_null)
        (fun y1117 hy1117 => VulnerabilityProofOfConcept.json_rt)) ?_
    refine bindOk (Json.opt_id hn (.tail _ (.tail _ (.tail _ (.tail _ (.tail _ (.tail _ (.tail _ (.tail _ (.tail _ (.head _)))))))))) (fun y1118 hy1118 => Json.ofList_ne_null)
        (fun y1118 hy1118 => Json.array_id (fun y1119 hy1119 => Advisory.json_rt))) ?_
    refine bindOk (Json.opt_id hn (.tail _ (.tail _ (.tail _ (.tail _ (.tail _ (.tail _ (.tail _ (.tail _ (.tail _ (.tail _ (.head _))))))))))) (fun y1120 hy1120 => Json.str_ne_null)
        (fun y1120 hy1120 => rfl)) ?_
    refine bindOk (Json.opt_id hn (.tail _ (.tail _ (.tail _ (.tail _ (.tail _ (.tail _ (.tail _ (.tail _ (.tail _ (.tail _ (.tail _ (.head _)))))))))))) (fun y1121 hy1121 => Json.str_ne_null)
        (fun y1121 hy1121 => rfl)) ?_
    refine bindOk (Json.opt_id hn (.tail _ (.tail _ (.tail _ (.tail _ (.tail _ (.tail _ (.tail _ (.tail _ (.tail _ (.tail _ (.tail _ (.tail _ (.head _))))))))))))) (fun y1122 hy1122 => Json.str_ne_null)
        (fun y1122 hy1122 => rfl)) ?_
    refine bindOk (Json.opt_id hn (.tail _ (.tail _ (.tail _ (.tail _ (.tail _ (.tail _ (.tail _ (.tail _ (.tail _ (.tail _ (.tail _ (.tail _ (.tail _ (.tail _ (.tail _ (.tail _ (.tail _ (.tail _ (.tail _ (.tail _ (.head _))))))))))))))))))))) (fun y1123 hy1123 => Json.str_ne_null)
        (fun y1123 hy1123 => rfl)) ?_
    refine bindOk (Json.opt_id hn (.tail _ (.tail _ (.tail _ (.tail _ (.tail _ (.tail _ (.tail _ (.tail _ (.tail _ (.tail _ (.tail _ (.tail _ (.tail _ (.head _)))))))))))))) (fun y1124 hy1124 => VulnerabilityCredits.json_ne_null)
        (fun y1124 hy1124 => VulnerabilityCredits.json_rt)) ?_
    refine bindOk (Json.opt_mk hn (.tail _ (.tail _ (.tail _ (.tail _ (.tail _ (.tail _ (.tail _ (.tail _ (.tail _ (.tail _ (.tail _ (.tail _ (.tail _ (.tail _ (.head _))))))))))))))) (fun y1125 hy1125 => Tools.json_ne_null)
        (fun y1125 hy1125 => Tools.json_rt .v1_5 (h.tools y1125 hy1125))) ?_
    refine bindOk (Json.opt_mk hn (.tail _ (.tail _ (.tail _ (.tail _ (.tail _ (.tail _ (.tail _ (.tail _ (.tail _ (.tail _ (.tail _ (.tail _ (.tail _ (.tail _ (.tail _ (.head _)))))))))))))))) (fun y1126 hy1126 => VulnerabilityAnalysis.json_ne_null)
        (fun y1126 hy1126 => VulnerabilityAnalysis.json_rt .v1_5 (h.vulnerabilityAnalysis y1126 hy1126))) ?_
    refine bindOk (Json.opt_id hn (.tail _ (.tail _ (.tail _ (.tail _ (.tail _ (.tail _ (.tail _ (.tail _ (.tail _ (.tail _ (.tail _ (.tail _ (.tail _ (.tail _ (.tail _ (.tail _ (.head _))))))))))))))))) (fun y1127 hy1127 => Json.ofList_ne_null)
        (fun y1127 hy1127 => Json.array_id (fun y1128 hy1128 => VulnerabilityTarget.json_rt ((h.vulnerabilityTargets y1127 hy1127) y1128 hy1128)))) ?_
    refine bindOk (Json.opt_id hn (.tail _ (.tail _ (.tail _ (.tail _ (.tail _ (.tail _ (.tail _ (.tail _ (.tail _ (.tail _ (.tail _ (.tail _ (.tail _ (.tail _ (.tail _ (.tail _ (.tail _ (.head _)))))))))))))))))) (fun y1129 hy1129 => Json.ofList_ne_null)
        (fun y1129 hy1129 => Json.array_id (fun y1130 hy1130 => Property.json_rt))) ?_
    rfl

theorem Vulnerability.xml_body_wf {loose : Bool} {v : SpecVersion} (hl : v = .v1_5 → loose = true) {x : Vulnerability} : WellFormed loose (
    (writeOpt (writeSimple "id") x.id) ++
    ((writeOpt VulnerabilitySource.writeXml x.vulnerabilitySource) ++
    ((writeOpt (writeList "references" VulnerabilityReference.writeXml) x.vulnerabilityReferences) ++
    ((writeOpt (writeList "ratings" VulnerabilityRating.writeXml) x.vulnerabilityRatings) ++
    ((writeOpt (writeList "cwes" (fun n => writeSimple "cwe" (showNat n))) x.cwes) ++
    ((writeOpt (writeSimple "description") x.description) ++
    ((writeSimple "detail" (x.detail.getD "")) ++
    ((writeOpt (writeSimple "recommendation") x.recommendation) ++
    ((writeOpt (writeList "advisories" Advisory.writeXml) x.advisories) ++
    ((writeOpt (writeSimple "created") x.created) ++
    ((writeOpt (writeSimple "published") x.published) ++
    ((writeOpt (writeSimple "updated") x.updated) ++
    ((since15 v (writeOpt (writeSimple "rejected") x.rejected) []) ++
    ((writeOpt VulnerabilityCredits.writeXml x.vulnerabilityCredits) ++
    ((writeOpt (Tools.writeXml v) x.tools) ++
    ((writeOpt (VulnerabilityAnalysis.writeXml v) x.vulnerabilityAnalysis) ++
    ((writeOpt (writeList "affects" VulnerabilityTarget.writeXml) x.vulnerabilityTargets) ++
    ((writeOpt (writeList "properties" Property.writeXml) x.properties) ++
    ((since15 v (writeOpt (writeSimple "workaround") x.workaround) [])))))))))))))))))))) :=
  (.append (writeOpt_wf fun _ _ => writeSimple_wf)
    (.append (writeOpt_wf fun _ _ => VulnerabilitySource.xml_wf)
    (.append (writeOpt_wf fun _ _ => (writeList_wf fun _ _ => VulnerabilityReference.xml_wf))
    (.append (writeOpt_wf fun _ _ => (writeList_wf fun _ _ => VulnerabilityRating.xml_wf))
    (.append (writeOpt_wf fun _ _ => (writeList_wf fun _ _ => writeSimple_wf))
    (.append (writeOpt_wf fun _ _ => writeSimple_wf)
    (.append (writeSimple_wf)
    (.append (writeOpt_wf fun _ _ => writeSimple_wf)
    (.append (writeOpt_wf fun _ _ => (writeList_wf fun _ _ => Advisory.xml_wf))
    (.append (writeOpt_wf fun _ _ => writeSimple_wf)
    (.append (writeOpt_wf fun _ _ => writeSimple_wf)
    (.append (writeOpt_wf fun _ _ => writeSimple_wf)
    (.append (since15_wf fun _ => (writeOpt_wf fun _ _ => writeSimple_wf))
    (.append (writeOpt_wf fun _ _ => VulnerabilityCredits.xml_wf)
    (.append (writeOpt_wf fun _ _ => (Tools.xml_wf hl))
    (.append (writeOpt_wf fun _ _ => VulnerabilityAnalysis.xml_wf)
    (.append (writeOpt_wf fun _ _ => (writeList_wf fun _ _ => VulnerabilityTarget.xml_wf))
    (.append (writeOpt_wf fun _ _ => (writeList_wf fun _ _ => Property.xml_wf))
    (since15_wf fun _ => (writeOpt_wf fun _ _ => writeSimple_wf))))))))))))))))))))

theorem Vulnerability.xml_one {loose : Bool} {v : SpecVersion} (hl : v = .v1_5 → loose = true) {x : Vulnerability} :
    OneElement loose "vulnerability" (Vulnerability.writeXml v x) :=
  writeElem_one (goodAttrs (by decide : ["bom-ref"].Nodup)) (Vulnerability.xml_body_wf hl)

theorem Vulnerability.xml_wf {loose : Bool} {v : SpecVersion} (hl : v = .v1_5 → loose = true) {x : Vulnerability} :
    WellFormed loose (Vulnerability.writeXml v x) :=
  (Vulnerability.xml_one hl).wf

theorem Vulnerability.arms_local (v : SpecVersion) :
    ∀ p ∈ Vulnerability.arms v, LocalArm p.1 p.2 :=
  (armsAppend (armsCons (arm_local readSimple_local _)
    (armsCons (arm_local VulnerabilitySource.xml_local _)
    (armsCons (arm_local (readListLax_local VulnerabilityReference.xml_local) _)
    (armsCons (arm_local (readListLax_local VulnerabilityRating.xml_local) _)
    (armsCons (arm_local (readList_local readU32_local) _)
    (armsCons (arm_local readSimple_local _)
    (armsCons (arm_local readOptional_local _)
    (armsCons (arm_local readSimple_local _)
    (armsCons (arm_local (readListLax_local Advisory.xml_local) _)
    (armsCons (arm_local readSimple_local _)
    (armsCons (arm_local readSimple_local _)
    (armsCons (arm_local readSimple_local _)
    (armsCons (arm_local VulnerabilityCredits.xml_local _)
    (armsCons (arm_local (Tools.xml_local v) _)
    (armsCons (arm_local (VulnerabilityAnalysis.xml_local v) _)
    (armsCons (arm_local (readListLax_local VulnerabilityTarget.xml_local) _)
    (armsCons (arm_local (readListLax_local Property.xml_local) _)
    armsNil)))))))))))))))))
    (armsSince15 (armsCons (arm_local (VulnerabilityProofOfConcept.xml_local (tag := "proofOfConcept") (by decide)) _)
    (armsCons (arm_local readSimple_local _)
    (armsCons (arm_local readSimple_local _)
    armsNil)))))

theorem Vulnerability.xml_local (v : SpecVersion) {tag : String} :
    LocalAt tag (Vulnerability.readXml v) :=
  readStruct_local (by simp) (Vulnerability.arms_local v)

theorem Vulnerability.xml_reads (v : SpecVersion) {ns : Option String} {x : Vulnerability} (h : Vulnerability.XmlOk v x) :
    Reads ns (Vulnerability.writeXml v x) "vulnerability" (Vulnerability.readXml v) (x.at v) := by
  cases v with
  | v1_3 =>
    have hn : ["id", "source", "references", "ratings", "cwes", "description", "detail", "recommendation", "advisories", "created", "published", "updated", "credits", "tools", "analysis", "affects", "properties"].Nodup := by decide
    have ha : ["bom-ref"].Nodup := by decide
    refine reads_struct (p := (x.bomRef)) (Vulnerability.xml_body_wf (fun _ => rfl)) ?_
        (Goes.append (s2 := ({ id := x.id } : Vulnerability.Vars)) (Goes.to (Goes.opt (fun o s => { s with id := o }) (.head _) hn (fun _ => rfl) rfl
            (fun y1156 hy1156 => reads_simple (h.id y1156 hy1156))) rfl)
          (Goes.append (s2 := ({ id := x.id, vulnerabilitySource := x.vulnerabilitySource } : Vulnerability.Vars)) (Goes.to (Goes.opt (fun o s => { s with vulnerabilitySource := o }) (.tail _ (.head _)) hn (fun _ => rfl) rfl
            (fun y1157 hy1157 => VulnerabilitySource.xml_reads (h.vulnerabilitySource y1157 hy1157))) rfl)
          (Goes.append (s2 := ({ id := x.id, vulnerabilitySource := x.vulnerabilitySource, vulnerabilityReferences := x.vulnerabilityReferences } : Vulnerability.Vars)) (Goes.to (Goes.opt (fun o s => { s with vulnerabilityReferences := o }) (.tail _ (.tail _ (.head _))) hn (fun _ => rfl) rfl
            (fun y1158 hy1158 => reads_listLax (fun y1159 hy1159 => VulnerabilityReference.xml_reads ((h.vulnerabilityReferences y1158 hy1158) y1159 hy1159)) (fun _ _ => VulnerabilityReference.xml_wf))) rfl)
          (Goes.append (s2 := ({ id := x.id, vulnerabilitySource := x.vulnerabilitySource, vulnerabilityReferences := x.vulnerabilityReferences, vulnerabilityRatings := x.vulnerabilityRatings } : Vulnerability.Vars)) (Goes.to (Goes.opt (fun o s => { s with vulnerabilityRatings := o }) (.tail _ (.tail _ (.tail _ (.head _)))) hn (fun _ => rfl) rfl
            (fun y1160 hy1160 => reads_listLax (fun y1161 hy1161 => VulnerabilityRating.xml_reads ((h.vulnerabilityRatings y1160 hy1160) y1161 hy1161)) (fun _ _ => VulnerabilityRating.xml_wf))) rfl)
          (Goes.append (s2 := ({ id := x.id, vulnerabilitySource := x.vulnerabilitySource, vulnerabilityReferences := x.vulnerabilityReferences, vulnerabilityRatings := x.vulnerabilityRatings, cwes := x.cwes } : Vulnerability.Vars)) (Goes.to (Goes.opt (fun o s => { s with cwes := o }) (.tail _ (.tail _ (.tail _ (.tail _ (.head _))))) hn (fun _ => rfl) rfl
            (fun y1162 hy1162 => reads_list (fun y1163 hy1163 => reads_u32 ((h.cwes y1162 hy1162) y1163 hy1163)) (fun _ _ => writeSimple_wf))) rfl)
          (Goes.append (s2 := ({ id := x.id, vulnerabilitySource := x.vulnerabilitySource, vulnerabilityReferences := x.vulnerabilityReferences, vulnerabilityRatings := x.vulnerabilityRatings, cwes := x.cwes, description := x.description } : Vulnerability.Vars)) (Goes.to (Goes.opt (fun o s => { s with description := o }) (.tail _ (.tail _ (.tail _ (.tail _ (.tail _ (.head _)))))) hn (fun _ => rfl) rfl
            (fun y1164 hy1164 => reads_simple (h.description y1164 hy1164))) rfl)
          (Goes.append (s2 := ({ id := x.id, vulnerabilitySource := x.vulnerabilitySource, vulnerabilityReferences := x.vulnerabilityReferences, vulnerabilityRatings := x.vulnerabilityRatings, cwes := x.cwes, description := x.description, detail := x.detail } : Vulnerability.Vars)) (Goes.to (Goes.one (reads_always h.detail) (.tail _ (.tail _ (.tail _ (.tail _ (.tail _ (.tail _ (.head _))))))) hn) rfl)
          (Goes.append (s2 := ({ id := x.id, vulnerabilitySource := x.vulnerabilitySource, vulnerabilityReferences := x.vulnerabilityReferences, vulnerabilityRatings := x.vulnerabilityRatings, cwes := x.cwes, description := x.description, detail := x.detail, recommendation := x.recommendation } : Vulnerability.Vars)) (Goes.to (Goes.opt (fun o s => { s with recommendation := o }) (.tail _ (.tail _ (.tail _ (.tail _ (.tail _ (.tail _ (.tail _ (.head _)))))))) hn (fun _ => rfl) rfl
            (fun y1165 hy1165 => reads_simple (h.recommendation y1165 hy1165))) rfl)
          (Goes.append (s2 := ({ id := x.id, vulnerabilitySource := x.vulnerabilitySource, vulnerabilityReferences := x.vulnerabilityReferences, vulnerabilityRatings := x.vulnerabilityRatings, cwes := x.cwes, description := x.description, detail := x.detail, recommendation := x.recommendation, advisories := x.advisories } : Vulnerability.Vars)) (Goes.to (Goes.opt (fun o s => { s with advisories := o }) (.tail _ (.tail _ (.tail _ (.tail _ (.tail _ (.tail _ (.tail _ (.tail _ (.head _))))))))) hn (fun _ => rfl) rfl
            (fun y1166 hy1166 => reads_listLax (fun y1167 hy1167 => Advisory.xml_reads ((h.advisories y1166 hy1166) y1167 hy1167)) (fun _ _ => Advisory.xml_wf))) rfl)
          (Goes.append (s2 := ({ id := x.id, vulnerabilitySource := x.vulnerabilitySource, vulnerabilityReferences := x.vulnerabilityReferences, vulnerabilityRatings := x.vulnerabilityRatings, cwes := x.cwes, description := x.description, detail := x.detail, recommendation := x.recommendation, advisories := x.advisories, created := x.created } : Vulnerability.Vars)) (Goes.to (Goes.opt (fun o s => { s with created := o }) (.tail _ (.tail _ (.tail _ (.tail _ (.tail _ (.tail _ (.tail _ (.tail _ (.tail _ (.head _)))))))))) hn (fun _ => rfl) rfl
            (fun y1168 hy1168 => reads_simple (h.created y1168 hy1168))) rfl)
          (Goes.append (s2 := ({ id := x.id, vulnerabilitySource := x.vulnerabilitySource, vulnerabilityReferences := x.vulnerabilityReferences, vulnerabilityRatings := x.vulnerabilityRatings, cwes := x.cwes, description := x.description, detail := x.detail, recommendation := x.recommendation, advisories := x.advisories, created := x.created, published := x.published } : Vulnerability.Vars)) (Goes.to (Goes.opt (fun o s => { s with published := o }) (.tail _ (.tail _ (.tail _ (.tail _ (.tail _ (.tail _ (.tail _ (.tail _ (.tail _ (.tail _ (.head _))))))))))) hn (fun _ => rfl) rfl
            (fun y1169 hy1169 => reads_simple (h.published y1169 hy1169))) rfl)
          (Goes.append (s2 := ({ id := x.id, vulnerabilitySource := x.vulnerabilitySource, vulnerabilityReferences := x.vulnerabilityReferences, vulnerabilityRatings := x.vulnerabilityRatings, cwes := x.cwes, description := x.description, detail := x.detail, recommendation := x.recommendation, advisories := x.advisories, created := x.created, published := x.published, updated := x.updated } : Vulnerability.Vars)) (Goes.to (Goes.opt (fun o s => { s with updated := o }) (.tail _ (.tail _ (.tail _ (.tail _ (.tail _ (.tail _ (.tail _ (.tail _ (.tail _ (.tail _ (.tail _ (.head _)))))))))))) hn (fun _ => rfl) rfl
            (fun y1170 hy1170 => reads_simple (h.updated y1170 hy1170))) rfl)
          (Goes.append (s2 := ({ id := x.id, vulnerabilitySource := x.vulnerabilitySource, vulnerabilityReferences := x.vulnerabilityReferences, vulnerabilityRatings := x.vulnerabilityRatings, cwes := x.cwes, description := x.description, detail := x.detail, recommendation := x.recommendation, advisories := x.advisories, created := x.created, published := x.published, updated := x.updated } : Vulnerability.Vars)) (Goes.to (Goes.nil) rfl)
          (Goes.append (s2 := ({ id := x.id, vulnerabilitySource := x.vulnerabilitySource, vulnerabilityReferences := x.vulnerabilityReferences, vulnerabilityRatings := x.vulnerabilityRatings, cwes := x.cwes, description := x.description, detail := x.detail, recommendation := x.recommendation, advisories := x.advisories, created := x.created, published := x.published, updated := x.updated, vulnerabilityCredits := x.vulnerabilityCredits } : Vulnerability.Vars)) (Goes.to (Goes.opt (fun o s => { s with vulnerabilityCredits := o }) (.tail _ (.tail _ (.tail _ (.tail _ (.tail _ (.tail _ (.tail _ (.tail _ (.tail _ (.tail _ (.tail _ (.tail _ (.head _))))))))))))) hn (fun _ => rfl) rfl
            (fun y1171 hy1171 => VulnerabilityCredits.xml_reads (h.vulnerabilityCredits y1171 hy1171))) rfl)
          (Goes.append (s2 := ({ id := x.id, vulnerabilitySource := x.vulnerabilitySource, vulnerabilityReferences := x.vulnerabilityReferences, vulnerabilityRatings := x.vulnerabilityRatings, cwes := x.cwes, description := x.description, detail := x.detail, recommendation := x.recommendation, advisories := x.advisories, created := x.created, published := x.published, updated := x.updated, vulnerabilityCredits := x.vulnerabilityCredits, tools := x.tools.map (Tools.at .v1_3) } : Vulnerability.Vars)) (Goes.to (Goes.opt_at (fun o s => { s with tools := o }) (.tail _ (.tail _ (.tail _ (.tail _ (.tail _ (.tail _ (.tail _ (.tail _ (.tail _ (.tail _ (.tail _ (.tail _ (.tail _ (.head _)))))))))))))) hn (fun _ => rfl) rfl
            (fun y1172 hy1172 => Tools.xml_reads .v1_3 (h.tools y1172 hy1172))) rfl)
          (Goes.append (s2 := ({ id := x.id, vulnerabilitySource := x.vulnerabilitySource, vulnerabilityReferences := x.vulnerabilityReferences, vulnerabilityRatings := x.vulnerabilityRatings, cwes := x.cwes, description := x.description, detail := x.detail, recommendation := x.recommendation, advisories := x.advisories, created := x.created, published := x.published, updated := x.updated, vulnerabilityCredits := x.vulnerabilityCredits, tools := x.tools.map (Tools.at .v1_3), vulnerabilityAnalysis := x.vulnerabilityAnalysis.map (VulnerabilityAnalysis.at .v1_3) } : Vulnerability.Vars)) (Goes.to (Goes.opt_at (fun o s => { s with vulnerabilityAnalysis := o }) (.tail _ (.tail _ (.tail _ (.tail _ (.tail _ (.tail _ (.tail _ (.tail _ (.tail _ (.tail _ (.tail _ (.tail _ (.tail _ (.tail _ (.head _))))))))))))))) hn (fun _ => rfl) rfl
            (fun y1173 hy1173 => VulnerabilityAnalysis.xml_reads .v1_3 (h.vulnerabilityAnalysis y1173 hy1173))) rfl)
          (Goes.append (s2 := ({ id := x.id, vulnerabilitySource := x.vulnerabilitySource, vulnerabilityReferences := x.vulnerabilityReferences, vulnerabilityRatings := x.vulnerabilityRatings, cwes := x.cwes, description := x.description, detail := x.detail, recommendation := x.recommendation, advisories := x.advisories, created := x.created, published := x.published, updated := x.updated, vulnerabilityCredits := x.vulnerabilityCredits, tools := x.tools.map (Tools.at .v1_3), vulnerabilityAnalysis := x.vulnerabilityAnalysis.map (VulnerabilityAnalysis.at .v1_3), vulnerabilityTargets := x.vulnerabilityTargets } : Vulnerability.Vars)) (Goes.to (Goes.opt (fun o s => { s with vulnerabilityTargets := o }) (.tail _ (.tail _ (.tail _ (.tail _ (.tail _ (.tail _ (.tail _ (.tail _ (.tail _ (.tail _ (.tail _ (.tail _ (.tail _ (.tail _ (.tail _ (.head _)))))))))))))))) hn (fun _ => rfl) rfl
            (fun y1174 hy1174 => reads_listLax (fun y1175 hy1175 => VulnerabilityTarget.xml_reads ((h.vulnerabilityTargets y1174 hy1174) y1175 hy1175)) (fun _ _ => VulnerabilityTarget.xml_wf))) rfl)
          (Goes.append (s2 := ({ id := x.id, vulnerabilitySource := x.vulnerabilitySource, vulnerabilityReferences := x.vulnerabilityReferences, vulnerabilityRatings := x.vulnerabilityRatings, cwes := x.cwes, description := x.description, detail := x.detail, recommendation := x.recommendation, advisories := x.advisories, created := x.created, published := x.published, updated := x.updated, vulnerabilityCredits := x.vulnerabilityCredits, tools := x.tools.map (Tools.at .v1_3), vulnerabilityAnalysis := x.vulnerabilityAnalysis.map (VulnerabilityAnalysis.at .v1_3), vulnerabilityTargets := x.vulnerabilityTargets, properties := x.properties } : Vulnerability.Vars)) (Goes.to (Goes.opt (fun o s => { s with properties := o }) (.tail _ (.tail _ (.tail _ (.tail _ (.tail _ (.tail _ (.tail _ (.tail _ (.tail _ (.tail _ (.tail _ (.tail _ (.tail _ (.tail _ (.tail _ (.tail _ (.head _))))))))))))))))) hn (fun _ => rfl) rfl
            (fun y1176 hy1176 => reads_listLax (fun y1177 hy1177 => Property.xml_reads ((h.properties y1176 hy1176) y1177 hy1177)) (fun _ _ => Property.xml_wf))) rfl)
          (Goes.nil)
          (writeOpt_wf fun _ _ => (writeList_wf fun _ _ => Property.xml_wf)))
          (writeOpt_wf fun _ _ => (writeList_wf fun _ _ => VulnerabilityTarget.xml_wf)))
          (writeOpt_wf fun _ _ => VulnerabilityAnalysis.xml_wf))
          (writeOpt_wf fun _ _ => (Tools.xml_wf fun _ => rfl)))
          (writeOpt_wf fun _ _ => VulnerabilityCredits.xml_wf))
          .nil)
          (writeOpt_wf fun _ _ => writeSimple_wf))
          (writeOpt_wf fun _ _ => writeSimple_wf))
          (writeOpt_wf fun _ _ => writeSimple_wf))
          (writeOpt_wf fun _ _ => (writeList_wf fun _ _ => Advisory.xml_wf)))
          (writeOpt_wf fun _ _ => writeSimple_wf))
          (writeSimple_wf))
          (writeOpt_wf fun _ _ => writeSimple_wf))
          (writeOpt_wf fun _ _ => (writeList_wf fun _ _ => writeSimple_wf)))
          (writeOpt_wf fun _ _ => (writeList_wf fun _ _ => VulnerabilityRating.xml_wf)))
          (writeOpt_wf fun _ _ => (writeList_wf fun _ _ => VulnerabilityReference.xml_wf)))
          (writeOpt_wf fun _ _ => VulnerabilitySource.xml_wf))
          (writeOpt_wf fun _ _ => writeSimple_wf)) ?_
    · exact congrArg Except.ok (optAttr_mk ha (.head _))
    · rfl
  | v1_4 =>
    have hn : ["id", "source", "references", "ratings", "cwes", "description", "detail", "recommendation", "advisories", "created", "published", "updated", "credits", "tools", "analysis", "affects", "properties"].Nodup := by decide
    have ha : ["bom-ref"].Nodup := by decide
    refine reads_struct (p := (x.bomRef)) (Vulnerability.xml_body_wf (fun _ => rfl)) ?_
        (Goes.append (s2 := ({ id := x.id } : Vulnerability.Vars)) (Goes.to (Goes.opt (fun o s => { s with id := o }) (.head _) hn (fun _ => rfl) rfl
            (fun y1178 hy1178 => reads_simple (h.id y1178 hy1178))) rfl)
          (Goes.append (s2 := ({ id := x.id, vulnerabilitySource := x.vulnerabilitySource } : Vulnerability.Vars)) (Goes.to (Goes.opt (fun o s => { s with vulnerabilitySource := o }) (.tail _ (.head _)) hn (fun _ => rfl) rfl
            (fun y1179 hy1179 => VulnerabilitySource.xml_reads (h.vulnerabilitySource y1179 hy1179))) rfl)
          (Goes.append (s2 := ({ id := x.id, vulnerabilitySource := x.vulnerabilitySource, vulnerabilityReferences := x.vulnerabilityReferences } : Vulnerability.Vars)) (Goes.to (Goes.opt (fun o s => { s with vulnerabilityReferences := o }) (.tail _ (.tail _ (.head _))) hn (fun _ => rfl) rfl
            (fun y1180 hy1180 => reads_listLax (fun y1181 hy1181 => VulnerabilityReference.xml_reads ((h.vulnerabilityReferences y1180 hy1180) y1181 hy1181)) (fun _ _ => VulnerabilityReference.xml_wf))) rfl)
          (Goes.append (s2 := ({ id := x.id, vulnerabilitySource := x.vulnerabilitySource, vulnerabilityReferences := x.vulnerabilityReferences, vulnerabilityRatings := x.vulnerabilityRatings } : Vulnerability.Vars)) (Goes.to (Goes.opt (fun o s => { s with vulnerabilityRatings := o }) (.tail _ (.tail _ (.tail _ (.head _)))) hn (fun _ => rfl) rfl
            (fun y1182 hy1182 => reads_listLax (fun y1183 hy1183 => VulnerabilityRating.xml_reads ((h.vulnerabilityRatings y1182 hy1182) y1183 hy1183)) (fun _ _ => VulnerabilityRating.xml_wf))) rfl)
          (Goes.append (s2 := ({ id := x.id, vulnerabilitySource := x.vulnerabilitySource, vulnerabilityReferences := x.vulnerabilityReferences, vulnerabilityRatings := x.vulnerabilityRatings, cwes := x.cwes } : Vulnerability.Vars)) (Goes.to (Goes.opt (fun o s => { s with cwes := o }) (.tail _ (.tail _ (.tail _ (.tail _ (.head _))))) hn (fun _ => rfl) rfl
            (fun y1184 hy1184 => reads_list (fun y1185 hy1185 => reads_u32 ((h.cwes y1184 hy1184) y1185 hy1185)) (fun _ _ => writeSimple_wf))) rfl)
          (Goes.append (s2 := ({ id := x.id, vulnerabilitySource := x.vulnerabilitySource, vulnerabilityReferences := x.vulnerabilityReferences, vulnerabilityRatings := x.vulnerabilityRatings, cwes := x.cwes, description := x.description } : Vulnerability.Vars)) (Goes.to (Goes.opt (fun o s => { s with description := o }) (.tail _ (.tail _ (.tail _ (.tail _ (.tail _ (.head _)))))) hn (fun _ => rfl) rfl
            (fun y1186 hy1186 => reads_simple (h.description y1186 hy1186))) rfl)
          (Goes.append (s2 := ({ id := x.id, vulnerabilitySource := x.vulnerabilitySource, vulnerabilityReferences := x.vulnerabilityReferences, vulnerabilityRatings := x.vulnerabilityRatings, cwes := x.cwes, description := x.description, detail := x.detail } : Vulnerability.Vars)) (Goes.to (Goes.one (reads_always h.detail) (.tail _ (.tail _ (.tail _ (.tail _ (.tail _ (.tail _ (.head _))))))) hn) rfl)
          (Goes.append (s2 := ({ id := x.id, vulnerabilitySource := x.vulnerabilitySource, vulnerabilityReferences := x.vulnerabilityReferences, vulnerabilityRatings := x.vulnerabilityRatings, cwes := x.cwes, description := x.description, detail := x.detail, recommendation := x.recommendation } : Vulnerability.Vars)) (Goes.to (Goes.opt (fun o s => { s with recommendation := o }) (.tail _ (.tail _ (.tail _ (.tail _ (.tail _ (.tail _ (.tail _ (.head _)))))))) hn (fun _ => rfl) rfl
            (fun y1187 hy1187 => reads_simple (h.recommendation y1187 hy1187))) rfl)
          (Goes.append (s2 := ({ id := x.id, vulnerabilitySource := x.vulnerabilitySource, vulnerabilityReferences := x.vulnerabilityReferences, vulnerabilityRatings := x.vulnerabilityRatings, cwes := x.cwes, description := x.description, detail := x.detail, recommendation := x.recommendation, advisories := x.advisories } : Vulnerability.Vars)) (Goes.to (Goes.opt (fun o s => { s with advisories := o }) (.tail _ (.tail _ (.tail _ (.tail _ (.tail _ (.tail _ (.tail _ (.tail _ (.head _))))))))) hn (fun _ => rfl) rfl
            (fun y1188 hy1188 => reads_listLax (fun y1189 hy1189 => Advisory.xml_reads ((h.advisories y1188 hy1188) y1189 hy1189)) (fun _ _ => Advisory.xml_wf))) rfl)
          (Goes.append (s2 := ({ id := x.id, vulnerabilitySource := x.vulnerabilitySource, vulnerabilityReferences := x.vulnerabilityReferences, vulnerabilityRatings := x.vulnerabilityRatings, cwes := x.cwes, description := x.description, detail := x.detail, recommendation := x.recommendation, advisories := x.advisories, created := x.created } : Vulnerability.Vars)) (Goes.to (Goes.opt (fun o s => { s with created := o }) (.tail _ (.tail _ (.tail _ (.tail _ (.tail _ (.tail _ (.tail _ (.tail _ (.tail _ (.head _)))))))))) hn (fun _ => rfl) rfl
            (fun y1190 hy1190 => reads_simple (h.created y1190 hy1190))) rfl)
          (Goes.append (s2 := ({ id := x.id, vulnerabilitySource := x.vulnerabilitySource, vulnerabilityReferences := x.vulnerabilityReferences, vulnerabilityRatings := x.vulnerabilityRatings, cwes := x.cwes, description := x.description, detail := x.detail, recommendation := x.recommendation, advisories := x.advisories, created := x.created, published := x.published } : Vulnerability.Vars)) (Goes.to (Goes.opt (fun o s => { s with published := o }) (.tail _ (.tail _ (.tail _ (.tail _ (.tail _ (.tail _ (.tail _ (.tail _ (.tail _ (.tail _ (.head _))))))))))) hn (fun _ => rfl) rfl
            (fun y1191 hy1191 => reads_simple (h.published y1191 hy1191))) rfl)
          (Goes.append (s2 := ({ id := x.id, vulnerabilitySource := x.vulnerabilitySource, vulnerabilityReferences := x.vulnerabilityReferences, vulnerabilityRatings := x.vulnerabilityRatings, cwes := x.cwes, description := x.description, detail := x.detail, recommendation := x.recommendation, advisories := x.advisories, created := x.created, published := x.published, updated := x.updated } : Vulnerability.Vars)) (Goes.to (Goes.opt (fun o s => { s with updated := o }) (.tail _ (.tail _ (.tail _ (.tail _ (.tail _ (.tail _ (.tail _ (.tail _ (.tail _ (.tail _ (.tail _ (.head _)))))))))))) hn (fun _ => rfl) rfl
            (fun y1192 hy1192 => reads_simple (h.updated y1192 hy1192))) rfl)
          (Goes.append (s2 := ({ id := x.id, vulnerabilitySource := x.vulnerabilitySource, vulnerabilityReferences := x.vulnerabilityReferences, vulnerabilityRatings := x.vulnerabilityRatings, cwes := x.cwes, description := x.description, detail := x.detail, recommendation := x.recommendation, advisories := x.advisories, created := x.created, published := x.published, updated := x.updated } : Vulnerability.Vars)) (Goes.to (Goes.nil) rfl)
          (Goes.append (s2 := ({ id := x.id, vulnerabilitySource := x.vulnerabilitySource, vulnerabilityReferences := x.vulnerabilityReferences, vulnerabilityRatings := x.vulnerabilityRatings, cwes := x.cwes, description := x.description, detail := x.detail, recommendation := x.recommendation, advisories := x.advisories, created := x.created, published := x.published, updated := x.updated, vulnerabilityCredits := x.vulnerabilityCredits } : Vulnerability.Vars)) (Goes.to (Goes.opt (fun o s => { s with vulnerabilityCredits := o }) (.tail _ (.tail _ (.tail _ (.tail _ (.tail _ (.tail _ (.tail _ (.tail _ (.tail _ (.tail _ (.tail _ (.tail _ (.head _))))))))))))) hn (fun _ => rfl) rfl
            (fun y1193 hy1193 => VulnerabilityCredits.xml_reads (h.vulnerabilityCredits y1193 hy1193))) rfl)
          (Goes.append (s2 := ({ id := x.id, vulnerabilitySource := x.vulnerabilitySource, vulnerabilityReferences := x.vulnerabilityReferences, vulnerabilityRatings := x.vulnerabilityRatings, cwes := x.cwes, description := x.description, detail := x.detail, recommendation := x.recommendation, advisories := x.advisories, created := x.created, published := x.published, updated := x.updated, vulnerabilityCredits := x.vulnerabilityCredits, tools := x.tools.map (Tools.at .v1_4) } : Vulnerability.Vars)) (Goes.to (Goes.opt_at (fun o s => { s with tools := o }) (.tail _ (.tail _ (.tail _ (.tail _ (.tail _ (.tail _ (.tail _ (.tail _ (.tail _ (.tail _ (.tail _ (.tail _ (.tail _ (.head _)))))))))))))) hn (fun _ => rfl) rfl
            (fun y1194 hy1194 => Tools.xml_reads .v1_4 (h.tools y1194 hy1194))) rfl)
          (Goes.append (s2 := ({ id := x.id, vulnerabilitySource := x.vulnerabilitySource, vulnerabilityReferences := x.vulnerabilityReferences, vulnerabilityRatings := x.vulnerabilityRatings, cwes := x.cwes, description := x.description, detail := x.detail, recommendation := x.recommendation, advisories := x.advisories, created := x.created, published := x.published, updated := x.updated, vulnerabilityCredits := x.vulnerabilityCredits, tools := x.tools.map (Tools.at .v1_4), vulnerabilityAnalysis := x.vulnerabilityAnalysis.map (VulnerabilityAnalysis.at .v1_4) } : Vulnerability.Vars)) (Goes.to (Goes.opt_at (fun o s => { s with vulnerabilityAnalysis := o }) (.tail _ (.tail _ (.tail _ (.tail _ (.tail _ (.tail _ (.tail _ (.tail _ (.tail _ (.tail _ (.tail _ (.tail _ (.tail _ (.tail _ (.head _))))))))))))))) hn (fun _ => rfl) rfl
            (fun y1195 hy1195 => VulnerabilityAnalysis.xml_reads .v1_4 (h.vulnerabilityAnalysis y1195 hy1195))) rfl)
          (Goes.append (s2 := ({ id := x.id, vulnerabilitySource := x.vulnerabilitySource, vulnerabilityReferences := x.vulnerabilityReferences, vulnerabilityRatings := x.vulnerabilityRatings, cwes := x.cwes, description := x.description, detail := x.detail, recommendation := x.recommendation, advisories := x.advisories, created := x.created, published := x.published, updated := x.updated, vulnerabilityCredits := x.vulnerabilityCredits, tools := x.tools.map (Tools.at .v1_4), vulnerabilityAnalysis := x.vulnerabilityAnalysis.map (VulnerabilityAnalysis.at .v1_4), vulnerabilityTargets := x.vulnerabilityTargets } : Vulnerability.Vars)) (Goes.to (Goes.opt (fun o s => { s with vulnerabilityTargets := o }) (.tail _ (.tail _ (.tail _ (.tail _ (.tail _ (.tail _ (.tail _ (.tail _ (.tail _ (.tail _ (.tail _ (.tail _ (.tail _ (.tail _ (.tail _ (.head _)))))))))))))))) hn (fun _ => rfl) rfl
            (fun y1196 hy1196 => reads_listLax (fun y1197 hy1197 => VulnerabilityTarget.xml_reads ((h.vulnerabilityTargets y1196 hy1196) y1197 hy1197)) (fun _ _ => VulnerabilityTarget.xml_wf))) rfl)
          (Goes.append (s2 := ({ id := x.id, vulnerabilitySource := x.vulnerabilitySource, vulnerabilityReferences := x.vulnerabilityReferences, vulnerabilityRatings := x.vulnerabilityRatings, cwes := x.cwes, description := x.description, detail := x.detail, recommendation := x.recommendation, advisories := x.advisories, created := x.created, published := x.published, updated := x.updated, vulnerabilityCredits := x.vulnerabilityCredits, tools := x.tools.map (Tools.at .v1_4), vulnerabilityAnalysis := x.vulnerabilityAnalysis.map (VulnerabilityAnalysis.at .v1_4), vulnerabilityTargets := x.vulnerabilityTargets, properties := x.properties } : Vulnerability.Vars)) (Goes.to (Goes.opt (fun o s => { s with properties := o }) (.tail _ (.tail _ (.tail _ (.tail _ (.tail _ (.tail _ (.tail _ (.tail _ (.tail _ (.tail _ (.tail _ (.tail _ (.tail _ (.tail _ (.tail _ (.tail _ (.head _))))))))))))))))) hn (fun _ => rfl) rfl
            (fun y1198 hy1198 => reads_listLax (fun y1199 hy1199 => Property.xml_reads ((h.properties y1198 hy1198) y1199 hy1199)) (fun _ _ => Property.xml_wf))) rfl)
          (Goes.nil)
          (writeOpt_wf fun _ _ => (writeList_wf fun _ _ => Property.xml_wf)))
          (writeOpt_wf fun _ _ => (writeList_wf fun _ _ => VulnerabilityTarget.xml_wf)))
          (writeOpt_wf fun _ _ => VulnerabilityAnalysis.xml_wf))
          (writeOpt_wf fun _ _ => (Tools.xml_wf fun _ => rfl)))
          (writeOpt_wf fun _ _ => VulnerabilityCredits.xml_wf))
          .nil)
          (writeOpt_wf fun _ _ => writeSimple_wf))
          (writeOpt_wf fun _ _ => writeSimple_wf))
          (writeOpt_wf fun _ _ => writeSimple_wf))
          (writeOpt_wf fun _ _ => (writeList_wf fun _ _ => Advisory.xml_wf)))
          (writeOpt_wf fun _ _ => writeSimple_wf))
          (writeSimple_wf))
          (writeOpt_wf fun _ _ => writeSimple_wf))
          (writeOpt_wf fun _ _ => (writeList_wf fun _ _ => writeSimple_wf)))
          (writeOpt_wf fun _ _ => (writeList_wf fun _ _ => VulnerabilityRating.xml_wf)))
          (writeOpt_wf fun _ _ => (writeList_wf fun _ _ => VulnerabilityReference.xml_wf)))
          (writeOpt_wf fun _ _ => VulnerabilitySource.xml_wf))
          (writeOpt_wf fun _ _ => writeSimple_wf)) ?_
    · exact congrArg Except.ok (optAttr_mk ha (.head _))
    · rfl
  | v1_5 =>
    obtain ⟨bomRef, id, vulnerabilitySource, vulnerabilityReferences, vulnerabilityRatings, cwes, description, detail, recommendation, workaround, proofOfConcept, advisories, created, published, updated, rejected, vulnerabilityCredits, tools, vulnerabilityAnalysis, vulnerabilityTargets, properties⟩ := x
    obtain rfl : proofOfConcept = none := (h.proofOfConcept rfl)
    have hn : ["id", "source", "references", "ratings", "cwes", "description", "detail", "recommendation", "advisories", "created", "published", "updated", "credits", "tools", "analysis", "affects", "properties", "proofOfConcept", "rejected", "workaround"].Nodup := by decide
    have ha : ["bom-ref"].Nodup := by decide
    refine reads_struct (p := (bomRef)) (Vulnerability.xml_body_wf (fun _ => rfl)) ?_
        (Goes.append (s2 := ({ id := id } : Vulnerability.Vars)) (Goes.to (Goes.opt (fun o s => { s with id := o }) (.head _) hn (fun _ => rfl) rfl
            (fun y1200 hy1200 => reads_simple (h.id y1200 hy1200))) rfl)
          (Goes.append (s2 := ({ id := id, vulnerabilitySource := vulnerabilitySource } : Vulnerability.Vars)) (Goes.to (Goes.opt (fun o s => { s with vulnerabilitySource := o }) (.tail _ (.head _)) hn (fun _ => rfl) rfl
            (fun y1201 hy1201 => VulnerabilitySource.xml_reads (h.vulnerabilitySource y1201 hy1201))) rfl)
          (Goes.append (s2 := ({ id := id, vulnerabilitySource := vulnerabilitySource, vulnerabilityReferences := vulnerabilityReferences } : Vulnerability.Vars)) (Goes.to (Goes.opt (fun o s => { s with vulnerabilityReferences := o }) (.tail _ (.tail _ (.head _))) hn (fun _ => rfl) rfl
            (fun y1202 hy1202 => reads_listLax (fun y1203 hy1203 => VulnerabilityReference.xml_reads ((h.vulnerabilityReferences y1202 hy1202) y1203 hy1203)) (fun _ _ => VulnerabilityReference.xml_wf))) rfl)
          (Goes.append (s2 := ({ id := id, vulnerabilitySource := vulnerabilitySource, vulnerabilityReferences := vulnerabilityReferences, vulnerabilityRatings := vulnerabilityRatings } : Vulnerability.Vars)) (Goes.to (Goes.opt (fun o s => { s with vulnerabilityRatings := o }) (.tail _ (.tail _ (.tail _ (.head _)))) hn (fun _ => rfl) rfl
            (fun y1204 hy1204 => reads_listLax (fun y1205 hy1205 => VulnerabilityRating.xml_reads ((h.vulnerabilityRatings y1204 hy1204) y1205 hy1205)) (fun _ _ => VulnerabilityRating.xml_wf))) rfl)
          (Goes.append (s2 := ({ id := id, vulnerabilitySource := vulnerabilitySource, vulnerabilityReferences := vulnerabilityReferences, vulnerabilityRatings := vulnerabilityRatings, cwes := cwes } : Vulnerability.Vars)) (Goes.to (Goes.opt (fun o s => { s with cwes := o }) (.tail _ (.tail _ (.tail _ (.tail _ (.head _))))) hn (fun _ => rfl) rfl
            (fun y1206 hy1206 => reads_list (fun y1207 hy1207 => reads_u32 ((h.cwes y1206 hy1206) y1207 hy1207)) (fun _ _ => writeSimple_wf))) rfl)
          (Goes.append (s2 := ({ id := id, vulnerabilitySource := vulnerabilitySource, vulnerabilityReferences := vulnerabilityReferences, vulnerabilityRatings := vulnerabilityRatings, cwes := cwes, description := description } : Vulnerability.Vars)) (Goes.to (Goes.opt (fun o s => { s with description := o }) (.tail _ (.tail _ (.tail _ (.tail _ (.tail _ (.head _)))))) hn (fun _ => rfl) rfl
            (fun y1208 hy1208 => reads_simple (h.description y1208 hy1208))) rfl)
          (Goes.append (s2 := ({ id := id, vulnerabilitySource := vulnerabilitySource, vulnerabilityReferences := vulnerabilityReferences, vulnerabilityRatings := vulnerabilityRatings, cwes := cwes, description := description, detail := detail } : Vulnerability.Vars)) (Goes.to (Goes.one (reads_always h.detail) (.tail _ (.tail _ (.tail _ (.tail _ (.tail _ (.tail _ (.head _))))))) hn) rfl)
          (Goes.append (s2 := ({ id := id, vulnerabilitySource := vulnerabilitySource, vulnerabilityReferences := vulnerabilityReferences, vulnerabilityRatings := vulnerabilityRatings, cwes := cwes, description := description, detail := detail, recommendation := recommendation } : Vulnerability.Vars)) (Goes.to (Goes.opt (fun o s => { s with recommendation := o }) (.tail _ (.tail _ (.tail _ (.tail _ (.tail _ (.tail _ (.tail _ (.head _)))))))) hn (fun _ => rfl) rfl
            (fun y1209 hy1209 => reads_simple (h.recommendation y1209 hy1209))) rfl)
          (Goes.append (s2 := ({ id := id, vulnerabilitySource := vulnerabilitySource, vulnerabilityReferences := vulnerabilityReferences, vulnerabilityRatings := vulnerabilityRatings, cwes := cwes, description := description, detail := detail, recommendation := recommendation, advisories := advisories } : Vulnerability.Vars)) (Goes.to (Goes.opt (fun o s => { s with advisories := o }) (.tail _ (.tail _ (.tail _ (.tail _ (.tail _ (.tail _ (.tail _ (.tail _ (.head _))))))))) hn (fun _ => rfl) rfl
            (fun y1210 hy1210 => reads_listLax (fun y1211 hy1211 => Advisory.xml_reads ((h.advisories y1210 hy1210) y1211 hy1211)) (fun _ _ => Advisory.xml_wf))) rfl)
          (Goes.append (s2 := ({ id := id, vulnerabilitySource := vulnerabilitySource, vulnerabilityReferences := vulnerabilityReferences, vulnerabilityRatings := vulnerabilityRatings, cwes := cwes, description := description, detail := detail, recommendation := recommendation, advisories := advisories, created := created } : Vulnerability.Vars)) (Goes.to (Goes.opt (fun o s => { s with created := o }) (.tail _ (.tail _ (.tail _ (.tail _ (.tail _ (.tail _ (.tail _ (.tail _ (.tail _ (.head _)))))))))) hn (fun _ => rfl) rfl
            (fun y1212 hy1212 => reads_simple (h.created y1212 hy1212))) rfl)
          (Goes.append (s2 := ({ id := id, vulnerabilitySource := vulnerabilitySource, vulnerabilityReferences := vulnerabilityReferences, vulnerabilityRatings := vulnerabilityRatings, cwes := cwes, description := description, detail := detail, recommendation := recommendation, advisories := advisories, created := created, published := published } : Vulnerability.Vars)) (Goes.to (Goes.opt (fun o s => { s with published := o }) (.tail _ (.tail _ (.tail _ (.tail _ (.tail _ (.tail _ (.tail _ (.tail _ (.tail _ (.tail _ (.head _))))))))))) hn (fun _ => rfl) rfl
            (fun y1213 hy1213 => reads_simple (h.published y1213 hy1213))) rfl)
          (Goes.append (s2 := ({ id := id, vulnerabilitySource := vulnerabilitySource, vulnerabilityReferences := vulnerabilityReferences, vulnerabilityRatings := vulnerabilityRatings, cwes := cwes, description := description, detail := detail, recommendation := recommendation, advisories := advisories, created := created, published := published, updated := updated } : Vulnerability.Vars)) (Goes.to (Goes.opt (fun o s => { s with updated := o }) (.tail _ (.tail _ (.tail _ (.tail _ (.tail _ (.tail _ (.tail _ (.tail _ (.tail _ (.tail _ (.tail _ (.head _)))))))))))) hn (fun _ => rfl) rfl
            (fun y1214 hy1214 => reads_simple (h.updated y1214 hy1214))) rfl)
          (Goes.append (s2 := ({ id := id, vulnerabilitySource := vulnerabilitySource, vulnerabilityReferences := vulnerabilityReferences, vulnerabilityRatings := vulnerabilityRatings, cwes := cwes, description := description, detail := detail, recommendation := recommendation, advisories := advisories, created := created, published := published, updated := updated, rejected := rejected } : Vulnerability.Vars)) (Goes.to (Goes.opt (fun o s => { s with rejected := o }) (.tail _ (.tail _ (.tail _ (.tail _ (.tail _ (.tail _ (.tail _ (.tail _ (.tail _ (.tail _ (.tail _ (.tail _ (.tail _ (.tail _ (.tail _ (.tail _ (.tail _ (.tail _ (.head _))))))))))))))))))) hn (fun _ => rfl) rfl
            (fun y1215 hy1215 => reads_simple ((h.rejected rfl) y1215 hy1215))) rfl)
          (Goes.append (s2 := ({ id := id, vulnerabilitySource := vulnerabilitySource, vulnerabilityReferences := vulnerabilityReferences, vulnerabilityRatings := vulnerabilityRatings, cwes := cwes, description := description, detail := detail, recommendation := recommendation, advisories := advisories, created := created, published := published, updated := updated, rejected := rejected, vulnerabilityCredits := vulnerabilityCredits } : Vulnerability.Vars)) (Goes.to (Goes.opt (fun o s => { s with vulnerabilityCredits := o }) (.tail _ (.tail _ (.tail _ (.tail _ (.tail _ (.tail _ (.tail _ (.tail _ (.tail _ (.tail _ (.tail _ (.tail _ (.head _))))))))))))) hn (fun _ => rfl) rfl
            (fun y1216 hy1216 => VulnerabilityCredits.xml_reads (h.vulnerabilityCredits y1216 hy1216))) rfl)
          (Goes.append (s2 := ({ id := id, vulnerabilitySource := vulnerabilitySource, vulnerabilityReferences := vulnerabilityReferences, vulnerabilityRatings := vulnerabilityRatings, cwes := cwes, description := description, detail := detail, recommendation := recommendation, advisories := advisories, created := created, published := published, updated := updated, rejected := rejected, vulnerabilityCredits := vulnerabilityCredits, tools := tools.map (Tools.at .v1_5) } : Vulnerability.Vars)) (Goes.to (Goes.opt_at (fun o s => { s with tools := o }) (.tail _ (.tail _ (.tail _ (.tail _ (.tail _ (.tail _ (.tail _ (.tail _ (.tail _ (.tail _ (.tail _ (.tail _ (.tail _ (.head _)))))))))))))) hn (fun _ => rfl) rfl
            (fun y1217 hy1217 => Tools.xml_reads .v1_5 (h.tools y1217 hy1217))) rfl)
          (Goes.append (s2 := ({ id := id, vulnerabilitySource := vulnerabilitySource, vulnerabilityReferences := vulnerabilityReferences, vulnerabilityRatings := vulnerabilityRatings, cwes := cwes, description := description, detail := detail, recommendation := recommendation, advisories := advisories, created := created, published := published, updated := updated, rejected := rejected, vulnerabilityCredits := vulnerabilityCredits, tools := tools.map (Tools.at .v1_5), vulnerabilityAnalysis := vulnerabilityAnalysis.map (VulnerabilityAnalysis.at .v1_5) } : Vulnerability.Vars)) (Goes.to (Goes.opt_at (fun o s => { s with vulnerabilityAnalysis := o }) (.tail _ (.tail _ (.tail _ (.tail _ (.tail _ (.tail _ (.tail _ (.tail _ (.tail _ (.tail _ (.tail _ (.tail _ (.tail _ (.tail _ (.head _))))))))))))))) hn (fun _ => rfl) rfl
            (fun y1218 hy1218 => VulnerabilityAnalysis.xml_reads .v1_5 (h.vulnerabilityAnalysis y1218 hy1218))) rfl)
          (Goes.append (s2 := ({ id := id, vulnerabilitySource := vulnerabilitySource, vulnerabilityReferences := vulnerabilityReferences, vulnerabilityRatings := vulnerabilityRatings, cwes := cwes, description := description, detail := detail, recommendation := recommendation, advisories := advisories, created := created, published := published, updated := updated, rejected := rejected, vulnerabilityCredits := vulnerabilityCredits, tools := tools.map (Tools.at .v1_5), vulnerabilityAnalysis := vulnerabilityAnalysis.map (VulnerabilityAnalysis.at .v1_5), vulnerabilityTargets := vulnerabilityTargets } : Vulnerability.Vars)) (Goes.to (Goes.opt (fun o s => { s with vulnerabilityTargets := o }) (.tail _ (.tail _ (.tail _ (.tail _ (.tail _ (.tail _ (.tail _ (.tail _ (.tail _ (.tail _ (.tail _ (.tail _ (.tail _ (.tail _ (.tail _ (.head _)))))))))))))))) hn (fun _ => rfl) rfl
            (fun y1219 hy1219 => reads_listLax (fun y1220 hy1220 => VulnerabilityTarget.xml_reads ((h.vulnerabilityTargets y1219 hy1219) y1220 hy1220)) (fun _ _ => VulnerabilityTarget.xml_wf))) rfl)
          (Goes.append (s2 := ({ id := id, vulnerabilitySource := vulnerabilitySource, vulnerabilityReferences := vulnerabilityReferences, vulnerabilityRatings := vulnerabilityRatings, cwes := cwes, description := description, detail := detail, recommendation := recommendation, advisories := advisories, created := created, published := published, updated := updated, rejected := rejected, vulnerabilityCredits := vulnerabilityCredits, tools := tools.map (Tools.at .v1_5), vulnerabilityAnalysis := vulnerabilityAnalysis.map (VulnerabilityAnalysis.at .v1_5), vulnerabilityTargets := vulnerabilityTargets, properties := properties } : Vulnerability.Vars)) (Goes.to (Goes.opt (fun o s => { s with properties := o }) (.tail _ (.tail _ (.tail _ (.tail _ (.tail _ (.tail _ (.tail _ (.tail _ (.tail _ (.tail _ (.tail _ (.tail _ (.tail _ (.tail _ (.tail _ (.tail _ (.head _))))))))))))))))) hn (fun _ => rfl) rfl
            (fun y1221 hy1221 => reads_listLax (fun y1222 hy1222 => Property.xml_reads ((h.properties y1221 hy1221) y1222 hy1222)) (fun _ _ => Property.xml_wf))) rfl)
          (Goes.opt (fun o s => { s with workaround := o }) (.tail _ (.tail _ (.tail _ (.tail _ (.tail _ (.tail _ (.tail _ (.tail _ (.tail _ (.tail _ (.tail _ (.tail _ (.tail _ (.tail _ (.tail _ (.tail _ (.tail _ (.tail _ (.tail _ (.head _)))))))))))))))))))) hn (fun _ => rfl) rfl
            (fun y1223 hy1223 => reads_simple ((h.workaround rfl) y1223 hy1223)))
          (writeOpt_wf fun _ _ => (writeList_wf fun _ _ => Property.xml_wf)))
          (writeOpt_wf fun _ _ => (writeList_wf fun _ _ => VulnerabilityTarget.xml_wf)))
          (writeOpt_wf fun _ _ => VulnerabilityAnalysis.xml_wf))
          (writeOpt_wf fun _ _ => (Tools.xml_wf fun _ => rfl)))
          (writeOpt_wf fun _ _ => VulnerabilityCredits.xml_wf))
          (writeOpt_wf fun _ _ => writeSimple_wf))
          (writeOpt_wf fun _ _ => writeSimple_wf))
          (writeOpt_wf fun _ _ => writeSimple_wf))
          (writeOpt_wf fun _ _ => writeSimple_wf))
          (writeOpt_wf fun _ _ => (writeList_wf fun _ _ => Advisory.xml_wf)))
          (writeOpt_wf fun _ _ => writeSimple_wf))
          (writeSimple_wf))
          (writeOpt_wf fun _ _ => writeSimple_wf))
          (writeOpt_wf fun _ _ => (writeList_wf fun _ _ => writeSimple_wf)))
          (writeOpt_wf fun _ _ => (writeList_wf fun _ _ => VulnerabilityRating.xml_wf)))
          (writeOpt_wf fun _ _ => (writeList_wf fun _ _ => VulnerabilityReference.xml_wf)))
          (writeOpt_wf fun _ _ => VulnerabilitySource.xml_wf))
          (writeOpt_wf fun _ _ => writeSimple_wf)) ?_
    · exact congrArg Except.ok (optAttr_mk ha (.head _))
    · rfl

end Cdx
