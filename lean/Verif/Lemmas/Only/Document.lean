import Verif.Lemmas.Only.Component

set_option linter.unusedSectionVars false
set_option linter.unusedSimpArgs false
set_option linter.unusedVariables false

/-!
# What is read back from JSON satisfies the conditions: vulnerabilities, formulations, documents
-/

namespace Cdx

variable [F32Format] [ReadLimit]

theorem Vulnerability.json_only (v : SpecVersion) {x : Vulnerability}
    (h : Vulnerability.ofJson v (Vulnerability.toJson v x) = .ok (x.at v)) :
    Vulnerability.JsonOk v x := by
  cases v with
  | v1_3 =>
    have hn : ["bom-ref", "id", "source", "references", "ratings", "cwes", "description", "detail", "recommendation", "advisories", "created", "published", "updated", "credits", "tools", "analysis", "affects", "properties"].Nodup := by decide
    have h := bindWith (Json.fields_mk _) h
    obtain ⟨_, _, h⟩ := bindInv h
    obtain ⟨_, _, h⟩ := bindInv h
    obtain ⟨_, _, h⟩ := bindInv h
    obtain ⟨_, _, h⟩ := bindInv h
    obtain ⟨_, e1, h⟩ := bindInv h
    obtain ⟨_, e2, h⟩ := bindInv h
    obtain ⟨_, _, h⟩ := bindInv h
    obtain ⟨_, _, h⟩ := bindInv h
    obtain ⟨_, _, h⟩ := bindInv h
    obtain ⟨_, _, h⟩ := bindInv h
    obtain ⟨_, _, h⟩ := bindInv h
    obtain ⟨_, _, h⟩ := bindInv h
    obtain ⟨_, _, h⟩ := bindInv h
    obtain ⟨_, _, h⟩ := bindInv h
    obtain ⟨_, _, h⟩ := bindInv h
    obtain ⟨_, _, h⟩ := bindInv h
    obtain ⟨_, _, h⟩ := bindInv h
    obtain ⟨_, e3, h⟩ := bindInv h
    obtain ⟨_, e4, h⟩ := bindInv h
    obtain ⟨_, e5, h⟩ := bindInv h
    obtain ⟨_, _, h⟩ := bindInv h
    have h := Except.ok.inj h
    exact ⟨fun y1061 hy1061 => fun y1062 hy1062 => VulnerabilityRating.json_only ((Json.array_inv_id ((Json.opt_inv_id e1 hn (.tail _ (.tail _ (.tail _ (.tail _ (.head _))))) (congrArg Vulnerability.vulnerabilityRatings h)) y1061 hy1061)) y1062 hy1062),
      fun y1063 hy1063 => fun y1064 hy1064 => Json.u32_inv ((Json.array_inv_id ((Json.opt_inv_id e2 hn (.tail _ (.tail _ (.tail _ (.tail _ (.tail _ (.head _)))))) (congrArg Vulnerability.cwes h)) y1063 hy1063)) y1064 hy1064),
      fun y1074 hy1074 => Tools.json_only .v1_3 ((Json.opt_inv e3 hn (.tail _ (.tail _ (.tail _ (.tail _ (.tail _ (.tail _ (.tail _ (.tail _ (.tail _ (.tail _ (.tail _ (.tail _ (.tail _ (.tail _ (.head _))))))))))))))) (congrArg Vulnerability.tools h)) y1074 hy1074),
      fun y1075 hy1075 => VulnerabilityAnalysis.json_only .v1_3 ((Json.opt_inv e4 hn (.tail _ (.tail _ (.tail _ (.tail _ (.tail _ (.tail _ (.tail _ (.tail _ (.tail _ (.tail _ (.tail _ (.tail _ (.tail _ (.tail _ (.tail _ (.head _)))))))))))))))) (congrArg Vulnerability.vulnerabilityAnalysis h)) y1075 hy1075),
      fun y1076 hy1076 => fun y1077 hy1077 => VulnerabilityTarget.json_only ((Json.array_inv_id ((Json.opt_inv_id e5 hn (.tail _ (.tail _ (.tail _ (.tail _ (.tail _ (.tail _ (.tail _ (.tail _ (.tail _ (.tail _ (.tail _ (.tail _ (.tail _ (.tail _ (.tail _ (.tail _ (.head _))))))))))))))))) (congrArg Vulnerability.vulnerabilityTargets h)) y1076 hy1076)) y1077 hy1077)⟩
  | v1_4 =>
    have hn : ["bom-ref", "id", "source", "references", "ratings", "cwes", "description", "detail", "recommendation", "advisories", "created", "published", "updated", "credits", "tools", "analysis", "affects", "properties"].Nodup := by decide
    have h := bindWith (Json.fields_mk _) h
    obtain ⟨_, _, h⟩ := bindInv h
    obtain ⟨_, _, h⟩ := bindInv h
    obtain ⟨_, _, h⟩ := bindInv h
    obtain ⟨_, _, h⟩ := bindInv h
    obtain ⟨_, e1, h⟩ := bindInv h
    obtain ⟨_, e2, h⟩ := bindInv h
    obtain ⟨_, _, h⟩ := bindInv h
    obtain ⟨_, _, h⟩ := bindInv h
    obtain ⟨_, _, h⟩ := bindInv h
    obtain ⟨_, _, h⟩ := bindInv h
    obtain ⟨_, _, h⟩ := bindInv h
    obtain ⟨_, _, h⟩ := bindInv h
    obtain ⟨_, _, h⟩ := bindInv h
    obtain ⟨_, _, h⟩ := bindInv h
    obtain ⟨_, _, h⟩ := bindInv h
    obtain ⟨_, _, h⟩ := bindInv h
    obtain ⟨_, _, h⟩ := bindInv h
    obtain ⟨_, e3, h⟩ := bindInv h
    obtain ⟨_, e4, h⟩ := bindInv h
    obtain ⟨_, e5, h⟩ := bindInv h
    obtain ⟨_, _, h⟩ := bindInv h
    have h := Except.ok.inj h
    exact ⟨fun y1085 hy1085 => fun y1086 hy1086 => VulnerabilityRating.json_only ((Json.array_inv_id ((Json.opt_inv_id e1 hn (.tail _ (.tail _ (.tail _ (.tail _ (.head _))))) (congrArg Vulnerability.vulnerabilityRatings h)) y1085 hy1085)) y1086 hy1086),
      fun y1087 hy1087 => fun y1088 hy1088 => Json.u32_inv ((Json.array_inv_id ((Json.opt_inv_id e2 hn (.tail _ (.tail _ (.tail _ (.tail _ (.tail _ (.head _)))))) (congrArg Vulnerability.cwes h)) y1087 hy1087)) y1088 hy1088),
      fun y1098 hy1098 => Tools.json_only .v1_4 ((Json.opt_inv e3 hn (.tail _ (.tail _ (.tail _ (.tail _ (.tail _ (.tail _ (.tail _ (.tail _ (.tail _ (.tail _ (.tail _ (.tail _ (.tail _ (.tail _ (.head _))))))))))))))) (congrArg Vulnerability.tools h)) y1098 hy1098),
      fun y1099 hy1099 => VulnerabilityAnalysis.json_only .v1_4 ((Json.opt_inv e4 hn (.tail _ (.tail _ (.tail _ (.tail _ (.tail _ (.tail _ (.tail _ (.tail _ (.tail _ (.tail _ (.tail _ (.tail _ (.tail _ (.tail _ (.tail _ (.head _)))))))))))))))) (congrArg Vulnerability.vulnerabilityAnalysis h)) y1099 hy1099),
      fun y1100 hy1100 => fun y1101 hy1101 => VulnerabilityTarget.json_only ((Json.array_inv_id ((Json.opt_inv_id e5 hn (.tail _ (.tail _ (.tail _ (.tail _ (.tail _ (.tail _ (.tail _ (.tail _ (.tail _ (.tail _ (.tail _ (.tail _ (.tail _ (.tail _ (.tail _ (.tail _ (.head _))))))))))))))))) (congrArg Vulnerability.vulnerabilityTargets h)) y1100 hy1100)) y1101 hy1101)⟩
  | v1_5 =>
    have hn : ["bom-ref", "id", "source", "references", "ratings", "cwes", "description", "detail", "recommendation", "advisories", "created", "published", "updated", "credits", "tools", "analysis", "affects", "properties", "workaround", "proofOfConcept", "rejected"].Nodup := by decide
    have h := bindWith (Json.fields_mk _) h
    obtain ⟨_, _, h⟩ := bindInv h
    obtain ⟨_, _, h⟩ := bindInv h
    obtain ⟨_, _, h⟩ := bindInv h
    obtain ⟨_, _, h⟩ := bindInv h
    obtain ⟨_, e1, h⟩ := bindInv h
    obtain ⟨_, e2, h⟩ := bindInv h
    obtain ⟨_, _, h⟩ := bindInv h
    obtain ⟨_, _, h⟩ := bindInv h
    obtain ⟨_, _, h⟩ := bindInv h
    obtain ⟨_, _, h⟩ := bindInv h
    obtain ⟨_, _, h⟩ := bindInv h
    obtain ⟨_, _, h⟩ := bindInv h
    obtain ⟨_, _, h⟩ := bindInv h
    obtain ⟨_, _, h⟩ := bindInv h
    obtain ⟨_, _, h⟩ := bindInv h
    obtain ⟨_, _, h⟩ := bindInv h
    obtain ⟨_, _, h⟩ := bindInv h
    obtain ⟨_, e3, h⟩ := bindInv h
    obtain ⟨_, e4, h⟩ := bindInv h
    obtain ⟨_, e5, h⟩ := bindInv h
    obtain ⟨_, _, h⟩ := bindInv h
    have h := Except.ok.inj h
    exact ⟨fun y1109 hy1109 => fun y1110 hy1110 => VulnerabilityRating.json_only ((Json.array_inv_id ((Json.opt_inv_id e1 hn (.tail _ (.tail _ (.tail _ (.tail _ (.head _))))) (congrArg Vulnerability.vulnerabilityRatings h)) y1109 hy1109)) y1110 hy1110),
      fun y1111 hy1111 => fun y1112 hy1112 => Json.u32_inv ((Json.array_inv_id ((Json.opt_inv_id e2 hn (.tail _ (.tail _ (.tail _ (.tail _ (.tail _ (.head _)))))) (congrArg Vulnerability.cwes h)) y1111 hy1111)) y1112 hy1112),
      fun y1125 hy1125 => Tools.json_only .v1_5 ((Json.opt_inv e3 hn (.tail _ (.tail _ (.tail _ (.tail _ (.tail _ (.tail _ (.tail _ (.tail _ (.tail _ (.tail _ (.tail _ (.tail _ (.tail _ (.tail _ (.head _))))))))))))))) (congrArg Vulnerability.tools h)) y1125 hy1125),
      fun y1126 hy1126 => VulnerabilityAnalysis.json_only .v1_5 ((Json.opt_inv e4 hn (.tail _ (.tail _ (.tail _ (.tail _ (.tail _ (.tail _ (.tail _ (.tail _ (.tail _ (.tail _ (.tail _ (.tail _ (.tail _ (.tail _ (.tail _ (.head _)))))))))))))))) (congrArg Vulnerability.vulnerabilityAnalysis h)) y1126 hy1126),
      fun y1127 hy1127 => fun y1128 hy1128 => VulnerabilityTarget.json_only ((Json.array_inv_id ((Json.opt_inv_id e5 hn (.tail _ (.tail _ (.tail _ (.tail _ (.tail _ (.tail _ (.tail _ (.tail _ (.tail _ (.tail _ (.tail _ (.tail _ (.tail _ (.tail _ (.tail _ (.tail _ (.head _))))))))))))))))) (congrArg Vulnerability.vulnerabilityTargets h)) y1127 hy1127)) y1128 hy1128)⟩

theorem Annotator.json_only (v : SpecVersion) {x : Annotator}
    (h : Annotator.ofJson v (Annotator.toJson v x) = .ok (x.at v)) : Annotator.JsonOk v x := by
  cases x with
  | organization y => trivial
  | individual y => trivial
  | component y =>
    obtain ⟨_, h, e⟩ := Json.map_inv (m := Component.ofJson v _) h
    cases e
    exact Component.json_only v h
  | service y =>
    obtain ⟨_, h, e⟩ := Json.map_inv (m := Service.ofJson v _) h
    cases e
    exact Service.json_only v h

theorem Annotation.json_only (v : SpecVersion) {x : Annotation}
    (h : Annotation.ofJson v (Annotation.toJson v x) = .ok (x.at v)) :
    Annotation.JsonOk v x := by
  have hn : ["bom-ref", "subjects", "annotator", "timestamp", "text", "signature"].Nodup := by decide
  have h := bindWith (Json.fields_mk _) h
  obtain ⟨_, _, h⟩ := bindInv h
  obtain ⟨_, _, h⟩ := bindInv h
  obtain ⟨_, e1, h⟩ := bindInv h
  obtain ⟨_, _, h⟩ := bindInv h
  obtain ⟨_, _, h⟩ := bindInv h
  obtain ⟨_, e2, h⟩ := bindInv h
  have h := Except.ok.inj h
  exact ⟨Annotator.json_only v (Json.req_inv e1 hn (.tail _ (.tail _ (.head _))) (congrArg Annotation.annotator h)),
    fun y1226 hy1226 => Signature.json_only ((Json.opt_inv_id e2 hn (.tail _ (.tail _ (.tail _ (.tail _ (.tail _ (.head _)))))) (congrArg Annotation.signature h)) y1226 hy1226)⟩

theorem ResourceReference.json_only {x : ResourceReference}
    (h : ResourceReference.ofJson (ResourceReference.toJson x) = .ok x) :
    ResourceReference.JsonOk x := by
  cases x with
  | ref y => trivial
  | externalReference y =>
    have h := bindWith (Json.fields_mk _) h
    have h : Json.flatUntagged (Json.mkFields [("externalReference",
        some (ExternalReference.toJson y))]) [("ref", _), ("externalReference", _)] = _ := h
    rw [Json.untagged_miss (show "ref" ∉ ["externalReference"] by decide)] at h
    obtain ⟨_, h, e⟩ := Json.map_inv (Json.untagged_inv h (by decide : ["externalReference"].Nodup)
      (.head _) (fun _ h => nomatch h) rfl)
    cases e
    exact ExternalReference.json_only h

theorem Input.json_only {x : Input}
    (h : Input.ofJson (Input.toJson x) = .ok x) :
    Input.JsonOk x := by
  obtain ⟨required, source, target, properties⟩ := x
  cases required with
  | resource z =>
    have hn : ["resource", "source", "target", "properties"].Nodup := by decide
    have h := bindWith (Json.fields_mk _) h
    obtain ⟨_, e1, h⟩ := bindInv h
    obtain ⟨_, e2, h⟩ := bindInv h
    obtain ⟨_, e3, h⟩ := bindInv h
    obtain ⟨_, _, h⟩ := bindInv h
    have h := Except.ok.inj h
    exact ⟨by
      obtain ⟨_, h, e⟩ := Json.map_inv (Json.untagged_inv e1 hn (.head _)
        (by decide : ∀ k ∈ ["parameters", "environmentVars", "data"], k ∉ ["resource", "source", "target", "properties"]) (congrArg Input.required h))
      cases e
      exact ResourceReference.json_only h,
      fun y1241 hy1241 => ResourceReference.json_only ((Json.opt_inv_id e2 hn (.tail _ (.head _)) (congrArg Input.source h)) y1241 hy1241),
      fun y1242 hy1242 => ResourceReference.json_only ((Json.opt_inv_id e3 hn (.tail _ (.tail _ (.head _))) (congrArg Input.target h)) y1242 hy1242)⟩
  | parameters z =>
    have hn : ["parameters", "source", "target", "properties"].Nodup := by decide
    have h := bindWith (Json.fields_mk _) h
    obtain ⟨_, _, h⟩ := bindInv h
    obtain ⟨_, e1, h⟩ := bindInv h
    obtain ⟨_, e2, h⟩ := bindInv h
    obtain ⟨_, _, h⟩ := bindInv h
    have h := Except.ok.inj h
    exact ⟨trivial,
      fun y1246 hy1246 => ResourceReference.json_only ((Json.opt_inv_id e1 hn (.tail _ (.head _)) (congrArg Input.source h)) y1246 hy1246),
      fun y1247 hy1247 => ResourceReference.json_only ((Json.opt_inv_id e2 hn (.tail _ (.tail _ (.head _))) (congrArg Input.target h)) y1247 hy1247)⟩
  | environmentVars z =>
    have hn : ["environmentVars", "source", "target", "properties"].Nodup := by decide
    have h := bindWith (Json.fields_mk _) h
    obtain ⟨_, _, h⟩ := bindInv h
    obtain ⟨_, e1, h⟩ := bindInv h
    obtain ⟨_, e2, h⟩ := bindInv h
    obtain ⟨_, _, h⟩ := bindInv h
    have h := Except.ok.inj h
    exact ⟨trivial,
      fun y1250 hy1250 => ResourceReference.json_only ((Json.opt_inv_id e1 hn (.tail _ (.head _)) (congrArg Input.source h)) y1250 hy1250),
      fun y1251 hy1251 => ResourceReference.json_only ((Json.opt_inv_id e2 hn (.tail _ (.tail _ (.head _))) (congrArg Input.target h)) y1251 hy1251)⟩
  | data z =>
    have hn : ["data", "source", "target", "properties"].Nodup := by decide
    have h := bindWith (Json.fields_mk _) h
    obtain ⟨_, _, h⟩ := bindInv h
    obtain ⟨_, e1, h⟩ := bindInv h
    obtain ⟨_, e2, h⟩ := bindInv h
    obtain ⟨_, _, h⟩ := bindInv h
    have h := Except.ok.inj h
    exact ⟨trivial,
      fun y1254 hy1254 => ResourceReference.json_only ((Json.opt_inv_id e1 hn (.tail _ (.head _)) (congrArg Input.source h)) y1254 hy1254),
      fun y1255 hy1255 => ResourceReference.json_only ((Json.opt_inv_id e2 hn (.tail _ (.tail _ (.head _))) (congrArg Input.target h)) y1255 hy1255)⟩

theorem Output.json_only {x : Output}
    (h : Output.ofJson (Output.toJson x) = .ok x) :
    Output.JsonOk x := by
  obtain ⟨required, type, source, target, properties⟩ := x
  cases required with
  | resource z =>
    have hn : ["resource", "type", "source", "target", "properties"].Nodup := by decide
    have h := bindWith (Json.fields_mk _) h
    obtain ⟨_, e1, h⟩ := bindInv h
    obtain ⟨_, e2, h⟩ := bindInv h
    obtain ⟨_, e3, h⟩ := bindInv h
    obtain ⟨_, e4, h⟩ := bindInv h
    obtain ⟨_, _, h⟩ := bindInv h
    have h := Except.ok.inj h
    exact ⟨by
      obtain ⟨_, h, e⟩ := Json.map_inv (Json.untagged_inv e1 hn (.head _)
        (by decide : ∀ k ∈ ["environmentVars", "data"], k ∉ ["resource", "type", "source", "target", "properties"]) (congrArg Output.required h))
      cases e
      exact ResourceReference.json_only h,
      fun y1278 hy1278 => Json.enum_inv ((Json.opt_inv_id e2 hn (.tail _ (.head _)) (congrArg Output.type h)) y1278 hy1278),
      fun y1279 hy1279 => ResourceReference.json_only ((Json.opt_inv_id e3 hn (.tail _ (.tail _ (.head _))) (congrArg Output.source h)) y1279 hy1279),
      fun y1280 hy1280 => ResourceReference.json_only ((Json.opt_inv_id e4 hn (.tail _ (.tail _ (.tail _ (.head _)))) (congrArg Output.target h)) y1280 hy1280)⟩
  | environmentVars z =>
    have hn : ["environmentVars", "type", "source", "target", "properties"].Nodup := by decide
    have h := bindWith (Json.fields_mk _) h
    obtain ⟨_, _, h⟩ := bindInv h
    obtain ⟨_, e1, h⟩ := bindInv h
    obtain ⟨_, e2, h⟩ := bindInv h
    obtain ⟨_, e3, h⟩ := bindInv h
    obtain ⟨_, _, h⟩ := bindInv h
    have h := Except.ok.inj h
    exact ⟨trivial,
      fun y1283 hy1283 => Json.enum_inv ((Json.opt_inv_id e1 hn (.tail _ (.head _)) (congrArg Output.type h)) y1283 hy1283),
      fun y1284 hy1284 => ResourceReference.json_only ((Json.opt_inv_id e2 hn (.tail _ (.tail _ (.head _))) (congrArg Output.source h)) y1284 hy1284),
      fun y1285 hy1285 => ResourceReference.json_only ((Json.opt_inv_id e3 hn (.tail _ (.tail _ (.tail _ (.head _)))) (congrArg Output.target h)) y1285 hy1285)⟩
  | data z =>
    have hn : ["data", "type", "source", "target", "properties"].Nodup := by decide
    have h := bindWith (Json.fields_mk _) h
    obtain ⟨_, _, h⟩ := bindInv h
    obtain ⟨_, e1, h⟩ := bindInv h
    obtain ⟨_, e2, h⟩ := bindInv h
    obtain ⟨_, e3, h⟩ := bindInv h
    obtain ⟨_, _, h⟩ := bindInv h
    have h := Except.ok.inj h
    exact ⟨trivial,
      fun y1288 hy1288 => Json.enum_inv ((Json.opt_inv_id e1 hn (.tail _ (.head _)) (congrArg Output.type h)) y1288 hy1288),
      fun y1289 hy1289 => ResourceReference.json_only ((Json.opt_inv_id e2 hn (.tail _ (.tail _ (.head _))) (congrArg Output.source h)) y1289 hy1289),
      fun y1290 hy1290 => ResourceReference.json_only ((Json.opt_inv_id e3 hn (.tail _ (.tail _ (.tail _ (.head _)))) (congrArg Output.target h)) y1290 hy1290)⟩

theorem TriggerEvent.json_only {x : TriggerEvent}
    (h : TriggerEvent.ofJson (TriggerEvent.toJson x) = .ok x) :
    TriggerEvent.JsonOk x := by
  have hn : ["uid", "description", "timeReceived", "data", "source", "target", "properties"].Nodup := by decide
  have h := bindWith (Json.fields_mk _) h
  obtain ⟨_, _, h⟩ := bindInv h
  obtain ⟨_, _, h⟩ := bindInv h
  obtain ⟨_, _, h⟩ := bindInv h
  obtain ⟨_, _, h⟩ := bindInv h
  obtain ⟨_, e1, h⟩ := bindInv h
  obtain ⟨_, e2, h⟩ := bindInv h
  obtain ⟨_, _, h⟩ := bindInv h
  have h := Except.ok.inj h
  exact ⟨fun y1346 hy1346 => ResourceReference.json_only ((Json.opt_inv_id e1 hn (.tail _ (.tail _ (.tail _ (.tail _ (.head _))))) (congrArg TriggerEvent.source h)) y1346 hy1346),
    fun y1347 hy1347 => ResourceReference.json_only ((Json.opt_inv_id e2 hn (.tail _ (.tail _ (.tail _ (.tail _ (.tail _ (.head _)))))) (congrArg TriggerEvent.target h)) y1347 hy1347)⟩

theorem Trigger.json_only {x : Trigger}
    (h : Trigger.ofJson (Trigger.toJson x) = .ok x) :
    Trigger.JsonOk x := by
  have hn : ["bom-ref", "uid", "name", "description", "resourceReferences", "type", "event", "conditions", "timeActivated", "inputs", "outputs", "properties"].Nodup := by decide
  have h := bindWith (Json.fields_mk _) h
  obtain ⟨_, _, h⟩ := bindInv h
  obtain ⟨_, _, h⟩ := bindInv h
  obtain ⟨_, _, h⟩ := bindInv h
  obtain ⟨_, _, h⟩ := bindInv h
  obtain ⟨_, e1, h⟩ := bindInv h
  obtain ⟨_, e2, h⟩ := bindInv h
  obtain ⟨_, e3, h⟩ := bindInv h
  obtain ⟨_, _, h⟩ := bindInv h
  obtain ⟨_, _, h⟩ := bindInv h
  obtain ⟨_, e4, h⟩ := bindInv h
  obtain ⟨_, e5, h⟩ := bindInv h
  obtain ⟨_, _, h⟩ := bindInv h
  have h := Except.ok.inj h
  exact ⟨fun y1387 hy1387 => fun y1388 hy1388 => ResourceReference.json_only ((Json.array_inv_id ((Json.opt_inv_id e1 hn (.tail _ (.tail _ (.tail _ (.tail _ (.head _))))) (congrArg Trigger.resourceReferences h)) y1387 hy1387)) y1388 hy1388),
    Json.enum_inv (Json.req_inv e2 hn (.tail _ (.tail _ (.tail _ (.tail _ (.tail _ (.head _)))))) (congrArg Trigger.type h)),
    fun y1389 hy1389 => TriggerEvent.json_only ((Json.opt_inv_id e3 hn (.tail _ (.tail _ (.tail _ (.tail _ (.tail _ (.tail _ (.head _))))))) (congrArg Trigger.event h)) y1389 hy1389),
    fun y1393 hy1393 => fun y1394 hy1394 => Input.json_only ((Json.array_inv_id ((Json.opt_inv_id e4 hn (.tail _ (.tail _ (.tail _ (.tail _ (.tail _ (.tail _ (.tail _ (.tail _ (.tail _ (.head _)))))))))) (congrArg Trigger.inputs h)) y1393 hy1393)) y1394 hy1394),
    fun y1395 hy1395 => fun y1396 hy1396 => Output.json_only ((Json.array_inv_id ((Json.opt_inv_id e5 hn (.tail _ (.tail _ (.tail _ (.tail _ (.tail _ (.tail _ (.tail _ (.tail _ (.tail _ (.tail _ (.head _))))))))))) (congrArg Trigger.outputs h)) y1395 hy1395)) y1396 hy1396)⟩

theorem Volume.json_only {x : Volume}
    (h : Volume.ofJson (Volume.toJson x) = .ok x) :
    Volume.JsonOk x := by
  have hn : ["uid", "name", "mode", "path", "size_allocated", "persistent", "remote", "properties"].Nodup := by decide
  have h := bindWith (Json.fields_mk _) h
  obtain ⟨_, _, h⟩ := bindInv h
  obtain ⟨_, _, h⟩ := bindInv h
  obtain ⟨_, e1, h⟩ := bindInv h
  obtain ⟨_, _, h⟩ := bindInv h
  obtain ⟨_, _, h⟩ := bindInv h
  obtain ⟨_, _, h⟩ := bindInv h
  obtain ⟨_, _, h⟩ := bindInv h
  obtain ⟨_, _, h⟩ := bindInv h
  have h := Except.ok.inj h
  exact ⟨Json.enum_inv (Json.getD_inv e1 hn (.tail _ (.tail _ (.head _))) (Json.str_ne_null) (congrArg Volume.mode h))⟩

theorem Workspace.json_only {x : Workspace}
    (h : Workspace.ofJson (Workspace.toJson x) = .ok x) :
    Workspace.JsonOk x := by
  have hn : ["bom-ref", "uid", "name", "aliases", "description", "resourceReferences", "accessMode", "mountPath", "managedDataType", "volumeRequest", "volume", "properties"].Nodup := by decide
  have h := bindWith (Json.fields_mk _) h
  obtain ⟨_, _, h⟩ := bindInv h
  obtain ⟨_, _, h⟩ := bindInv h
  obtain ⟨_, _, h⟩ := bindInv h
  obtain ⟨_, _, h⟩ := bindInv h
  obtain ⟨_, _, h⟩ := bindInv h
  obtain ⟨_, e1, h⟩ := bindInv h
  obtain ⟨_, e2, h⟩ := bindInv h
  obtain ⟨_, _, h⟩ := bindInv h
  obtain ⟨_, _, h⟩ := bindInv h
  obtain ⟨_, _, h⟩ := bindInv h
  obtain ⟨_, e3, h⟩ := bindInv h
  obtain ⟨_, _, h⟩ := bindInv h
  have h := Except.ok.inj h
  exact ⟨fun y1457 hy1457 => fun y1458 hy1458 => ResourceReference.json_only ((Json.array_inv_id ((Json.opt_inv_id e1 hn (.tail _ (.tail _ (.tail _ (.tail _ (.tail _ (.head _)))))) (congrArg Workspace.resourceReferences h)) y1457 hy1457)) y1458 hy1458),
    fun y1459 hy1459 => Json.enum_inv ((Json.opt_inv_id e2 hn (.tail _ (.tail _ (.tail _ (.tail _ (.tail _ (.tail _ (.head _))))))) (congrArg Workspace.accessMode h)) y1459 hy1459),
    fun y1463 hy1463 => Volume.json_only ((Json.opt_inv_id e3 hn (.tail _ (.tail _ (.tail _ (.tail _ (.tail _ (.tail _ (.tail _ (.tail _ (.tail _ (.tail _ (.head _))))))))))) (congrArg Workspace.volume h)) y1463 hy1463)⟩

theorem WorkflowTask.json_only {x : WorkflowTask}
    (h : WorkflowTask.ofJson (WorkflowTask.toJson x) = .ok x) :
    WorkflowTask.JsonOk x := by
  have hn : ["bom-ref", "uid", "name", "description", "resourceReferences", "taskTypes", "trigger", "steps", "inputs", "outputs", "timeStart", "timeEnd", "workspaces", "runtimeTopology", "properties"].Nodup := by decide
  have h := bindWith (Json.fields_mk _) h
  obtain ⟨_, _, h⟩ := bindInv h
  obtain ⟨_, _, h⟩ := bindInv h
  obtain ⟨_, _, h⟩ := bindInv h
  obtain ⟨_, _, h⟩ := bindInv h
  obtain ⟨_, e1, h⟩ := bindInv h
  obtain ⟨_, e2, h⟩ := bindInv h
  obtain ⟨_, e3, h⟩ := bindInv h
  obtain ⟨_, _, h⟩ := bindInv h
  obtain ⟨_, e4, h⟩ := bindInv h
  obtain ⟨_, e5, h⟩ := bindInv h
  obtain ⟨_, _, h⟩ := bindInv h
  obtain ⟨_, _, h⟩ := bindInv h
  obtain ⟨_, e6, h⟩ := bindInv h
  obtain ⟨_, _, h⟩ := bindInv h
  obtain ⟨_, _, h⟩ := bindInv h
  have h := Except.ok.inj h
  exact ⟨fun y1504 hy1504 => fun y1505 hy1505 => ResourceReference.json_only ((Json.array_inv_id ((Json.opt_inv_id e1 hn (.tail _ (.tail _ (.tail _ (.tail _ (.head _))))) (congrArg WorkflowTask.resourceReferences h)) y1504 hy1504)) y1505 hy1505),
    fun y1506 hy1506 => Json.enum_inv ((Json.array_inv_id (Json.req_inv e2 hn (.tail _ (.tail _ (.tail _ (.tail _ (.tail _ (.head _)))))) (congrArg WorkflowTask.taskTypes h))) y1506 hy1506),
    fun y1507 hy1507 => Trigger.json_only ((Json.opt_inv_id e3 hn (.tail _ (.tail _ (.tail _ (.tail _ (.tail _ (.tail _ (.head _))))))) (congrArg WorkflowTask.trigger h)) y1507 hy1507),
    fun y1510 hy1510 => fun y1511 hy1511 => Input.json_only ((Json.array_inv_id ((Json.opt_inv_id e4 hn (.tail _ (.tail _ (.tail _ (.tail _ (.tail _ (.tail _ (.tail _ (.tail _ (.head _))))))))) (congrArg WorkflowTask.inputs h)) y1510 hy1510)) y1511 hy1511),
    fun y1512 hy1512 => fun y1513 hy1513 => Output.json_only ((Json.array_inv_id ((Json.opt_inv_id e5 hn (.tail _ (.tail _ (.tail _ (.tail _ (.tail _ (.tail _ (.tail _ (.tail _ (.tail _ (.head _)))))))))) (congrArg WorkflowTask.outputs h)) y1512 hy1512)) y1513 hy1513),
    fun y1516 hy1516 => fun y1517 hy1517 => Workspace.json_only ((Json.array_inv_id ((Json.opt_inv_id e6 hn (.tail _ (.tail _ (.tail _ (.tail _ (.tail _ (.tail _ (.tail _ (.tail _ (.tail _ (.tail _ (.tail _ (.tail _ (.head _))))))))))))) (congrArg WorkflowTask.workspaces h)) y1516 hy1516)) y1517 hy1517)⟩

theorem Workflow.json_only {x : Workflow}
    (h : Workflow.ofJson (Workflow.toJson x) = .ok x) :
    Workflow.JsonOk x := by
  have hn : ["bom-ref", "uid", "name", "description", "resourceReferences", "tasks", "taskDependencies", "taskTypes", "trigger", "steps", "inputs", "outputs", "timeStart", "timeEnd", "workspaces", "runtimeTopology", "properties"].Nodup := by decide
  have h := bindWith (Json.fields_mk _) h
  obtain ⟨_, _, h⟩ := bindInv h
  obtain ⟨_, _, h⟩ := bindInv h
  obtain ⟨_, _, h⟩ := bindInv h
  obtain ⟨_, _, h⟩ := bindInv h
  obtain ⟨_, e1, h⟩ := bindInv h
  obtain ⟨_, e2, h⟩ := bindInv h
  obtain ⟨_, _, h⟩ := bindInv h
  obtain ⟨_, e3, h⟩ := bindInv h
  obtain ⟨_, e4, h⟩ := bindInv h
  obtain ⟨_, _, h⟩ := bindInv h
  obtain ⟨_, e5, h⟩ := bindInv h
  obtain ⟨_, e6, h⟩ := bindInv h
  obtain ⟨_, _, h⟩ := bindInv h
  obtain ⟨_, _, h⟩ := bindInv h
  obtain ⟨_, e7, h⟩ := bindInv h
  obtain ⟨_, _, h⟩ := bindInv h
  obtain ⟨_, _, h⟩ := bindInv h
  have h := Except.ok.inj h
  exact ⟨fun y1553 hy1553 => fun y1554 hy1554 => ResourceReference.json_only ((Json.array_inv_id ((Json.opt_inv_id e1 hn (.tail _ (.tail _ (.tail _ (.tail _ (.head _))))) (congrArg Workflow.resourceReferences h)) y1553 hy1553)) y1554 hy1554),
    fun y1555 hy1555 => fun y1556 hy1556 => WorkflowTask.json_only ((Json.array_inv_id ((Json.opt_inv_id e2 hn (.tail _ (.tail _ (.tail _ (.tail _ (.tail _ (.head _)))))) (congrArg Workflow.tasks h)) y1555 hy1555)) y1556 hy1556),
    fun y1559 hy1559 => Json.enum_inv ((Json.array_inv_id (Json.req_inv e3 hn (.tail _ (.tail _ (.tail _ (.tail _ (.tail _ (.tail _ (.tail _ (.head _)))))))) (congrArg Workflow.taskTypes h))) y1559 hy1559),
    fun y1560 hy1560 => Trigger.json_only ((Json.opt_inv_id e4 hn (.tail _ (.tail _ (.tail _ (.tail _ (.tail _ (.tail _ (.tail _ (.tail _ (.head _))))))))) (congrArg Workflow.trigger h)) y1560 hy1560),
    fun y1563 hy1563 => fun y1564 hy1564 => Input.json_only ((Json.array_inv_id ((Json.opt_inv_id e5 hn (.tail _ (.tail _ (.tail _ (.tail _ (.tail _ (.tail _ (.tail _ (.tail _ (.tail _ (.tail _ (.head _))))))))))) (congrArg Workflow.inputs h)) y1563 hy1563)) y1564 hy1564),
    fun y1565 hy1565 => fun y1566 hy1566 => Output.json_only ((Json.array_inv_id ((Json.opt_inv_id e6 hn (.tail _ (.tail _ (.tail _ (.tail _ (.tail _ (.tail _ (.tail _ (.tail _ (.tail _ (.tail _ (.tail _ (.head _)))))))))))) (congrArg Workflow.outputs h)) y1565 hy1565)) y1566 hy1566),
    fun y1569 hy1569 => fun y1570 hy1570 => Workspace.json_only ((Json.array_inv_id ((Json.opt_inv_id e7 hn (.tail _ (.tail _ (.tail _ (.tail _ (.tail _ (.tail _ (.tail _ (.tail _ (.tail _ (.tail _ (.tail _ (.tail _ (.tail _ (.tail _ (.head _))))))))))))))) (congrArg Workflow.workspaces h)) y1569 hy1569)) y1570 hy1570)⟩

theorem Formula.json_only (v : SpecVersion) {x : Formula}
    (h : Formula.ofJson v (Formula.toJson v x) = .ok (x.at v)) :
    Formula.JsonOk v x := by
  have hn : ["bom-ref", "components", "services", "workflows", "properties"].Nodup := by decide
  have h := bindWith (Json.fields_mk _) h
  obtain ⟨_, _, h⟩ := bindInv h
  obtain ⟨_, e1, h⟩ := bindInv h
  obtain ⟨_, e2, h⟩ := bindInv h
  obtain ⟨_, e3, h⟩ := bindInv h
  obtain ⟨_, _, h⟩ := bindInv h
  have h := Except.ok.inj h
  exact ⟨fun y1627 hy1627 => fun y1628 hy1628 => Component.json_only v ((Json.array_inv ((Json.opt_inv e1 hn (.tail _ (.head _)) (congrArg Formula.components h)) y1627 hy1627)) y1628 hy1628),
    fun y1629 hy1629 => fun y1630 hy1630 => Service.json_only v ((Json.array_inv ((Json.opt_inv e2 hn (.tail _ (.tail _ (.head _))) (congrArg Formula.services h)) y1629 hy1629)) y1630 hy1630),
    fun y1631 hy1631 => fun y1632 hy1632 => Workflow.json_only ((Json.array_inv_id ((Json.opt_inv_id e3 hn (.tail _ (.tail _ (.tail _ (.head _)))) (congrArg Formula.workflows h)) y1631 hy1631)) y1632 hy1632)⟩

theorem Bom.json_only (v : SpecVersion) {x : Bom}
    (h : Bom.ofJson v (Bom.toJson v x) = .ok (x.at v)) :
    Bom.JsonOk v x := by
  cases v with
  | v1_3 =>
    have hn : ["bomFormat", "specVersion", "version", "serialNumber", "metadata", "components", "services", "externalReferences", "dependencies", "compositions"].Nodup := by decide
    have h := bindWith (Json.fields_mk _) h
    obtain ⟨_, _, h⟩ := bindInv h
    obtain ⟨_, _, h⟩ := bindInv h
    obtain ⟨_, e1, h⟩ := bindInv h
    obtain ⟨_, _, h⟩ := bindInv h
    obtain ⟨_, e2, h⟩ := bindInv h
    obtain ⟨_, e3, h⟩ := bindInv h
    obtain ⟨_, e4, h⟩ := bindInv h
    obtain ⟨_, e5, h⟩ := bindInv h
    obtain ⟨_, _, h⟩ := bindInv h
    obtain ⟨_, e6, h⟩ := bindInv h
    obtain ⟨_, _, h⟩ := bindInv h
    obtain ⟨_, _, h⟩ := bindInv h
    obtain ⟨_, _, h⟩ := bindInv h
    obtain ⟨_, _, h⟩ := bindInv h
    obtain ⟨_, _, h⟩ := bindInv h
    have h := Except.ok.inj h
    exact ⟨Json.u32_inv (Json.req_inv e1 hn (.tail _ (.tail _ (.head _))) (congrArg Bom.version h)),
      fun y1668 hy1668 => Metadata.json_only .v1_3 ((Json.opt_inv e2 hn (.tail _ (.tail _ (.tail _ (.tail _ (.head _))))) (congrArg Bom.metadata h)) y1668 hy1668),
      fun y1669 hy1669 => fun y1670 hy1670 => Component.json_only .v1_3 ((Json.array_inv ((Json.opt_inv e3 hn (.tail _ (.tail _ (.tail _ (.tail _ (.tail _ (.head _)))))) (congrArg Bom.components h)) y1669 hy1669)) y1670 hy1670),
      fun y1671 hy1671 => fun y1672 hy1672 => Service.json_only .v1_3 ((Json.array_inv ((Json.opt_inv e4 hn (.tail _ (.tail _ (.tail _ (.tail _ (.tail _ (.tail _ (.head _))))))) (congrArg Bom.services h)) y1671 hy1671)) y1672 hy1672),
      fun y1673 hy1673 => fun y1674 hy1674 => ExternalReference.json_only ((Json.array_inv_id ((Json.opt_inv_id e5 hn (.tail _ (.tail _ (.tail _ (.tail _ (.tail _ (.tail _ (.tail _ (.head _)))))))) (congrArg Bom.externalReferences h)) y1673 hy1673)) y1674 hy1674),
      fun y1677 hy1677 => fun y1678 hy1678 => Composition.json_only .v1_3 ((Json.array_inv ((Json.opt_inv e6 hn (.tail _ (.tail _ (.tail _ (.tail _ (.tail _ (.tail _ (.tail _ (.tail _ (.tail _ (.head _)))))))))) (congrArg Bom.compositions h)) y1677 hy1677)) y1678 hy1678),
      fun hv => absurd rfl hv,
      fun hv => absurd rfl hv,
      fun hv => (nomatch hv),
      fun hv => (nomatch hv)⟩
  | v1_4 =>
    have hn : ["bomFormat", "specVersion", "version", "serialNumber", "metadata", "components", "services", "externalReferences", "dependencies", "compositions", "vulnerabilities", "signature"].Nodup := by decide
    have h := bindWith (Json.fields_mk _) h
    obtain ⟨_, _, h⟩ := bindInv h
    obtain ⟨_, _, h⟩ := bindInv h
    obtain ⟨_, e1, h⟩ := bindInv h
    obtain ⟨_, _, h⟩ := bindInv h
    obtain ⟨_, e2, h⟩ := bindInv h
    obtain ⟨_, e3, h⟩ := bindInv h
    obtain ⟨_, e4, h⟩ := bindInv h
    obtain ⟨_, e5, h⟩ := bindInv h
    obtain ⟨_, _, h⟩ := bindInv h
    obtain ⟨_, e6, h⟩ := bindInv h
    obtain ⟨_, e7, h⟩ := bindInv h
    obtain ⟨_, e8, h⟩ := bindInv h
    obtain ⟨_, _, h⟩ := bindInv h
    obtain ⟨_, _, h⟩ := bindInv h
    obtain ⟨_, _, h⟩ := bindInv h
    have h := Except.ok.inj h
    exact ⟨Json.u32_inv (Json.req_inv e1 hn (.tail _ (.tail _ (.head _))) (congrArg Bom.version h)),
      fun y1680 hy1680 => Metadata.json_only .v1_4 ((Json.opt_inv e2 hn (.tail _ (.tail _ (.tail _ (.tail _ (.head _))))) (congrArg Bom.metadata h)) y1680 hy1680),
      fun y1681 hy1681 => fun y1682 hy1682 => Component.json_only .v1_4 ((Json.array_inv ((Json.opt_inv e3 hn (.tail _ (.tail _ (.tail _ (.tail _ (.tail _ (.head _)))))) (congrArg Bom.components h)) y1681 hy1681)) y1682 hy1682),
      fun y1683 hy1683 => fun y1684 hy1684 => Service.json_only .v1_4 ((Json.array_inv ((Json.opt_inv e4 hn (.tail _ (.tail _ (.tail _ (.tail _ (.tail _ (.tail _ (.head _))))))) (congrArg Bom.services h)) y1683 hy1683)) y1684 hy1684),
      fun y1685 hy1685 => fun y1686 hy1686 => ExternalReference.json_only ((Json.array_inv_id ((Json.opt_inv_id e5 hn (.tail _ (.tail _ (.tail _ (.tail _ (.tail _ (.tail _ (.tail _ (.head _)))))))) (congrArg Bom.externalReferences h)) y1685 hy1685)) y1686 hy1686),
      fun y1689 hy1689 => fun y1690 hy1690 => Composition.json_only .v1_4 ((Json.array_inv ((Json.opt_inv e6 hn (.tail _ (.tail _ (.tail _ (.tail _ (.tail _ (.tail _ (.tail _ (.tail _ (.tail _ (.head _)))))))))) (congrArg Bom.compositions h)) y1689 hy1689)) y1690 hy1690),
      fun _ => fun y1691 hy1691 => fun y1692 hy1692 => Vulnerability.json_only .v1_4 ((Json.array_inv ((Json.opt_inv e7 hn (.tail _ (.tail _ (.tail _ (.tail _ (.tail _ (.tail _ (.tail _ (.tail _ (.tail _ (.tail _ (.head _))))))))))) (congrArg Bom.vulnerabilities h)) y1691 hy1691)) y1692 hy1692),
      fun _ => fun y1693 hy1693 => Signature.json_only ((Json.opt_inv_id e8 hn (.tail _ (.tail _ (.tail _ (.tail _ (.tail _ (.tail _ (.tail _ (.tail _ (.tail _ (.tail _ (.tail _ (.head _)))))))))))) (congrArg Bom.signature h)) y1693 hy1693),
      fun hv => (nomatch hv),
      fun hv => (nomatch hv)⟩
  | v1_5 =>
    have hn : ["bomFormat", "specVersion", "version", "serialNumber", "metadata", "components", "services", "externalReferences", "dependencies", "compositions", "vulnerabilities", "signature", "annotations", "properties", "formulation"].Nodup := by decide
    have h := bindWith (Json.fields_mk _) h
    obtain ⟨_, _, h⟩ := bindInv h
    obtain ⟨_, _, h⟩ := bindInv h
    obtain ⟨_, e1, h⟩ := bindInv h
    obtain ⟨_, _, h⟩ := bindInv h
    obtain ⟨_, e2, h⟩ := bindInv h
    obtain ⟨_, e3, h⟩ := bindInv h
    obtain ⟨_, e4, h⟩ := bindInv h
    obtain ⟨_, e5, h⟩ := bindInv h
    obtain ⟨_, _, h⟩ := bindInv h
    obtain ⟨_, e6, h⟩ := bindInv h
    obtain ⟨_, e7, h⟩ := bindInv h
    obtain ⟨_, e8, h⟩ := bindInv h
    obtain ⟨_, e9, h⟩ := bindInv h
    obtain ⟨_, _, h⟩ := bindInv h
    obtain ⟨_, e10, h⟩ := bindInv h
    have h := Except.ok.inj h
    exact ⟨Json.u32_inv (Json.req_inv e1 hn (.tail _ (.tail _ (.head _))) (congrArg Bom.version h)),
      fun y1695 hy1695 => Metadata.json_only .v1_5 ((Json.opt_inv e2 hn (.tail _ (.tail _ (.tail _ (.tail _ (.head _))))) (congrArg Bom.metadata h)) y1695 hy1695),
      fun y1696 hy1696 => fun y1697 hy1697 => Component.json_only .v1_5 ((Json.array_inv ((Json.opt_inv e3 hn (.tail _ (.tail _ (.tail _ (.tail _ (.tail _ (.head _)))))) (congrArg Bom.components h)) y1696 hy1696)) y1697 hy1697),
      fun y1698 hy1698 => fun y1699 hy1699 => Service.json_only .v1_5 ((Json.array_inv ((Json.opt_inv e4 hn (.tail _ (.tail _ (.tail _ (.tail _ (.tail _ (.tail _ (.head _))))))) (congrArg Bom.services h)) y1698 hy1698)) y1699 hy1699),
      fun y1700 hy1700 => fun y1701 hy1701 => ExternalReference.json_only ((Json.array_inv_id ((Json.opt_inv_id e5 hn (.tail _ (.tail _ (.tail _ (.tail _ (.tail _ (.tail _ (.tail _ (.head _)))))))) (congrArg Bom.externalReferences h)) y1700 hy1700)) y1701 hy1701),
      fun y1704 hy1704 => fun y1705 hy1705 => Composition.json_only .v1_5 ((Json.array_inv ((Json.opt_inv e6 hn (.tail _ (.tail _ (.tail _ (.tail _ (.tail _ (.tail _ (.tail _ (.tail _ (.tail _ (.head _)))))))))) (congrArg Bom.compositions h)) y1704 hy1704)) y1705 hy1705),
      fun _ => fun y1706 hy1706 => fun y1707 hy1707 => Vulnerability.json_only .v1_5 ((Json.array_inv ((Json.opt_inv e7 hn (.tail _ (.tail _ (.tail _ (.tail _ (.tail _ (.tail _ (.tail _ (.tail _ (.tail _ (.tail _ (.head _))))))))))) (congrArg Bom.vulnerabilities h)) y1706 hy1706)) y1707 hy1707),
      fun _ => fun y1708 hy1708 => Signature.json_only ((Json.opt_inv_id e8 hn (.tail _ (.tail _ (.tail _ (.tail _ (.tail _ (.tail _ (.tail _ (.tail _ (.tail _ (.tail _ (.tail _ (.head _)))))))))))) (congrArg Bom.signature h)) y1708 hy1708),
      fun _ => fun y1709 hy1709 => fun y1710 hy1710 => Annotation.json_only .v1_5 ((Json.array_inv ((Json.opt_inv e9 hn (.tail _ (.tail _ (.tail _ (.tail _ (.tail _ (.tail _ (.tail _ (.tail _ (.tail _ (.tail _ (.tail _ (.tail _ (.head _))))))))))))) (congrArg Bom.annotations h)) y1709 hy1709)) y1710 hy1710),
      fun _ => fun y1713 hy1713 => fun y1714 hy1714 => Formula.json_only .v1_5 ((Json.array_inv ((Json.opt_inv e10 hn (.tail _ (.tail _ (.tail _ (.tail _ (.tail _ (.tail _ (.tail _ (.tail _ (.tail _ (.tail _ (.tail _ (.tail _ (.tail _ (.tail _ (.head _))))))))))))))) (congrArg Bom.formulation h)) y1713 hy1713)) y1714 hy1714)⟩

end Cdx
