import Verif.Lemmas.Xml
import Verif.Lemmas.Json
import Verif.Spec.Format.Formulation
import Verif.Lemmas.Format.Annotation

set_option linter.unusedSectionVars false
set_option linter.unusedSimpArgs false
set_option linter.unusedVariables false

/-!
# Lemmas on the file formats: formulations
-/

namespace Cdx

variable [F32Format]

variable [ReadLimit]

/-- A member that is always written, but for which there is a default. -/
theorem Json.getD_mk {α : Type} {l : List (String × Option Json)} {k : String}
    {f : Json → Except String α} {j : Json} {x d : α} (hn : (l.map (·.1)).Nodup)
    (hl : (k, some j) ∈ l) (hj : j ≠ .null) (h : f j = .ok x) :
    (Json.opt (Json.mkFields l) k f).map (·.getD d) = .ok x := by
  rw [Json.opt_id (x := some x) (g := fun _ => j) hn hl (fun _ _ => hj)
    (fun y hy => by rw [h, Option.some.inj hy])]
  rfl

theorem ResourceReference.json_ne_null {x : ResourceReference} : ResourceReference.toJson x ≠ .null :=
  Json.mk_ne_null _

theorem ResourceReference.json_rt {x : ResourceReference} (h : ResourceReference.JsonOk x) :
    ResourceReference.ofJson (ResourceReference.toJson x) = .ok x := by
  refine bindOk (Json.fields_mk _) ?_
  cases x with
  | ref y => exact Json.untagged_hit (by decide : ["ref"].Nodup) (.head _) (Json.map_ok rfl)
  | externalReference y =>
    exact (Json.untagged_miss (by decide : "ref" ∉ ["externalReference"])).trans
      (Json.untagged_hit (by decide : ["externalReference"].Nodup) (.head _)
        (Json.map_ok (ExternalReference.json_rt h)))

theorem ResourceReference.xml_inner_wf {loose : Bool} {x : ResourceReference} :
    WellFormed loose (ResourceReference.writeInner x) := by
  cases x with
  | ref y => exact writeSimple_wf
  | externalReference y => exact ExternalReference.xml_wf

theorem ResourceReference.xml_one {loose : Bool} {tag : String} {x : ResourceReference} :
    OneElement loose tag (ResourceReference.writeXml tag x) :=
  writeElem_one goodNil ResourceReference.xml_inner_wf

theorem ResourceReference.xml_wf {loose : Bool} {tag : String} {x : ResourceReference} :
    WellFormed loose (ResourceReference.writeXml tag x) := ResourceReference.xml_one.wf

theorem ResourceReference.xml_local {tag : String} : LocalAt tag ResourceReference.readXml :=
  readStruct_local (by simp) (armsCons (arm_local readSimple_local _)
    (armsCons (arm_local ExternalReference.xml_local _) armsNil))

theorem ResourceReference.xml_reads {ns : Option String} {tag : String} {x : ResourceReference}
    (h : ResourceReference.XmlOk x) :
    Reads ns (ResourceReference.writeXml tag x) tag ResourceReference.readXml x := by
  have hn : ["ref", "externalReference"].Nodup := by decide
  cases x with
  | ref y =>
    exact reads_struct ResourceReference.xml_inner_wf rfl (Goes.one (reads_simple h) (.head _) hn) rfl
  | externalReference y => exact h.elim

theorem EnvironmentVar.json_rt {x : EnvironmentVar} :
    EnvironmentVar.ofJson (EnvironmentVar.toJson x) = .ok x := by
  cases x with
  | property n v =>
    have hn : ["name", "value"].Nodup := by decide
    refine bindOk (Json.fields_mk _) ?_
    refine bindOk (Json.req_mk hn (.head _) rfl) ?_
    refine bindOk (Json.req_mk hn (.tail _ (.head _)) rfl) ?_
    rfl
  | value v => rfl

theorem EnvironmentVar.xml_wf {loose : Bool} {x : EnvironmentVar} :
    WellFormed loose (EnvironmentVar.writeXml x) := by
  cases x with
  | property n v => exact writeElem_wf (goodAttrs (by decide : ["name"].Nodup)) (.chars _)
  | value v => exact writeSimple_wf

theorem EnvironmentVar.all_local {tag : String} : LocalAt tag EnvironmentVar.readAll :=
  readStruct_local (by simp) (armsCons (arm_local (bind_local readSimple_local fun el attrs s =>
      (reqAttr el attrs "name").map fun n => EnvironmentVar.property n s) _)
    (armsCons (arm_local readSimple_local _) armsNil))

theorem EnvironmentVar.property_reads {ns : Option String} {n v : String} (h : Trimmed v) :
    Reads ns (writeElem "environmentVar" (mkAttrs [("name", some n)]) [.chars v]) "environmentVar"
      EnvironmentVar.readProperty (.property n v) := by
  have ha : ["name"].Nodup := by decide
  obtain ⟨a, b, hd, hr⟩ := reads_text (ns := ns) (tag := "environmentVar")
    (attrs := mkAttrs [("name", some n)]) h
  have hA : a = mkAttrs [("name", some n)] := by
    simp only [writeElem, deliver, List.cons.injEq, XEvent.start.injEq] at hd
    exact hd.1.2.1.symm
  subst hA
  refine ⟨_, b, hd, fun rest => ?_⟩
  simp only [EnvironmentVar.readProperty]
  rw [hr]
  have hq : reqAttr ⟨"environmentVar", ns, none⟩ (mkAttrs [("name", some n)]) "name" = .ok n :=
    reqAttr_mk ha (.head _)
  simp only [bind, Except.bind, hq, Except.map]

theorem EnvironmentVar.all_reads {ns : Option String} {l : List EnvironmentVar}
    (h : ∀ y ∈ l, EnvironmentVar.XmlOk y) :
    Reads ns (writeList "environmentVars" EnvironmentVar.writeXml l) "environmentVars"
      EnvironmentVar.readAll l := by
  have hn : ["environmentVar", "value"].Nodup := by decide
  refine reads_struct (flatMap_wf fun _ _ => EnvironmentVar.xml_wf) rfl
    (Goes.each (step := fun y s => s ++ [y]) (fun y hy st => ?_)
      (fun _ _ => EnvironmentVar.xml_wf)) ?_
  · have h' := h y hy
    cases y with
    | property n v => exact Goes.one (EnvironmentVar.property_reads h') (.head _) hn
    | value v => exact Goes.one (reads_simple h') (.tail _ (.head _)) hn
  · exact congrArg Except.ok ((foldl_snoc l []).trans (List.nil_append l))

theorem Parameter.json_ne_null {x : Parameter} :
    Parameter.toJson x ≠ .null := Json.mk_ne_null _

theorem Parameter.json_rt {x : Parameter} :
    Parameter.ofJson (Parameter.toJson x) = .ok x := by
  have hn : ["name", "value", "dataType"].Nodup := by decide
  refine bindOk (Json.fields_mk _) ?_
  refine bindOk (Json.opt_id hn (.head _) (fun y1229 hy1229 => Json.str_ne_null)
      (fun y1229 hy1229 => rfl)) ?_
  refine bindOk (Json.opt_id hn (.tail _ (.head _)) (fun y1230 hy1230 => Json.str_ne_null)
      (fun y1230 hy1230 => rfl)) ?_
  refine bindOk (Json.opt_id hn (.tail _ (.tail _ (.head _))) (fun y1231 hy1231 => Json.str_ne_null)
      (fun y1231 hy1231 => rfl)) ?_
  rfl

theorem Parameter.xml_body_wf {loose : Bool} {x : Parameter} : WellFormed loose (
    (writeOpt (writeSimple "name") x.name) ++
    ((writeOpt (writeSimple "value") x.value) ++
    ((writeOpt (writeSimple "dataType") x.dataType)))) :=
  (.append (writeOpt_wf fun _ _ => writeSimple_wf)
    (.append (writeOpt_wf fun _ _ => writeSimple_wf)
    (writeOpt_wf fun _ _ => writeSimple_wf)))

theorem Parameter.xml_one {loose : Bool} {x : Parameter} :
    OneElement loose "parameter" (Parameter.writeXml x) :=
  writeElem_one goodNil (Parameter.xml_body_wf)

theorem Parameter.xml_wf {loose : Bool} {x : Parameter} :
    WellFormed loose (Parameter.writeXml x) :=
  (Parameter.xml_one).wf

theorem Parameter.arms_local :
    ∀ p ∈ Parameter.arms, LocalArm p.1 p.2 :=
  (armsCons (arm_local readSimple_local _)
    (armsCons (arm_local readSimple_local _)
    (armsCons (arm_local readSimple_local _)
    armsNil)))

theorem Parameter.xml_local {tag : String} :
    LocalAt tag Parameter.readXml :=
  readStruct_local (by simp) (Parameter.arms_local)

theorem Parameter.xml_reads {ns : Option String} {x : Parameter} (h : Parameter.XmlOk x) :
    Reads ns (Parameter.writeXml x) "parameter" Parameter.readXml x := by
  have hn : ["name", "value", "dataType"].Nodup := by decide
  refine reads_struct (Parameter.xml_body_wf) rfl
      (Goes.append (Goes.opt (fun o s => { s with name := o }) (.head _) hn (fun _ => rfl) rfl
          (fun y1235 hy1235 => reads_simple (h.name y1235 hy1235)))
        (Goes.append (Goes.opt (fun o s => { s with value := o }) (.tail _ (.head _)) hn (fun _ => rfl) rfl
          (fun y1236 hy1236 => reads_simple (h.value y1236 hy1236)))
        (Goes.opt (fun o s => { s with dataType := o }) (.tail _ (.tail _ (.head _))) hn (fun _ => rfl) rfl
          (fun y1237 hy1237 => reads_simple (h.dataType y1237 hy1237)))
        (writeOpt_wf fun _ _ => writeSimple_wf))
        (writeOpt_wf fun _ _ => writeSimple_wf)) ?_
  rfl

theorem RequiredInputField.xml_wf {x : RequiredInputField} : WellFormed true (RequiredInputField.writeXml x) := by
  cases x with
  | resource y => exact ResourceReference.xml_wf
  | parameters y => exact (writeList_wf fun _ _ => Parameter.xml_wf)
  | environmentVars y => exact (writeList_wf fun _ _ => EnvironmentVar.xml_wf)
  | data y => exact Attachment.xml_wf

theorem Input.json_ne_null {x : Input} :
    Input.toJson x ≠ .null := Json.mk_ne_null _

theorem Input.json_rt {x : Input} (h : Input.JsonOk x) :
    Input.ofJson (Input.toJson x) = .ok x := by
  obtain ⟨required, source, target, properties⟩ := x
  cases required with
  | resource z =>
    have hn : ["resource", "source", "target", "properties"].Nodup := by decide
    refine bindOk (Json.fields_mk _) ?_
    refine bindOk (Json.untagged_hit hn (.head _) (Json.map_ok (ResourceReference.json_rt h.required))) ?_
    refine bindOk (Json.opt_id hn (.tail _ (.head _)) (fun y1241 hy1241 => ResourceReference.json_ne_null)
        (fun y1241 hy1241 => ResourceReference.json_rt (h.source y1241 hy1241))) ?_
    refine bindOk (Json.opt_id hn (.tail _ (.tail _ (.head _))) (fun y1242 hy1242 => ResourceReference.json_ne_null)
        (fun y1242 hy1242 => ResourceReference.json_rt (h.target y1242 hy1242))) ?_
    refine bindOk (Json.opt_id hn (.tail _ (.tail _ (.tail _ (.head _)))) (fun y1243 hy1243 => Json.ofList_ne_null)
        (fun y1243 hy1243 => Json.array_id (fun y1244 hy1244 => Property.json_rt))) ?_
    rfl
  | parameters z =>
    have hn : ["parameters", "source", "target", "properties"].Nodup := by decide
    refine bindOk (Json.fields_mk _) ?_
    refine bindOk ((Json.untagged_miss (by decide : "resource" ∉ ["parameters", "source", "target", "properties"])).trans (Json.untagged_hit hn (.head _) (Json.map_ok (Json.array_id (fun y1245 hy1245 => Parameter.json_rt))))) ?_
    refine bindOk (Json.opt_id hn (.tail _ (.head _)) (fun y1246 hy1246 => ResourceReference.json_ne_null)
        (fun y1246 hy1246 => ResourceReference.json_rt (h.source y1246 hy1246))) ?_
    refine bindOk (Json.opt_id hn (.tail _ (.tail _ (.head _))) (fun y1247 hy1247 => ResourceReference.json_ne_null)
        (fun y1247 hy1247 => ResourceReference.json_rt (h.target y1247 hy1247))) ?_
    refine bindOk (Json.opt_id hn (.tail _ (.tail _ (.tail _ (.head _)))) (fun y1248 hy1248 => Json.ofList_ne_null)
        (fun y1248 hy1248 => Json.array_id (fun y1249 hy1249 => Property.json_rt))) ?_
    rfl
  | environmentVars z =>
    have hn : ["environmentVars", "source", "target", "properties"].Nodup := by decide
    refine bindOk (Json.fields_mk _) ?_
    refine bindOk ((Json.untagged_miss (by decide : "resource" ∉ ["environmentVars", "source", "target", "properties"])).trans ((Json.untagged_miss (by decide : "parameters" ∉ ["environmentVars", "source", "target", "properties"])).trans (Json.untagged_hit hn (.head _) (Json.map_ok (Json.array_id (fun _ _ => EnvironmentVar.json_rt)))))) ?_
    refine bindOk (Json.opt_id hn (.tail _ (.head _)) (fun y1250 hy1250 => ResourceReference.json_ne_null)
        (fun y1250 hy1250 => ResourceReference.json_rt (h.source y1250 hy1250))) ?_
    refine bindOk (Json.opt_id hn (.tail _ (.tail _ (.head _))) (fun y1251 hy1251 => ResourceReference.json_ne_null)
        (fun y1251 hy1251 => ResourceReference.json_rt (h.target y1251 hy1251))) ?_
    refine bindOk (Json.opt_id hn (.tail _ (.tail _ (.tail _ (.head _)))) (fun y1252 hy1252 => Json.ofList_ne_null)
        (fun y1252 hy1252 => Json.array_id (fun y1253 hy1253 => Property.json_rt))) ?_
    rfl
  | data z =>
    have hn : ["data", "source", "target", "properties"].Nodup := by decide
    refine bindOk (Json.fields_mk _) ?_
    refine bindOk ((Json.untagged_miss (by decide : "resource" ∉ ["data", "source", "target", "properties"])).trans ((Json.untagged_miss (by decide : "parameters" ∉ ["data", "source", "target", "properties"])).trans ((Json.untagged_miss (by decide : "environmentVars" ∉ ["data", "source", "target", "properties"])).trans (Json.untagged_hit hn (.head _) (Json.map_ok (Attachment.json_rt)))))) ?_
    refine bindOk (Json.opt_id hn (.tail _ (.head _)) (fun y1254 hy1254 => ResourceReference.json_ne_null)
        (fun y1254 hy1254 => ResourceReference.json_rt (h.source y1254 hy1254))) ?_
    refine bindOk (Json.opt_id hn (.tail _ (.tail _ (.head _))) (fun y1255 hy1255 => ResourceReference.json_ne_null)
        (fun y1255 hy1255 => ResourceReference.json_rt (h.target y1255 hy1255))) ?_
    refine bindOk (Json.opt_id hn (.tail _ (.tail _ (.tail _ (.head _)))) (fun y1256 hy1256 => Json.ofList_ne_null)
        (fun y1256 hy1256 => Json.array_id (fun y1257 hy1257 => Property.json_rt))) ?_
    rfl

theorem Input.xml_body_wf {x : Input} : WellFormed true (
    (RequiredInputField.writeXml x.required) ++
    ((writeOpt (ResourceReference.writeXml "source") x.source) ++
    ((writeOpt (ResourceReference.writeXml "target") x.target) ++
    ((writeOpt (writeList "properties" Property.writeXml) x.properties))))) :=
  (.append (RequiredInputField.xml_wf)
    (.append (writeOpt_wf fun _ _ => ResourceReference.xml_wf)
    (.append (writeOpt_wf fun _ _ => ResourceReference.xml_wf)
    (writeOpt_wf fun _ _ => (writeList_wf fun _ _ => Property.xml_wf)))))

theorem Input.xml_one {x : Input} :
    OneElement true "input" (Input.writeXml x) :=
  writeElem_one goodNil (Input.xml_body_wf)

theorem Input.xml_wf {x : Input} :
    WellFormed true (Input.writeXml x) :=
  (Input.xml_one).wf

theorem Input.arms_local :
    ∀ p ∈ Input.arms, LocalArm p.1 p.2 :=
  (armsCons (arm_local ResourceReference.xml_local _)
    (armsCons (arm_local EnvironmentVar.all_local _)
    (armsCons (arm_local (Attachment.xml_local (tag := "data") (by decide)) _)
    (armsCons (arm_local ResourceReference.xml_local _)
    (armsCons (arm_local ResourceReference.xml_local _)
    (armsCons (arm_local (readListLax_local Property.xml_local) _)
    armsNil))))))

theorem Input.xml_local {tag : String} :
    LocalAt tag Input.readXml :=
  readStruct_local (by simp) (Input.arms_local)

theorem Input.xml_reads {ns : Option String} {x : Input} (h : Input.XmlOk x) :
    Reads ns (Input.writeXml x) "input" Input.readXml x := by
  obtain ⟨required, source, target, properties⟩ := x
  cases required with
  | resource z =>
    have hn : ["resource", "environmentVars", "data", "source", "target", "properties"].Nodup := by decide
    refine reads_struct (Input.xml_body_wf) rfl
        (Goes.append (Goes.one (ResourceReference.xml_reads h.required) (.head _) hn)
          (Goes.append (Goes.opt (fun o s => { s with source := o }) (.tail _ (.tail _ (.tail _ (.head _)))) hn (fun _ => rfl) rfl
            (fun y1262 hy1262 => ResourceReference.xml_reads (h.source y1262 hy1262)))
          (Goes.append (Goes.opt (fun o s => { s with target := o }) (.tail _ (.tail _ (.tail _ (.tail _ (.head _))))) hn (fun _ => rfl) rfl
            (fun y1263 hy1263 => ResourceReference.xml_reads (h.target y1263 hy1263)))
          (Goes.opt (fun o s => { s with properties := o }) (.tail _ (.tail _ (.tail _ (.tail _ (.tail _ (.head _)))))) hn (fun _ => rfl) rfl
            (fun y1264 hy1264 => reads_listLax (fun y1265 hy1265 => Property.xml_reads ((h.properties y1264 hy1264) y1265 hy1265)) (fun _ _ => Property.xml_wf)))
          (writeOpt_wf fun _ _ => ResourceReference.xml_wf))
          (writeOpt_wf fun _ _ => ResourceReference.xml_wf))
          (RequiredInputField.xml_wf)) ?_
    rfl
  | parameters z =>
    exact (h.required : False).elim
  | environmentVars z =>
    have hn : ["resource", "environmentVars", "data", "source", "target", "properties"].Nodup := by decide
    refine reads_struct (Input.xml_body_wf) rfl
        (Goes.append (Goes.one (EnvironmentVar.all_reads h.required) (.tail _ (.head _)) hn)
          (Goes.append (Goes.opt (fun o s => { s with source := o }) (.tail _ (.tail _ (.tail _ (.head _)))) hn (fun _ => rfl) rfl
            (fun y1266 hy1266 => ResourceReference.xml_reads (h.source y1266 hy1266)))
          (Goes.append (Goes.opt (fun o s => { s with target := o }) (.tail _ (.tail _ (.tail _ (.tail _ (.head _))))) hn (fun _ => rfl) rfl
            (fun y1267 hy1267 => ResourceReference.xml_reads (h.target y1267 hy1267)))
          (Goes.opt (fun o s => { s with properties := o }) (.tail _ (.tail _ (.tail _ (.tail _ (.tail _ (.head _)))))) hn (fun _ => rfl) rfl
            (fun y1268 hy1268 => reads_listLax (fun y1269 hy1269 => Property.xml_reads ((h.properties y1268 hy1268) y1269 hy1269)) (fun _ _ => Property.xml_wf)))
          (writeOpt_wf fun _ _ => ResourceReference.xml_wf))
          (writeOpt_wf fun _ _ => ResourceReference.xml_wf))
          (RequiredInputField.xml_wf)) ?_
    rfl
  | data z =>
    have hn : ["resource", "environmentVars", "data", "source", "target", "properties"].Nodup := by decide
    refine reads_struct (Input.xml_body_wf) rfl
        (Goes.append (Goes.one (Attachment.xml_reads h.required) (.tail _ (.tail _ (.head _))) hn)
          (Goes.append (Goes.opt (fun o s => { s with source := o }) (.tail _ (.tail _ (.tail _ (.head _)))) hn (fun _ => rfl) rfl
            (fun y1270 hy1270 => ResourceReference.xml_reads (h.source y1270 hy1270)))
          (Goes.append (Goes.opt (fun o s => { s with target := o }) (.tail _ (.tail _ (.tail _ (.tail _ (.head _))))) hn (fun _ => rfl) rfl
            (fun y1271 hy1271 => ResourceReference.xml_reads (h.target y1271 hy1271)))
          (Goes.opt (fun o s => { s with properties := o }) (.tail _ (.tail _ (.tail _ (.tail _ (.tail _ (.head _)))))) hn (fun _ => rfl) rfl
            (fun y1272 hy1272 => reads_listLax (fun y1273 hy1273 => Property.xml_reads ((h.properties y1272 hy1272) y1273 hy1273)) (fun _ _ => Property.xml_wf)))
          (writeOpt_wf fun _ _ => ResourceReference.xml_wf))
          (writeOpt_wf fun _ _ => ResourceReference.xml_wf))
          (RequiredInputField.xml_wf)) ?_
    rfl

theorem RequiredOutputField.xml_wf {x : RequiredOutputField} : WellFormed true (RequiredOutputField.writeXml x) := by
  cases x with
  | resource y => exact ResourceReference.xml_wf
  | environmentVars y => exact (writeList_wf fun _ _ => EnvironmentVar.xml_wf)
  | data y => exact Attachment.xml_wf

theorem Output.json_ne_null {x : Output} :
    Output.toJson x ≠ .null := Json.mk_ne_null _

theorem Output.json_rt {x : Output} (h : Output.JsonOk x) :
    Output.ofJson (Output.toJson x) = .ok x := by
  obtain ⟨required, type, source, target, properties⟩ := x
  cases required with
  | resource z =>
    have hn : ["resource", "type", "source", "target", "properties"].Nodup := by decide
    refine bindOk (Json.fields_mk _) ?_
    refine bindOk (Json.untagged_hit hn (.head _) (Json.map_ok (ResourceReference.json_rt h.required))) ?_
    refine bindOk (Json.opt_id hn (.tail _ (.head _)) (fun y1278 hy1278 => Json.str_ne_null)
        (fun y1278 hy1278 => Json.enum_rt (h.type y1278 hy1278))) ?_
    refine bindOk (Json.opt_id hn (.tail _ (.tail _ (.head _))) (fun y1279 hy1279 => ResourceReference.json_ne_null)
        (fun y1279 hy1279 => ResourceReference.json_rt (h.source y1279 hy1279))) ?_
    refine bindOk (Json.opt_id hn (.tail _ (.tail _ (.tail _ (.head _)))) (fun y1280 hy1280 => ResourceReference.json_ne_null)
        (fun y1280 hy1280 => ResourceReference.json_rt (h.target y1280 hy1280))) ?_
    refine bindOk (Json.opt_id hn (.tail _ (.tail _ (.tail _ (.tail _ (.head _))))) (fun y1281 hy1281 => Json.ofList_ne_null)
        (fun y1281 hy1281 => Json.array_id (fun y1282 hy1282 => Property.json_rt))) ?_
    rfl
  | environmentVars z =>
    have hn : ["environmentVars", "type", "source", "target", "properties"].Nodup := by decide
    refine bindOk (Json.fields_mk _) ?_
    refine bindOk ((Json.untagged_miss (by decide : "resource" ∉ ["environmentVars", "type", "source", "target", "properties"])).trans (Json.untagged_hit hn (.head _) (Json.map_ok (Json.array_id (fun _ _ => EnvironmentVar.json_rt))))) ?_
    refine bindOk (Json.opt_id hn (.tail _ (.head _)) (fun y1283 hy1283 => Json.str_ne_null)
        (fun y1283 hy1283 => Json.enum_rt (h.type y1283 hy1283))) ?_
    refine bindOk (Json.opt_id hn (.tail _ (.tail _ (.head _))) (fun y1284 hy1284 => ResourceReference.json_ne_null)
        (fun y1284 hy1284 => ResourceReference.json_rt (h.source y1284 hy1284))) ?_
    refine bindOk (Json.opt_id hn (.tail _ (.tail _ (.tail _ (.head _)))) (fun y1285 hy1285 => ResourceReference.json_ne_null)
        (fun y1285 hy1285 => ResourceReference.json_rt (h.target y1285 hy1285))) ?_
    refine bindOk (Json.opt_id hn (.tail _ (.tail _ (.tail _ (.tail _ (.head _))))) (fun y1286 hy1286 => Json.ofList_ne_null)
        (fun y1286 hy1286 => Json.array_id (fun y1287 hy1287 => Property.json_rt))) ?_
    rfl
  | data z =>
    have hn : ["data", "type", "source", "target", "properties"].Nodup := by decide
    refine bindOk (Json.fields_mk _) ?_
    refine bindOk ((Json.untagged_miss (by decide : "resource" ∉ ["data", "type", "source", "target", "properties"])).trans ((Json.untagged_miss (by decide : "environmentVars" ∉ ["data", "type", "source", "target", "properties"])).trans (Json.untagged_hit hn (.head _) (Json.map_ok (Attachment.json_rt))))) ?_
    refine bindOk (Json.opt_id hn (.tail _ (.head _)) (fun y1288 hy1288 => Json.str_ne_null)
        (fun y1288 hy1288 => Json.enum_rt (h.type y1288 hy1288))) ?_
    refine bindOk (Json.opt_id hn (.tail _ (.tail _ (.head _))) (fun y1289 hy1289 => ResourceReference.json_ne_null)
        (fun y1289 hy1289 => ResourceReference.json_rt (h.source y1289 hy1289))) ?_
    refine bindOk (Json.opt_id hn (.tail _ (.tail _ (.tail _ (.head _)))) (fun y1290 hy1290 => ResourceReference.json_ne_null)
        (fun y1290 hy1290 => ResourceReference.json_rt (h.target y1290 hy1290))) ?_
    refine bindOk (Json.opt_id hn (.tail _ (.tail _ (.tail _ (.tail _ (.head _))))) (fun y1291 hy1291 => Json.ofList_ne_null)
        (fun y1291 hy1291 => Json.array_id (fun y1292 hy1292 => Property.json_rt))) ?_
    rfl

theorem Output.xml_body_wf {x : Output} : WellFormed true (
    (RequiredOutputField.writeXml x.required) ++
    ((writeOpt (fun e => writeSimple "type" (OutputType.display e)) x.type) ++
    ((writeOpt (ResourceReference.writeXml "source") x.source) ++
    ((writeOpt (ResourceReference.writeXml "target") x.target) ++
    ((writeOpt (writeList "properties" Property.writeXml) x.properties)))))) :=
  (.append (RequiredOutputField.xml_wf)
    (.append (writeOpt_wf fun _ _ => writeSimple_wf)
    (.append (writeOpt_wf fun _ _ => ResourceReference.xml_wf)
    (.append (writeOpt_wf fun _ _ => ResourceReference.xml_wf)
    (writeOpt_wf fun _ _ => (writeList_wf fun _ _ => Property.xml_wf))))))

theorem Output.xml_one {x : Output} :
    OneElement true "output" (Output.writeXml x) :=
  writeElem_one goodNil (Output.xml_body_wf)

theorem Output.xml_wf {x : Output} :
    WellFormed true (Output.writeXml x) :=
  (Output.xml_one).wf

theorem Output.arms_local :
    ∀ p ∈ Output.arms, LocalArm p.1 p.2 :=
  (armsCons (arm_local ResourceReference.xml_local _)
    (armsCons (arm_local EnvironmentVar.all_local _)
    (armsCons (arm_local (Attachment.xml_local (tag := "data") (by decide)) _)
    (armsCons (arm_local (map_local readSimple_local OutputType.new) _)
    (armsCons (arm_local ResourceReference.xml_local _)
    (armsCons (arm_local ResourceReference.xml_local _)
    (armsCons (arm_local (readListLax_local Property.xml_local) _)
    armsNil)))))))

theorem Output.xml_local {tag : String} :
    LocalAt tag Output.readXml :=
  readStruct_local (by simp) (Output.arms_local)

theorem Output.xml_reads {ns : Option String} {x : Output} (h : Output.XmlOk x) :
    Reads ns (Output.writeXml x) "output" Output.readXml x := by
  obtain ⟨required, type, source, target, properties⟩ := x
  cases required with
  | resource z =>
    have hn : ["resource", "environmentVars", "data", "type", "source", "target", "properties"].Nodup := by decide
    refine reads_struct (Output.xml_body_wf) rfl
        (Goes.append (Goes.one (ResourceReference.xml_reads h.required) (.head _) hn)
          (Goes.append (Goes.opt (fun o s => { s with type := o }) (.tail _ (.tail _ (.tail _ (.head _)))) hn (fun _ => rfl) rfl
            (fun y1298 hy1298 => reads_enum (h.type y1298 hy1298)))
          (Goes.append (Goes.opt (fun o s => { s with source := o }) (.tail _ (.tail _ (.tail _ (.tail _ (.head _))))) hn (fun _ => rfl) rfl
            (fun y1299 hy1299 => ResourceReference.xml_reads (h.source y1299 hy1299)))
          (Goes.append (Goes.opt (fun o s => { s with target := o }) (.tail _ (.tail _ (.tail _ (.tail _ (.tail _ (.head _)))))) hn (fun _ => rfl) rfl
            (fun y1300 hy1300 => ResourceReference.xml_reads (h.target y1300 hy1300)))
          (Goes.opt (fun o s => { s with properties := o }) (.tail _ (.tail _ (.tail _ (.tail _ (.tail _ (.tail _ (.head _))))))) hn (fun _ => rfl) rfl
            (fun y1301 hy1301 => reads_listLax (fun y1302 hy1302 => Property.xml_reads ((h.properties y1301 hy1301) y1302 hy1302)) (fun _ _ => Property.xml_wf)))
          (writeOpt_wf fun _ _ => ResourceReference.xml_wf))
          (writeOpt_wf fun _ _ => ResourceReference.xml_wf))
          (writeOpt_wf fun _ _ => writeSimple_wf))
          (RequiredOutputField.xml_wf)) ?_
    rfl
  | environmentVars z =>
    have hn : ["resource", "environmentVars", "data", "type", "source", "target", "properties"].Nodup := by decide
    refine reads_struct (Output.xml_body_wf) rfl
        (Goes.append (Goes.one (EnvironmentVar.all_reads h.required) (.tail _ (.head _)) hn)
          (Goes.append (Goes.opt (fun o s => { s with type := o }) (.tail _ (.tail _ (.tail _ (.head _)))) hn (fun _ => rfl) rfl
            (fun y1303 hy1303 => reads_enum (h.type y1303 hy1303)))
          (Goes.append (Goes.opt (fun o s => { s with source := o }) (.tail _ (.tail _ (.tail _ (.tail _ (.head _))))) hn (fun _ => rfl) rfl
            (fun y1304 hy1304 => ResourceReference.xml_reads (h.source y1304 hy1304)))
          (Goes.append (Goes.opt (fun o s => { s with target := o }) (.tail _ (.tail _ (.tail _ (.tail _ (.tail _ (.head _)))))) hn (fun _ => rfl) rfl
            (fun y1305 hy1305 => ResourceReference.xml_reads (h.target y1305 hy1305)))
          (Goes.opt (fun o s => { s with properties := o }) (.tail _ (.tail _ (.tail _ (.tail _ (.tail _ (.tail _ (.head _))))))) hn (fun _ => rfl) rfl
            (fun y1306 hy1306 => reads_listLax (fun y1307 hy1307 => Property.xml_reads ((h.properties y1306 hy1306) y1307 hy1307)) (fun _ _ => Property.xml_wf)))
          (writeOpt_wf fun _ _ => ResourceReference.xml_wf))
          (writeOpt_wf fun _ _ => ResourceReference.xml_wf))
          (writeOpt_wf fun _ _ => writeSimple_wf))
          (RequiredOutputField.xml_wf)) ?_
    rfl
  | data z =>
    have hn : ["resource", "environmentVars", "data", "type", "source", "target", "properties"].Nodup := by decide
    refine reads_struct (Output.xml_body_wf) rfl
        (Goes.append (Goes.one (Attachment.xml_reads h.required) (.tail _ (.tail _ (.head _))) hn)
          (Goes.append (Goes.opt (fun o s => { s with type := o }) (.tail _ (.tail _ (.tail _ (.head _)))) hn (fun _ => rfl) rfl
            (fun y1308 hy1308 => reads_enum (h.type y1308 hy1308)))
          (Goes.append (Goes.opt (fun o s => { s with source := o }) (.tail _ (.tail _ (.tail _ (.tail _ (.head _))))) hn (fun _ => rfl) rfl
            (fun y1309 hy1309 => ResourceReference.xml_reads (h.source y1309 hy1309)))
          (Goes.append (Goes.opt (fun o s => { s with target := o }) (.tail _ (.tail _ (.tail _ (.tail _ (.tail _ (.head _)))))) hn (fun _ => rfl) rfl
            (fun y1310 hy1310 => ResourceReference.xml_reads (h.target y1310 hy1310)))
          (Goes.opt (fun o s => { s with properties := o }) (.tail _ (.tail _ (.tail _ (.tail _ (.tail _ (.tail _ (.head _))))))) hn (fun _ => rfl) rfl
            (fun y1311 hy1311 => reads_listLax (fun y1312 hy1312 => Property.xml_reads ((h.properties y1311 hy1311) y1312 hy1312)) (fun _ _ => Property.xml_wf)))
          (writeOpt_wf fun _ _ => ResourceReference.xml_wf))
          (writeOpt_wf fun _ _ => ResourceReference.xml_wf))
          (writeOpt_wf fun _ _ => writeSimple_wf))
          (RequiredOutputField.xml_wf)) ?_
    rfl

theorem Command.json_ne_null {x : Command} :
    Command.toJson x ≠ .null := Json.mk_ne_null _

theorem Command.json_rt {x : Command} :
    Command.ofJson (Command.toJson x) = .ok x := by
  have hn : ["executed", "properties"].Nodup := by decide
  refine bindOk (Json.fields_mk _) ?_
  refine bindOk (Json.opt_id hn (.head _) (fun y1313 hy1313 => Json.str_ne_null)
      (fun y1313 hy1313 => rfl)) ?_
  refine bindOk (Json.opt_id hn (.tail _ (.head _)) (fun y1314 hy1314 => Json.ofList_ne_null)
      (fun y1314 hy1314 => Json.array_id (fun y1315 hy1315 => Property.json_rt))) ?_
  rfl

theorem Command.xml_body_wf {loose : Bool} {x : Command} : WellFormed loose (
    (writeOpt (writeSimple "executed") x.executed) ++
    ((writeOpt (writeList "properties" Property.writeXml) x.properties))) :=
  (.append (writeOpt_wf fun _ _ => writeSimple_wf)
    (writeOpt_wf fun _ _ => (writeList_wf fun _ _ => Property.xml_wf)))

theorem Command.xml_one {loose : Bool} {x : Command} :
    OneElement loose "command" (Command.writeXml x) :=
  writeElem_one goodNil (Command.xml_body_wf)

theorem Command.xml_wf {loose : Bool} {x : Command} :
    WellFormed loose (Command.writeXml x) :=
  (Command.xml_one).wf

theorem Command.arms_local :
    ∀ p ∈ Command.arms, LocalArm p.1 p.2 :=
  (armsCons (arm_local readSimple_local _)
    (armsCons (arm_local (readListLax_local Property.xml_local) _)
    armsNil))

theorem Command.xml_local {tag : String} :
    LocalAt tag Command.readXml :=
  readStruct_local (by simp) (Command.arms_local)

theorem Command.xml_reads {ns : Option String} {x : Command} (h : Command.XmlOk x) :
    Reads ns (Command.writeXml x) "command" Command.readXml x := by
  have hn : ["executed", "properties"].Nodup := by decide
  refine reads_struct (Command.xml_body_wf) rfl
      (Goes.append (Goes.opt (fun o s => { s with executed := o }) (.head _) hn (fun _ => rfl) rfl
          (fun y1319 hy1319 => reads_simple (h.executed y1319 hy1319)))
        (Goes.opt (fun o s => { s with properties := o }) (.tail _ (.head _)) hn (fun _ => rfl) rfl
          (fun y1320 hy1320 => reads_listLax (fun y1321 hy1321 => Property.xml_reads ((h.properties y1320 hy1320) y1321 hy1321)) (fun _ _ => Property.xml_wf)))
        (writeOpt_wf fun _ _ => writeSimple_wf)) ?_
  rfl

theorem Step.json_ne_null {x : Step} :
    Step.toJson x ≠ .null := Json.mk_ne_null _

theorem Step.json_rt {x : Step} :
    Step.ofJson (Step.toJson x) = .ok x := by
  have hn : ["commands", "description", "name", "properties"].Nodup := by decide
  refine bindOk (Json.fields_mk _) ?_
  refine bindOk (Json.opt_id hn (.head _) (fun y1322 hy1322 => Json.ofList_ne_null)
      (fun y1322 hy1322 => Json.array_id (fun y1323 hy1323 => Command.json_rt))) ?_
  refine bindOk (Json.opt_id hn (.tail _ (.head _)) (fun y1324 hy1324 => Json.str_ne_null)
      (fun y1324 hy1324 => rfl)) ?_
  refine bindOk (Json.opt_id hn (.tail _ (.tail _ (.head _))) (fun y1325 hy1325 => Json.str_ne_null)
      (fun y1325 hy1325 => rfl)) ?_
  refine bindOk (Json.opt_id hn (.tail _ (.tail _ (.tail _ (.head _)))) (fun y1326 hy1326 => Json.ofList_ne_null)
      (fun y1326 hy1326 => Json.array_id (fun y1327 hy1327 => Property.json_rt))) ?_
  rfl

theorem Step.xml_body_wf {loose : Bool} {x : Step} : WellFormed loose (
    (writeOpt (writeList "commands" Command.writeXml) x.commands) ++
    ((writeOpt (writeSimple "description") x.description) ++
    ((writeOpt (writeSimple "name") x.name) ++
    ((writeOpt (writeList "properties" Property.writeXml) x.properties))))) :=
  (.append (writeOpt_wf fun _ _ => (writeList_wf fun _ _ => Command.xml_wf))
    (.append (writeOpt_wf fun _ _ => writeSimple_wf)
    (.append (writeOpt_wf fun _ _ => writeSimple_wf)
    (writeOpt_wf fun _ _ => (writeList_wf fun _ _ => Property.xml_wf)))))

theorem Step.xml_one {loose : Bool} {x : Step} :
    OneElement loose "step" (Step.writeXml x) :=
  writeElem_one goodNil (Step.xml_body_wf)

theorem Step.xml_wf {loose : Bool} {x : Step} :
    WellFormed loose (Step.writeXml x) :=
  (Step.xml_one).wf

theorem Step.arms_local :
    ∀ p ∈ Step.arms, LocalArm p.1 p.2 :=
  (armsCons (arm_local (readList_local Command.xml_local) _)
    (armsCons (arm_local readSimple_local _)
    (armsCons (arm_local readSimple_local _)
    (armsCons (arm_local (readListLax_local Property.xml_local) _)
    armsNil))))

theorem Step.xml_local {tag : String} :
    LocalAt tag Step.readXml :=
  readStruct_local (by simp) (Step.arms_local)

theorem Step.xml_reads {ns : Option String} {x : Step} (h : Step.XmlOk x) :
    Reads ns (Step.writeXml x) "step" Step.readXml x := by
  have hn : ["commands", "description", "name", "properties"].Nodup := by decide
  refine reads_struct (Step.xml_body_wf) rfl
      (Goes.append (Goes.opt (fun o s => { s with commands := o }) (.head _) hn (fun _ => rfl) rfl
          (fun y1334 hy1334 => reads_list (fun y1335 hy1335 => Command.xml_reads ((h.commands y1334 hy1334) y1335 hy1335)) (fun _ _ => Command.xml_wf)))
        (Goes.append (Goes.opt (fun o s => { s with description := o }) (.tail _ (.head _)) hn (fun _ => rfl) rfl
          (fun y1336 hy1336 => reads_simple (h.description y1336 hy1336)))
        (Goes.append (Goes.opt (fun o s => { s with name := o }) (.tail _ (.tail _ (.head _))) hn (fun _ => rfl) rfl
          (fun y1337 hy1337 => reads_simple (h.name y1337 hy1337)))
        (Goes.opt (fun o s => { s with properties := o }) (.tail _ (.tail _ (.tail _ (.head _)))) hn (fun _ => rfl) rfl
          (fun y1338 hy1338 => reads_listLax (fun y1339 hy1339 => Property.xml_reads ((h.properties y1338 hy1338) y1339 hy1339)) (fun _ _ => Property.xml_wf)))
        (writeOpt_wf fun _ _ => writeSimple_wf))
        (writeOpt_wf fun _ _ => writeSimple_wf))
        (writeOpt_wf fun _ _ => (writeList_wf fun _ _ => Command.xml_wf))) ?_
  rfl

theorem TriggerEvent.json_ne_null {x : TriggerEvent} :
    TriggerEvent.toJson x ≠ .null := Json.mk_ne_null _

theorem TriggerEvent.json_rt {x : TriggerEvent} (h : TriggerEvent.JsonOk x) :
    TriggerEvent.ofJson (TriggerEvent.toJson x) = .ok x := by
  have hn : ["uid", "description", "timeReceived", "data", "source", "target", "properties"].Nodup := by decide
  refine bindOk (Json.fields_mk _) ?_
  refine bindOk (Json.opt_id hn (.head _) (fun y1342 hy1342 => Json.str_ne_null)
      (fun y1342 hy1342 => rfl)) ?_
  refine bindOk (Json.opt_id hn (.tail _ (.head _)) (fun y1343 hy1343 => Json.str_ne_null)
      (fun y1343 hy1343 => rfl)) ?_
  refine bindOk (Json.opt_id hn (.tail _ (.tail _ (.head _))) (fun y1344 hy1344 => Json.str_ne_null)
      (fun y1344 hy1344 => rfl)) ?_
  refine bindOk (Json.opt_id hn (.tail _ (.tail _ (.tail _ (.head _)))) (fun y1345 hy1345 => Attachment.json_ne_null)
      (fun y1345 hy1345 => Attachment.json_rt)) ?_
  refine bindOk (Json.opt_id hn (.tail _ (.tail _ (.tail _ (.tail _ (.head _))))) (fun y1346 hy1346 => ResourceReference.json_ne_null)
      (fun y1346 hy1346 => ResourceReference.json_rt (h.source y1346 hy1346))) ?_
  refine bindOk (Json.opt_id hn (.tail _ (.tail _ (.tail _ (.tail _ (.tail _ (.head _)))))) (fun y1347 hy1347 => ResourceReference.json_ne_null)
      (fun y1347 hy1347 => ResourceReference.json_rt (h.target y1347 hy1347))) ?_
  refine bindOk (Json.opt_id hn (.tail _ (.tail _ (.tail _ (.tail _ (.tail _ (.tail _ (.head _))))))) (fun y1348 hy1348 => Json.ofList_ne_null)
      (fun y1348 hy1348 => Json.array_id (fun y1349 hy1349 => Property.json_rt))) ?_
  rfl

theorem TriggerEvent.xml_body_wf {x : TriggerEvent} : WellFormed true (
    (writeOpt (writeSimple "uid") x.uid) ++
    ((writeOpt (writeSimple "description") x.description) ++
    ((writeOpt (writeSimple "timeReceived") x.timeReceived) ++
    ((writeOpt (Attachment.writeXml "data") x.data) ++
    ((writeOpt (ResourceReference.writeXml "source") x.source) ++
    ((writeOpt (ResourceReference.writeXml "target") x.target) ++
    ((writeOpt (writeList "properties" Property.writeXml) x.properties)))))))) :=
  (.append (writeOpt_wf fun _ _ => writeSimple_wf)
    (.append (writeOpt_wf fun _ _ => writeSimple_wf)
    (.append (writeOpt_wf fun _ _ => writeSimple_wf)
    (.append (writeOpt_wf fun _ _ => Attachment.xml_wf)
    (.append (writeOpt_wf fun _ _ => ResourceReference.xml_wf)
    (.append (writeOpt_wf fun _ _ => ResourceReference.xml_wf)
    (writeOpt_wf fun _ _ => (writeList_wf fun _ _ => Property.xml_wf))))))))

theorem TriggerEvent.xml_one {x : TriggerEvent} :
    OneElement true "event" (TriggerEvent.writeXml x) :=
  writeElem_one goodNil (TriggerEvent.xml_body_wf)

theorem TriggerEvent.xml_wf {x : TriggerEvent} :
    WellFormed true (TriggerEvent.writeXml x) :=
  (TriggerEvent.xml_one).wf

theorem TriggerEvent.arms_local :
    ∀ p ∈ TriggerEvent.arms, LocalArm p.1 p.2 :=
  (armsCons (arm_local readSimple_local _)
    (armsCons (arm_local readSimple_local _)
    (armsCons (arm_local readSimple_local _)
    (armsCons (arm_local (Attachment.xml_local (tag := "data") (by decide)) _)
    (armsCons (arm_local ResourceReference.xml_local _)
    (armsCons (arm_local ResourceReference.xml_local _)
    (armsCons (arm_local (readListLax_local Property.xml_local) _)
    armsNil)))))))

theorem TriggerEvent.xml_local {tag : String} :
    LocalAt tag TriggerEvent.readXml :=
  readStruct_local (by simp) (TriggerEvent.arms_local)

theorem TriggerEvent.xml_reads {ns : Option String} {x : TriggerEvent} (h : TriggerEvent.XmlOk x) :
    Reads ns (TriggerEvent.writeXml x) "event" TriggerEvent.readXml x := by
  have hn : ["uid", "description", "timeReceived", "data", "source", "target", "properties"].Nodup := by decide
  refine reads_struct (TriggerEvent.xml_body_wf) rfl
      (Goes.append (Goes.opt (fun o s => { s with uid := o }) (.head _) hn (fun _ => rfl) rfl
          (fun y1358 hy1358 => reads_simple (h.uid y1358 hy1358)))
        (Goes.append (Goes.opt (fun o s => { s with description := o }) (.tail _ (.head _)) hn (fun _ => rfl) rfl
          (fun y1359 hy1359 => reads_simple (h.description y1359 hy1359)))
        (Goes.append (Goes.opt (fun o s => { s with timeReceived := o }) (.tail _ (.tail _ (.head _))) hn (fun _ => rfl) rfl
          (fun y1360 hy1360 => reads_simple (h.timeReceived y1360 hy1360)))
        (Goes.append (Goes.opt (fun o s => { s with data := o }) (.tail _ (.tail _ (.tail _ (.head _)))) hn (fun _ => rfl) rfl
          (fun y1361 hy1361 => Attachment.xml_reads (h.data y1361 hy1361)))
        (Goes.append (Goes.opt (fun o s => { s with source := o }) (.tail _ (.tail _ (.tail _ (.tail _ (.head _))))) hn (fun _ => rfl) rfl
          (fun y1362 hy1362 => ResourceReference.xml_reads (h.source y1362 hy1362)))
        (Goes.append (Goes.opt (fun o s => { s with target := o }) (.tail _ (.tail _ (.tail _ (.tail _ (.tail _ (.head _)))))) hn (fun _ => rfl) rfl
          (fun y1363 hy1363 => ResourceReference.xml_reads (h.target y1363 hy1363)))
        (Goes.opt (fun o s => { s with properties := o }) (.tail _ (.tail _ (.tail _ (.tail _ (.tail _ (.tail _ (.head _))))))) hn (fun _ => rfl) rfl
          (fun y1364 hy1364 => reads_listLax (fun y1365 hy1365 => Property.xml_reads ((h.properties y1364 hy1364) y1365 hy1365)) (fun _ _ => Property.xml_wf)))
        (writeOpt_wf fun _ _ => ResourceReference.xml_wf))
        (writeOpt_wf fun _ _ => ResourceReference.xml_wf))
        (writeOpt_wf fun _ _ => Attachment.xml_wf))
        (writeOpt_wf fun _ _ => writeSimple_wf))
        (writeOpt_wf fun _ _ => writeSimple_wf))
        (writeOpt_wf fun _ _ => writeSimple_wf)) ?_
  rfl

theorem Condition.json_ne_null {x : Condition} :
    Condition.toJson x ≠ .null := Json.mk_ne_null _

theorem Condition.json_rt {x : Condition} :
    Condition.ofJson (Condition.toJson x) = .ok x := by
  have hn : ["description", "expression", "properties"].Nodup := by decide
  refine bindOk (Json.fields_mk _) ?_
  refine bindOk (Json.opt_id hn (.head _) (fun y1366 hy1366 => Json.str_ne_null)
      (fun y1366 hy1366 => rfl)) ?_
  refine bindOk (Json.opt_id hn (.tail _ (.head _)) (fun y1367 hy1367 => Json.str_ne_null)
      (fun y1367 hy1367 => rfl)) ?_
  refine bindOk (Json.opt_id hn (.tail _ (.tail _ (.head _))) (fun y1368 hy1368 => Json.ofList_ne_null)
      (fun y1368 hy1368 => Json.array_id (fun y1369 hy1369 => Property.json_rt))) ?_
  rfl

theorem Condition.xml_body_wf {loose : Bool} {x : Condition} : WellFormed loose (
    (writeOpt (writeSimple "description") x.description) ++
    ((writeOpt (writeSimple "expression") x.expression) ++
    ((writeOpt (writeList "properties" Property.writeXml) x.properties)))) :=
  (.append (writeOpt_wf fun _ _ => writeSimple_wf)
    (.append (writeOpt_wf fun _ _ => writeSimple_wf)
    (writeOpt_wf fun _ _ => (writeList_wf fun _ _ => Property.xml_wf))))

theorem Condition.xml_one {loose : Bool} {x : Condition} :
    OneElement loose "condition" (Condition.writeXml x) :=
  writeElem_one goodNil (Condition.xml_body_wf)

theorem Condition.xml_wf {loose : Bool} {x : Condition} :
    WellFormed loose (Condition.writeXml x) :=
  (Condition.xml_one).wf

theorem Condition.arms_local :
    ∀ p ∈ Condition.arms, LocalArm p.1 p.2 :=
  (armsCons (arm_local readSimple_local _)
    (armsCons (arm_local readSimple_local _)
    (armsCons (arm_local (readListLax_local Property.xml_local) _)
    armsNil)))

theorem Condition.xml_local {tag : String} :
    LocalAt tag Condition.readXml :=
  readStruct_local (by simp) (Condition.arms_local)

theorem Condition.xml_reads {ns : Option String} {x : Condition} (h : Condition.XmlOk x) :
    Reads ns (Condition.writeXml x) "condition" Condition.readXml x := by
  have hn : ["description", "expression", "properties"].Nodup := by decide
  refine reads_struct (Condition.xml_body_wf) rfl
      (Goes.append (Goes.opt (fun o s => { s with description := o }) (.head _) hn (fun _ => rfl) rfl
          (fun y1374 hy1374 => reads_simple (h.description y1374 hy1374)))
        (Goes.append (Goes.opt (fun o s => { s with expression := o }) (.tail _ (.head _)) hn (fun _ => rfl) rfl
          (fun y1375 hy1375 => reads_simple (h.expression y1375 hy1375)))
        (Goes.opt (fun o s => { s with properties := o }) (.tail _ (.tail _ (.head _))) hn (fun _ => rfl) rfl
          (fun y1376 hy1376 => reads_listLax (fun y1377 hy1377 => Property.xml_reads ((h.properties y1376 hy1376) y1377 hy1377)) (fun _ _ => Property.xml_wf)))
        (writeOpt_wf fun _ _ => writeSimple_wf))
        (writeOpt_wf fun _ _ => writeSimple_wf)) ?_
  rfl

theorem Trigger.json_ne_null {x : Trigger} :
    Trigger.toJson x ≠ .null := Json.mk_ne_null _

theorem Trigger.json_rt {x : Trigger} (h : Trigger.JsonOk x) :
    Trigger.ofJson (Trigger.toJson x) = .ok x := by
  have hn : ["bom-ref", "uid", "name", "description", "resourceReferences", "type", "event", "conditions", "timeActivated", "inputs", "outputs", "properties"].Nodup := by decide
  refine bindOk (Json.fields_mk _) ?_
  refine bindOk (Json.req_mk hn (.head _) (rfl)) ?_
  refine bindOk (Json.req_mk hn (.tail _ (.head _)) (rfl)) ?_
  refine bindOk (Json.opt_id hn (.tail _ (.tail _ (.head _))) (fun y1385 hy1385 => Json.str_ne_null)
      (fun y1385 hy1385 => rfl)) ?_
  refine bindOk (Json.opt_id hn (.tail _ (.tail _ (.tail _ (.head _)))) (fun y1386 hy1386 => Json.str_ne_null)
      (fun y1386 hy1386 => rfl)) ?_
  refine bindOk (Json.opt_id hn (.tail _ (.tail _ (.tail _ (.tail _ (.head _))))) (fun y1387 hy1387 => Json.ofList_ne_null)
      (fun y1387 hy1387 => Json.array_id (fun y1388 hy1388 => ResourceReference.json_rt ((h.resourceReferences y1387 hy1387) y1388 hy1388)))) ?_
  refine bindOk (Json.req_mk hn (.tail _ (.tail _ (.tail _ (.tail _ (.tail _ (.head _)))))) (Json.enum_rt h.type)) ?_
  refine bindOk (Json.opt_id hn (.tail _ (.tail _ (.tail _ (.tail _ (.tail _ (.tail _ (.head _))))))) (fun y1389 hy1389 => TriggerEvent.json_ne_null)
      (fun y1389 hy1389 => TriggerEvent.json_rt (h.event y1389 hy1389))) ?_
  refine bindOk (Json.opt_id hn (.tail _ (.tail _ (.tail _ (.tail _ (.tail _ (.tail _ (.tail _ (.head _)))))))) (fun y1390 hy1390 => Json.ofList_ne_null)
      (fun y1390 hy1390 => Json.array_id (fun y1391 hy1391 => Condition.json_rt))) ?_
  refine bindOk (Json.opt_id hn (.tail _ (.tail _ (.tail _ (.tail _ (.tail _ (.tail _ (.tail _ (.tail _ (.head _))))))))) (fun y1392 hy1392 => Json.str_ne_null)
      (fun y1392 hy1392 => rfl)) ?_
  refine bindOk (Json.opt_id hn (.tail _ (.tail _ (.tail _ (.tail _ (.tail _ (.tail _ (.tail _ (.tail _ (.tail _ (.head _)))))))))) (fun y1393 hy1393 => Json.ofList_ne_null)
      (fun y1393 hy1393 => Json.array_id (fun y1394 hy1394 => Input.json_rt ((h.inputs y1393 hy1393) y1394 hy1394)))) ?_
  refine bindOk (Json.opt_id hn (.tail _ (.tail _ (.tail _ (.tail _ (.tail _ (.tail _ (.tail _ (.tail _ (.tail _ (.tail _ (.head _))))))))))) (fun y1395 hy1395 => Json.ofList_ne_null)
      (fun y1395 hy1395 => Json.array_id (fun y1396 hy1396 => Output.json_rt ((h.outputs y1395 hy1395) y1396 hy1396)))) ?_
  refine bindOk (Json.opt_id hn (.tail _ (.tail _ (.tail _ (.tail _ (.tail _ (.tail _ (.tail _ (.tail _ (.tail _ (.tail _ (.tail _ (.head _)))))))))))) (fun y1397 hy1397 => Json.ofList_ne_null)
      (fun y1397 hy1397 => Json.array_id (fun y1398 hy1398 => Property.json_rt))) ?_
  rfl

theorem Trigger.xml_body_wf {x : Trigger} : WellFormed true (
    ((writeSimple "uid") x.uid) ++
    ((writeOpt (writeSimple "name") x.name) ++
    ((writeOpt (writeSimple "description") x.description) ++
    ((writeOpt (writeList "resourceReferences" (ResourceReference.writeXml "resourceReference")) x.resourceReferences) ++
    (((fun e => writeSimple "type" (TriggerType.display e)) x.type) ++
    ((writeOpt TriggerEvent.writeXml x.event) ++
    ((writeOpt (writeList "conditions" Condition.writeXml) x.conditions) ++
    ((writeOpt (writeSimple "timeActivated") x.timeActivated) ++
    ((writeOpt (writeList "inputs" Input.writeXml) x.inputs) ++
    ((writeOpt (writeList "outputs" Output.writeXml) x.outputs) ++
    ((writeOpt (writeList "properties" Property.writeXml) x.properties)))))))))))) :=
  (.append (writeSimple_wf)
    (.append (writeOpt_wf fun _ _ => writeSimple_wf)
    (.append (writeOpt_wf fun _ _ => writeSimple_wf)
    (.append (writeOpt_wf fun _ _ => (writeList_wf fun _ _ => ResourceReference.xml_wf))
    (.append (writeSimple_wf)
    (.append (writeOpt_wf fun _ _ => TriggerEvent.xml_wf)
    (.append (writeOpt_wf fun _ _ => (writeList_wf fun _ _ => Condition.xml_wf))
    (.append (writeOpt_wf fun _ _ => writeSimple_wf)
    (.append (writeOpt_wf fun _ _ => (writeList_wf fun _ _ => Input.xml_wf))
    (.append (writeOpt_wf fun _ _ => (writeList_wf fun _ _ => Output.xml_wf))
    (writeOpt_wf fun _ _ => (writeList_wf fun _ _ => Property.xml_wf))))))))))))

theorem Trigger.xml_one {x : Trigger} :
    OneElement true "trigger" (Trigger.writeXml x) :=
  writeElem_one (goodAttrs (by decide : ["bom-ref"].Nodup)) (Trigger.xml_body_wf)

theorem Trigger.xml_wf {x : Trigger} :
    WellFormed true (Trigger.writeXml x) :=
  (Trigger.xml_one).wf

theorem Trigger.arms_local :
    ∀ p ∈ Trigger.arms, LocalArm p.1 p.2 :=
  (armsCons (arm_local readSimple_local _)
    (armsCons (arm_local readSimple_local _)
    (armsCons (arm_local readSimple_local _)
    (armsCons (arm_local (readListLax_local ResourceReference.xml_local) _)
    (armsCons (arm_local (map_local readSimple_local TriggerType.new) _)
    (armsCons (arm_local TriggerEvent.xml_local _)
    (armsCons (arm_local (readList_local Condition.xml_local) _)
    (armsCons (arm_local readSimple_local _)
    (armsCons (arm_local (readList_local Input.xml_local) _)
    (armsCons (arm_local (readList_local Output.xml_local) _)
    (armsCons (arm_local (readListLax_local Property.xml_local) _)
    armsNil)))))))))))

theorem Trigger.xml_local {tag : String} :
    LocalAt tag Trigger.readXml :=
  readStruct_local (by simp) (Trigger.arms_local)

theorem Trigger.xml_reads {ns : Option String} {x : Trigger} (h : Trigger.XmlOk x) :
    Reads ns (Trigger.writeXml x) "trigger" Trigger.readXml x := by
  have hn : ["uid", "name", "description", "resourceReferences", "type", "event", "conditions", "timeActivated", "inputs", "outputs", "properties"].Nodup := by decide
  have ha : ["bom-ref"].Nodup := by decide
  refine reads_struct (p := (x.bomRef)) (Trigger.xml_body_wf) ?_
      (Goes.append (Goes.one (reads_simple h.uid) (.head _) hn)
        (Goes.append (Goes.opt (fun o s => { s with name := o }) (.tail _ (.head _)) hn (fun _ => rfl) rfl
          (fun y1413 hy1413 => reads_simple (h.name y1413 hy1413)))
        (Goes.append (Goes.opt (fun o s => { s with description := o }) (.tail _ (.tail _ (.head _))) hn (fun _ => rfl) rfl
          (fun y1414 hy1414 => reads_simple (h.description y1414 hy1414)))
        (Goes.append (Goes.opt (fun o s => { s with resourceReferences := o }) (.tail _ (.tail _ (.tail _ (.head _)))) hn (fun _ => rfl) rfl
          (fun y1415 hy1415 => reads_listLax (fun y1416 hy1416 => ResourceReference.xml_reads ((h.resourceReferences y1415 hy1415) y1416 hy1416)) (fun _ _ => ResourceReference.xml_wf)))
        (Goes.append (Goes.one (reads_enum h.type) (.tail _ (.tail _ (.tail _ (.tail _ (.head _))))) hn)
        (Goes.append (Goes.opt (fun o s => { s with event := o }) (.tail _ (.tail _ (.tail _ (.tail _ (.tail _ (.head _)))))) hn (fun _ => rfl) rfl
          (fun y1417 hy1417 => TriggerEvent.xml_reads (h.event y1417 hy1417)))
        (Goes.append (Goes.opt (fun o s => { s with conditions := o }) (.tail _ (.tail _ (.tail _ (.tail _ (.tail _ (.tail _ (.head _))))))) hn (fun _ => rfl) rfl
          (fun y1418 hy1418 => reads_list (fun y1419 hy1419 => Condition.xml_reads ((h.conditions y1418 hy1418) y1419 hy1419)) (fun _ _ => Condition.xml_wf)))
        (Goes.append (Goes.opt (fun o s => { s with timeActivated := o }) (.tail _ (.tail _ (.tail _ (.tail _ (.tail _ (.tail _ (.tail _ (.head _)))))))) hn (fun _ => rfl) rfl
          (fun y1420 hy1420 => reads_simple (h.timeActivated y1420 hy1420)))
        (Goes.append (Goes.opt (fun o s => { s with inputs := o }) (.tail _ (.tail _ (.tail _ (.tail _ (.tail _ (.tail _ (.tail _ (.tail _ (.head _))))))))) hn (fun _ => rfl) rfl
          (fun y1421 hy1421 => reads_list (fun y1422 hy1422 => Input.xml_reads ((h.inputs y1421 hy1421) y1422 hy1422)) (fun _ _ => Input.xml_wf)))
        (Goes.append (Goes.opt (fun o s => { s with outputs := o }) (.tail _ (.tail _ (.tail _ (.tail _ (.tail _ (.tail _ (.tail _ (.tail _ (.tail _ (.head _)))))))))) hn (fun _ => rfl) rfl
          (fun y1423 hy1423 => reads_list (fun y1424 hy1424 => Output.xml_reads ((h.outputs y1423 hy1423) y1424 hy1424)) (fun _ _ => Output.xml_wf)))
        (Goes.opt (fun o s => { s with properties := o }) (.tail _ (.tail _ (.tail _ (.tail _ (.tail _ (.tail _ (.tail _ (.tail _ (.tail _ (.tail _ (.head _))))))))))) hn (fun _ => rfl) rfl
          (fun y1425 hy1425 => reads_listLax (fun y1426 hy1426 => Property.xml_reads ((h.properties y1425 hy1425) y1426 hy1426)) (fun _ _ => Property.xml_wf)))
        (writeOpt_wf fun _ _ => (writeList_wf fun _ _ => Output.xml_wf)))
        (writeOpt_wf fun _ _ => (writeList_wf fun _ _ => Input.xml_wf)))
        (writeOpt_wf fun _ _ => writeSimple_wf))
        (writeOpt_wf fun _ _ => (writeList_wf fun _ _ => Condition.xml_wf)))
        (writeOpt_wf fun _ _ => TriggerEvent.xml_wf))
        (writeSimple_wf))
        (writeOpt_wf fun _ _ => (writeList_wf fun _ _ => ResourceReference.xml_wf)))
        (writeOpt_wf fun _ _ => writeSimple_wf))
        (writeOpt_wf fun _ _ => writeSimple_wf))
        (writeSimple_wf)) ?_
  · refine bindOk (reqAttr_mk ha (.head _)) ?_
    exact congrArg Except.ok rfl
  · rfl

theorem Volume.json_ne_null {x : Volume} :
    Volume.toJson x ≠ .null := Json.mk_ne_null _

theorem Volume.json_rt {x : Volume} (h : Volume.JsonOk x) :
    Volume.ofJson (Volume.toJson x) = .ok x := by
  have hn : ["uid", "name", "mode", "path", "size_allocated", "persistent", "remote", "properties"].Nodup := by decide
  refine bindOk (Json.fields_mk _) ?_
  refine bindOk (Json.opt_id hn (.head _) (fun y1427 hy1427 => Json.str_ne_null)
      (fun y1427 hy1427 => rfl)) ?_
  refine bindOk (Json.opt_id hn (.tail _ (.head _)) (fun y1428 hy1428 => Json.str_ne_null)
      (fun y1428 hy1428 => rfl)) ?_
  refine bindOk (Json.getD_mk hn (.tail _ (.tail _ (.head _))) (Json.str_ne_null) (Json.enum_rt h.mode)) ?_
  refine bindOk (Json.opt_id hn (.tail _ (.tail _ (.tail _ (.head _)))) (fun y1429 hy1429 => Json.str_ne_null)
      (fun y1429 hy1429 => rfl)) ?_
  refine bindOk (Json.opt_id hn (.tail _ (.tail _ (.tail _ (.tail _ (.head _))))) (fun y1430 hy1430 => Json.str_ne_null)
      (fun y1430 hy1430 => rfl)) ?_
  refine bindOk (Json.opt_id hn (.tail _ (.tail _ (.tail _ (.tail _ (.tail _ (.head _)))))) (fun y1431 hy1431 => Json.bool_ne_null)
      (fun y1431 hy1431 => rfl)) ?_
  refine bindOk (Json.opt_id hn (.tail _ (.tail _ (.tail _ (.tail _ (.tail _ (.tail _ (.head _))))))) (fun y1432 hy1432 => Json.bool_ne_null)
      (fun y1432 hy1432 => rfl)) ?_
  refine bindOk (Json.opt_id hn (.tail _ (.tail _ (.tail _ (.tail _ (.tail _ (.tail _ (.tail _ (.head _)))))))) (fun y1433 hy1433 => Json.ofList_ne_null)
      (fun y1433 hy1433 => Json.array_id (fun y1434 hy1434 => Property.json_rt))) ?_
  rfl

theorem Volume.xml_body_wf {loose : Bool} {x : Volume} : WellFormed loose (
    (writeOpt (writeSimple "uid") x.uid) ++
    ((writeOpt (writeSimple "name") x.name) ++
    (((fun e => writeSimple "mode" (VolumeMode.display e)) x.mode) ++
    ((writeOpt (writeSimple "path") x.path) ++
    ((writeOpt (writeSimple "sizeAllocated") x.sizeAllocated) ++
    ((writeOpt (fun b => writeSimple "persistent" (boolStr b)) x.persistent) ++
    ((writeOpt (fun b => writeSimple "remote" (boolStr b)) x.remote) ++
    ((writeOpt (writeList "properties" Property.writeXml) x.properties))))))))) :=
  (.append (writeOpt_wf fun _ _ => writeSimple_wf)
    (.append (writeOpt_wf fun _ _ => writeSimple_wf)
    (.append (writeSimple_wf)
    (.append (writeOpt_wf fun _ _ => writeSimple_wf)
    (.append (writeOpt_wf fun _ _ => writeSimple_wf)
    (.append (writeOpt_wf fun _ _ => writeSimple_wf)
    (.append (writeOpt_wf fun _ _ => writeSimple_wf)
    (writeOpt_wf fun _ _ => (writeList_wf fun _ _ => Property.xml_wf)))))))))

theorem Volume.xml_one {loose : Bool} {x : Volume} :
    OneElement loose "volume" (Volume.writeXml x) :=
  writeElem_one goodNil (Volume.xml_body_wf)

theorem Volume.xml_wf {loose : Bool} {x : Volume} :
    WellFormed loose (Volume.writeXml x) :=
  (Volume.xml_one).wf

theorem Volume.arms_local :
    ∀ p ∈ Volume.arms, LocalArm p.1 p.2 :=
  (armsCons (arm_local readSimple_local _)
    (armsCons (arm_local readSimple_local _)
    (armsCons (arm_local (map_local readSimple_local VolumeMode.new) _)
    (armsCons (arm_local readSimple_local _)
    (armsCons (arm_local readSimple_local _)
    (armsCons (arm_local readBool_local _)
    (armsCons (arm_local readBool_local _)
    (armsCons (arm_local (readListLax_local Property.xml_local) _)
    armsNil))))))))

theorem Volume.xml_local {tag : String} :
    LocalAt tag Volume.readXml :=
  readStruct_local (by simp) (Volume.arms_local)

theorem Volume.xml_reads {ns : Option String} {x : Volume} (h : Volume.XmlOk x) :
    Reads ns (Volume.writeXml x) "volume" Volume.readXml x := by
  have hn : ["uid", "name", "mode", "path", "sizeAllocated", "persistent", "remote", "properties"].Nodup := by decide
  refine reads_struct (Volume.xml_body_wf) rfl
      (Goes.append (Goes.opt (fun o s => { s with uid := o }) (.head _) hn (fun _ => rfl) rfl
          (fun y1441 hy1441 => reads_simple (h.uid y1441 hy1441)))
        (Goes.append (Goes.opt (fun o s => { s with name := o }) (.tail _ (.head _)) hn (fun _ => rfl) rfl
          (fun y1442 hy1442 => reads_simple (h.name y1442 hy1442)))
        (Goes.append (Goes.one (reads_enum h.mode) (.tail _ (.tail _ (.head _))) hn)
        (Goes.append (Goes.opt (fun o s => { s with path := o }) (.tail _ (.tail _ (.tail _ (.head _)))) hn (fun _ => rfl) rfl
          (fun y1443 hy1443 => reads_simple (h.path y1443 hy1443)))
        (Goes.append (Goes.opt (fun o s => { s with sizeAllocated := o }) (.tail _ (.tail _ (.tail _ (.tail _ (.head _))))) hn (fun _ => rfl) rfl
          (fun y1444 hy1444 => reads_simple (h.sizeAllocated y1444 hy1444)))
        (Goes.append (Goes.opt (fun o s => { s with persistent := o }) (.tail _ (.tail _ (.tail _ (.tail _ (.tail _ (.head _)))))) hn (fun _ => rfl) rfl
          (fun y1445 hy1445 => reads_bool))
        (Goes.append (Goes.opt (fun o s => { s with remote := o }) (.tail _ (.tail _ (.tail _ (.tail _ (.tail _ (.tail _ (.head _))))))) hn (fun _ => rfl) rfl
          (fun y1446 hy1446 => reads_bool))
        (Goes.opt (fun o s => { s with properties := o }) (.tail _ (.tail _ (.tail _ (.tail _ (.tail _ (.tail _ (.tail _ (.head _)))))))) hn (fun _ => rfl) rfl
          (fun y1447 hy1447 => reads_listLax (fun y1448 hy1448 => Property.xml_reads ((h.properties y1447 hy1447) y1448 hy1448)) (fun _ _ => Property.xml_wf)))
        (writeOpt_wf fun _ _ => writeSimple_wf))
        (writeOpt_wf fun _ _ => writeSimple_wf))
        (writeOpt_wf fun _ _ => writeSimple_wf))
        (writeOpt_wf fun _ _ => writeSimple_wf))
        (writeSimple_wf))
        (writeOpt_wf fun _ _ => writeSimple_wf))
        (writeOpt_wf fun _ _ => writeSimple_wf)) ?_
  rfl

theorem Workspace.json_ne_null {x : Workspace} :
    Workspace.toJson x ≠ .null := Json.mk_ne_null _

theorem Workspace.json_rt {x : Workspace} (h : Workspace.JsonOk x) :
    Workspace.ofJson (Workspace.toJson x) = .ok x := by
  have hn : ["bom-ref", "uid", "name", "aliases", "description", "resourceReferences", "accessMode", "mountPath", "managedDataType", "volumeRequest", "volume", "properties"].Nodup := by decide
  refine bindOk (Json.fields_mk _) ?_
  refine bindOk (Json.req_mk hn (.head _) (rfl)) ?_
  refine bindOk (Json.req_mk hn (.tail _ (.head _)) (rfl)) ?_
  refine bindOk (Json.opt_id hn (.tail _ (.tail _ (.head _))) (fun y1453 hy1453 => Json.str_ne_null)
      (fun y1453 hy1453 => rfl)) ?_
  refine bindOk (Json.opt_id hn (.tail _ (.tail _ (.tail _ (.head _)))) (fun y1454 hy1454 => Json.ofList_ne_null)
      (fun y1454 hy1454 => Json.array_id (fun y1455 hy1455 => rfl))) ?_
  refine bindOk (Json.opt_id hn (.tail _ (.tail _ (.tail _ (.tail _ (.head _))))) (fun y1456 hy1456 => Json.str_ne_null)
      (fun y1456 hy1456 => rfl)) ?_
  refine bindOk (Json.opt_id hn (.tail _ (.tail _ (.tail _ (.tail _ (.tail _ (.head _)))))) (fun y1457 hy1457 => Json.ofList_ne_null)
      (fun y1457 hy1457 => Json.array_id (fun y1458 hy1458 => ResourceReference.json_rt ((h.resourceReferences y1457 hy1457) y1458 hy1458)))) ?_
  refine bindOk (Json.opt_id hn (.tail _ (.tail _ (.tail _ (.tail _ (.tail _ (.tail _ (.head _))))))) (fun y1459 hy1459 => Json.str_ne_null)
      (fun y1459 hy1459 => Json.enum_rt (h.accessMode y1459 hy1459))) ?_
  refine bindOk (Json.opt_id hn (.tail _ (.tail _ (.tail _ (.tail _ (.tail _ (.tail _ (.tail _ (.head _)))))))) (fun y1460 hy1460 => Json.str_ne_null)
      (fun y1460 hy1460 => rfl)) ?_
  refine bindOk (Json.opt_id hn (.tail _ (.tail _ (.tail _ (.tail _ (.tail _ (.tail _ (.tail _ (.tail _ (.head _))))))))) (fun y1461 hy1461 => Json.str_ne_null)
      (fun y1461 hy1461 => rfl)) ?_
  refine bindOk (Json.opt_id hn (.tail _ (.tail _ (.tail _ (.tail _ (.tail _ (.tail _ (.tail _ (.tail _ (.tail _ (.head _)))))))))) (fun y1462 hy1462 => Json.str_ne_null)
      (fun y1462 hy1462 => rfl)) ?_
  refine bindOk (Json.opt_id hn (.tail _ (.tail _ (.tail _ (.tail _ (.tail _ (.tail _ (.tail _ (.tail _ (.tail _ (.tail _ (.head _))))))))))) (fun y1463 hy1463 => Volume.json_ne_null)
      (fun y1463 hy1463 => Volume.json_rt (h.volume y1463 hy1463))) ?_
  refine bindOk (Json.opt_id hn (.tail _ (.tail _ (.tail _ (.tail _ (.tail _ (.tail _ (.tail _ (.tail _ (.tail _ (.tail _ (.tail _ (.head _)))))))))))) (fun y1464 hy1464 => Json.ofList_ne_null)
      (fun y1464 hy1464 => Json.array_id (fun y1465 hy1465 => Property.json_rt))) ?_
  rfl

theorem Workspace.xml_body_wf {loose : Bool} {x : Workspace} : WellFormed loose (
    ((writeSimple "uid") x.uid) ++
    ((writeOpt (writeSimple "name") x.name) ++
    ((writeOpt (writeList "aliases" (writeSimple "alias")) x.aliases) ++
    ((writeOpt (writeSimple "description") x.description) ++
    ((writeOpt (writeList "resourceReferences" (ResourceReference.writeXml "resourceReference")) x.resourceReferences) ++
    ((writeOpt (fun e => writeSimple "accessMode" (AccessMode.display e)) x.accessMode) ++
    ((writeOpt (writeSimple "mountPath") x.mountPath) ++
    ((writeOpt (writeSimple "managedDataType") x.managedDataType) ++
    ((writeOpt (writeSimple "volumeRequest") x.volumeRequest) ++
    ((writeOpt Volume.writeXml x.volume) ++
    ((writeOpt (writeList "properties" Property.writeXml) x.properties)))))))))))) :=
  (.append (writeSimple_wf)
    (.append (writeOpt_wf fun _ _ => writeSimple_wf)
    (.append (writeOpt_wf fun _ _ => (writeList_wf fun _ _ => writeSimple_wf))
    (.append (writeOpt_wf fun _ _ => writeSimple_wf)
    (.append (writeOpt_wf fun _ _ => (writeList_wf fun _ _ => ResourceReference.xml_wf))
    (.append (writeOpt_wf fun _ _ => writeSimple_wf)
    (.append (writeOpt_wf fun _ _ => writeSimple_wf)
    (.append (writeOpt_wf fun _ _ => writeSimple_wf)
    (.append (writeOpt_wf fun _ _ => writeSimple_wf)
    (.append (writeOpt_wf fun _ _ => Volume.xml_wf)
    (writeOpt_wf fun _ _ => (writeList_wf fun _ _ => Property.xml_wf))))))))))))

theorem Workspace.xml_one {loose : Bool} {x : Workspace} :
    OneElement loose "workspace" (Workspace.writeXml x) :=
  writeElem_one (goodAttrs (by decide : ["bom-ref"].Nodup)) (Workspace.xml_body_wf)

theorem Workspace.xml_wf {loose : Bool} {x : Workspace} :
    WellFormed loose (Workspace.writeXml x) :=
  (Workspace.xml_one).wf

theorem Workspace.arms_local :
    ∀ p ∈ Workspace.arms, LocalArm p.1 p.2 :=
  (armsCons (arm_local readSimple_local _)
    (armsCons (arm_local readSimple_local _)
    (armsCons (arm_local (readList_local readSimple_local) _)
    (armsCons (arm_local readSimple_local _)
    (armsCons (arm_local (readListLax_local ResourceReference.xml_local) _)
    (armsCons (arm_local (map_local readSimple_local AccessMode.new) _)
    (armsCons (arm_local readSimple_local _)
    (armsCons (arm_local readSimple_local _)
    (armsCons (arm_local readSimple_local _)
    (armsCons (arm_local Volume.xml_local _)
    (armsCons (arm_local (readListLax_local Property.xml_local) _)
    armsNil)))))))))))

theorem Workspace.xml_local {tag : String} :
    LocalAt tag Workspace.readXml :=
  readStruct_local (by simp) (Workspace.arms_local)

theorem Workspace.xml_reads {ns : Option String} {x : Workspace} (h : Workspace.XmlOk x) :
    Reads ns (Workspace.writeXml x) "workspace" Workspace.readXml x := by
  have hn : ["uid", "name", "aliases", "description", "resourceReferences", "accessMode", "mountPath", "managedDataType", "volumeRequest", "volume", "properties"].Nodup := by decide
  have ha : ["bom-ref"].Nodup := by decide
  refine reads_struct (p := (x.bomRef)) (Workspace.xml_body_wf) ?_
      (Goes.append (Goes.one (reads_simple h.uid) (.head _) hn)
        (Goes.append (Goes.opt (fun o s => { s with name := o }) (.tail _ (.head _)) hn (fun _ => rfl) rfl
          (fun y1479 hy1479 => reads_simple (h.name y1479 hy1479)))
        (Goes.append (Goes.opt (fun o s => { s with aliases := o }) (.tail _ (.tail _ (.head _))) hn (fun _ => rfl) rfl
          (fun y1480 hy1480 => reads_list (fun y1481 hy1481 => reads_simple ((h.aliases y1480 hy1480) y1481 hy1481)) (fun _ _ => writeSimple_wf)))
        (Goes.append (Goes.opt (fun o s => { s with description := o }) (.tail _ (.tail _ (.tail _ (.head _)))) hn (fun _ => rfl) rfl
          (fun y1482 hy1482 => reads_simple (h.description y1482 hy1482)))
        (Goes.append (Goes.opt (fun o s => { s with resourceReferences := o }) (.tail _ (.tail _ (.tail _ (.tail _ (.head _))))) hn (fun _ => rfl) rfl
          (fun y1483 hy1483 => reads_listLax (fun y1484 hy1484 => ResourceReference.xml_reads ((h.resourceReferences y1483 hy1483) y1484 hy1484)) (fun _ _ => ResourceReference.xml_wf)))
        (Goes.append (Goes.opt (fun o s => { s with accessMode := o }) (.tail _ (.tail _ (.tail _ (.tail _ (.tail _ (.head _)))))) hn (fun _ => rfl) rfl
          (fun y1485 hy1485 => reads_enum (h.accessMode y1485 hy1485)))
        (Goes.append (Goes.opt (fun o s => { s with mountPath := o }) (.tail _ (.tail _ (.tail _ (.tail _ (.tail _ (.tail _ (.head _))))))) hn (fun _ => rfl) rfl
          (fun y1486 hy1486 => reads_simple (h.mountPath y1486 hy1486)))
        (Goes.append (Goes.opt (fun o s => { s with managedDataType := o }) (.tail _ (.tail _ (.tail _ (.tail _ (.tail _ (.tail _ (.tail _ (.head _)))))))) hn (fun _ => rfl) rfl
          (fun y1487 hy1487 => reads_simple (h.managedDataType y1487 hy1487)))
        (Goes.append (Goes.opt (fun o s => { s with volumeRequest := o }) (.tail _ (.tail _ (.tail _ (.tail _ (.tail _ (.tail _ (.tail _ (.tail _ (.head _))))))))) hn (fun _ => rfl) rfl
          (fun y1488 hy1488 => reads_simple (h.volumeRequest y1488 hy1488)))
        (Goes.append (Goes.opt (fun o s => { s with volume := o }) (.tail _ (.tail _ (.tail _ (.tail _ (.tail _ (.tail _ (.tail _ (.tail _ (.tail _ (.head _)))))))))) hn (fun _ => rfl) rfl
          (fun y1489 hy1489 => Volume.xml_reads (h.volume y1489 hy1489)))
        (Goes.opt (fun o s => { s with properties := o }) (.tail _ (.tail _ (.tail _ (.tail _ (.tail _ (.tail _ (.tail _ (.tail _ (.tail _ (.tail _ (.head _))))))))))) hn (fun _ => rfl) rfl
          (fun y1490 hy1490 => reads_listLax (fun y1491 hy1491 => Property.xml_reads ((h.properties y1490 hy1490) y1491 hy1491)) (fun _ _ => Property.xml_wf)))
        (writeOpt_wf fun _ _ => Volume.xml_wf))
        (writeOpt_wf fun _ _ => writeSimple_wf))
        (writeOpt_wf fun _ _ => writeSimple_wf))
        (writeOpt_wf fun _ _ => writeSimple_wf))
        (writeOpt_wf fun _ _ => writeSimple_wf))
        (writeOpt_wf fun _ _ => (writeList_wf fun _ _ => ResourceReference.xml_wf)))
        (writeOpt_wf fun _ _ => writeSimple_wf))
        (writeOpt_wf fun _ _ => (writeList_wf fun _ _ => writeSimple_wf)))
        (writeOpt_wf fun _ _ => writeSimple_wf))
        (writeSimple_wf)) ?_
  · refine bindOk (reqAttr_mk ha (.head _)) ?_
    exact congrArg Except.ok rfl
  · rfl

theorem WorkflowTask.json_ne_null {x : WorkflowTask} :
    WorkflowTask.toJson x ≠ .null := Json.mk_ne_null _

theorem WorkflowTask.json_rt {x : WorkflowTask} (h : WorkflowTask.JsonOk x) :
    WorkflowTask.ofJson (WorkflowTask.toJson x) = .ok x := by
  have hn : ["bom-ref", "uid", "name", "description", "resourceReferences", "taskTypes", "trigger", "steps", "inputs", "outputs", "timeStart", "timeEnd", "workspaces", "runtimeTopology", "properties"].Nodup := by decide
  refine bindOk (Json.fields_mk _) ?_
  refine bindOk (Json.req_mk hn (.head _) (rfl)) ?_
  refine bindOk (Json.req_mk hn (.tail _ (.head _)) (rfl)) ?_
  refine bindOk (Json.opt_id hn (.tail _ (.tail _ (.head _))) (fun y1502 hy1502 => Json.str_ne_null)
      (fun y1502 hy1502 => rfl)) ?_
  refine bindOk (Json.opt_id hn (.tail _ (.tail _ (.tail _ (.head _)))) (fun y1503 hy1503 => Json.str_ne_null)
      (fun y1503 hy1503 => rfl)) ?_
  refine bindOk (Json.opt_id hn (.tail _ (.tail _ (.tail _ (.tail _ (.head _))))) (fun y1504 hy1504 => Json.ofList_ne_null)
      (fun y1504 hy1504 => Json.array_id (fun y1505 hy1505 => ResourceReference.json_rt ((h.resourceReferences y1504 hy1504) y1505 hy1505)))) ?_
  refine bindOk (Json.req_mk hn (.tail _ (.tail _ (.tail _ (.tail _ (.tail _ (.head _)))))) (Json.array_id (fun y1506 hy1506 => Json.enum_rt (h.taskTypes y1506 hy1506)))) ?_
  refine bindOk (Json.opt_id hn (.tail _ (.tail _ (.tail _ (.tail _ (.tail _ (.tail _ (.head _))))))) (fun y1507 hy1507 => Trigger.json_ne_null)
      (fun y1507 hy1507 => Trigger.json_rt (h.trigger y1507 hy1507))) ?_
  refine bindOk (Json.opt_id hn (.tail _ (.tail _ (.tail _ (.tail _ (.tail _ (.tail _ (.tail _ (.head _)))))))) (fun y1508 hy1508 => Json.ofList_ne_null)
      (fun y1508 hy1508 => Json.array_id (fun y1509 hy1509 => Step.json_rt))) ?_
  refine bindOk (Json.opt_id hn (.tail _ (.tail _ (.tail _ (.tail _ (.tail _ (.tail _ (.tail _ (.tail _ (.head _))))))))) (fun y1510 hy1510 => Json.ofList_ne_null)
      (fun y1510 hy1510 => Json.array_id (fun y1511 hy1511 => Input.json_rt ((h.inputs y1510 hy1510) y1511 hy1511)))) ?_
  refine bindOk (Json.opt_id hn (.tail _ (.tail _ (.tail _ (.tail _ (.tail _ (.tail _ (.tail _ (.tail _ (.tail _ (.head _)))))))))) (fun y1512 hy1512 => Json.ofList_ne_null)
      (fun y1512 hy1512 => Json.array_id (fun y1513 hy1513 => Output.json_rt ((h.outputs y1512 hy1512) y1513 hy1513)))) ?_
  refine bindOk (Json.opt_id hn (.tail _ (.tail _ (.tail _ (.tail _ (.tail _ (.tail _ (.tail _ (.tail _ (.tail _ (.tail _ (.head _))))))))))) (fun y1514 hy1514 => Json.str_ne_null)
      (fun y1514 hy1514 => rfl)) ?_
  refine bindOk (Json.opt_id hn (.tail _ (.tail _ (.tail _ (.tail _ (.tail _ (.tail _ (.tail _ (.tail _ (.tail _ (.tail _ (.tail _ (.head _)))))))))))) (fun y1515 hy1515 => Json.str_ne_null)
      (fun y1515 hy1515 => rfl)) ?_
  refine bindOk (Json.opt_id hn (.tail _ (.tail _ (.tail _ (.tail _ (.tail _ (.tail _ (.tail _ (.tail _ (.tail _ (.tail _ (.tail _ (.tail _ (.head _))))))))))))) (fun y1516 hy1516 => Json.ofList_ne_null)
      (fun y1516 hy1516 => Json.array_id (fun y1517 hy1517 => Workspace.json_rt ((h.workspaces y1516 hy1516) y1517 hy1517)))) ?_
  refine bindOk (Json.opt_id hn (.tail _ (.tail _ (.tail _ (.tail _ (.tail _ (.tail _ (.tail _ (.tail _ (.tail _ (.tail _ (.tail _ (.tail _ (.tail _ (.head _)))))))))))))) (fun y1518 hy1518 => Json.ofList_ne_null)
      (fun y1518 hy1518 => Json.array_id (fun y1519 hy1519 => Dependency.json_rt))) ?_
  refine bindOk (Json.opt_id hn (.tail _ (.tail _ (.tail _ (.tail _ (.tail _ (.tail _ (.tail _ (.tail _ (.tail _ (.tail _ (.tail _ (.tail _ (.tail _ (.tail _ (.head _))))))))))))))) (fun y1520 hy1520 => Json.ofList_ne_null)
      (fun y1520 hy1520 => Json.array_id (fun y1521 hy1521 => Property.json_rt))) ?_
  rfl

theorem WorkflowTask.xml_body_wf {x : WorkflowTask} : WellFormed true (
    ((writeSimple "uid") x.uid) ++
    ((writeOpt (writeSimple "name") x.name) ++
    ((writeOpt (writeSimple "description") x.description) ++
    ((writeOpt (writeList "resourceReferences" (ResourceReference.writeXml "resourceReference")) x.resourceReferences) ++
    ((writeOpt Trigger.writeXml x.trigger) ++
    ((writeOpt (writeList "steps" Step.writeXml) x.steps) ++
    ((writeOpt (writeList "inputs" Input.writeXml) x.inputs) ++
    ((writeOpt (writeList "outputs" Output.writeXml) x.outputs) ++
    ((writeOpt (writeSimple "timeStart") x.timeStart) ++
    ((writeOpt (writeSimple "timeEnd") x.timeEnd) ++
    ((writeOpt (writeList "workspaces" Workspace.writeXml) x.workspaces) ++
    ((writeOpt (writeList "runtimeTopology" Dependency.writeXml) x.runtimeTopology) ++
    ((writeOpt (writeList "properties" Property.writeXml) x.properties)))))))))))))) :=
  (.append (writeSimple_wf)
    (.append (writeOpt_wf fun _ _ => writeSimple_wf)
    (.append (writeOpt_wf fun _ _ => writeSimple_wf)
    (.append (writeOpt_wf fun _ _ => (writeList_wf fun _ _ => ResourceReference.xml_wf))
    (.append (writeOpt_wf fun _ _ => Trigger.xml_wf)
    (.append (writeOpt_wf fun _ _ => (writeList_wf fun _ _ => Step.xml_wf))
    (.append (writeOpt_wf fun _ _ => (writeList_wf fun _ _ => Input.xml_wf))
    (.append (writeOpt_wf fun _ _ => (writeList_wf fun _ _ => Output.xml_wf))
    (.append (writeOpt_wf fun _ _ => writeSimple_wf)
    (.append (writeOpt_wf fun _ _ => writeSimple_wf)
    (.append (writeOpt_wf fun _ _ => (writeList_wf fun _ _ => Workspace.xml_wf))
    (.append (writeOpt_wf fun _ _ => (writeList_wf fun _ _ => Dependency.xml_wf))
    (writeOpt_wf fun _ _ => (writeList_wf fun _ _ => Property.xml_wf))))))))))))))

theorem WorkflowTask.xml_one {x : WorkflowTask} :
    OneElement true "task" (WorkflowTask.writeXml x) :=
  writeElem_one (goodAttrs (by decide : ["bom-ref"].Nodup)) (WorkflowTask.xml_body_wf)

theorem WorkflowTask.xml_wf {x : WorkflowTask} :
    WellFormed true (WorkflowTask.writeXml x) :=
  (WorkflowTask.xml_one).wf

theorem WorkflowTask.arms_local :
    ∀ p ∈ WorkflowTask.arms, LocalArm p.1 p.2 :=
  (armsCons (arm_local readSimple_local _)
    (armsCons (arm_local readSimple_local _)
    (armsCons (arm_local readSimple_local _)
    (armsCons (arm_local (readListLax_local ResourceReference.xml_local) _)
    (armsCons (arm_local (readList_local (map_local readSimple_local TaskType.new)) _)
    (armsCons (arm_local Trigger.xml_local _)
    (armsCons (arm_local (readList_local Step.xml_local) _)
    (armsCons (arm_local (readList_local Input.xml_local) _)
    (armsCons (arm_local (readList_local Output.xml_local) _)
    (armsCons (arm_local readSimple_local _)
    (armsCons (arm_local readSimple_local _)
    (armsCons (arm_local (readList_local Workspace.xml_local) _)
    (armsCons (arm_local (readList_local Dependency.xml_local) _)
    (armsCons (arm_local (readListLax_local Property.xml_local) _)
    armsNil))))))))))))))

theorem WorkflowTask.xml_local {tag : String} :
    LocalAt tag WorkflowTask.readXml :=
  readStruct_local (by simp) (WorkflowTask.arms_local)

theorem WorkflowTask.xml_reads {ns : Option String} {x : WorkflowTask} (h : WorkflowTask.XmlOk x) :
    Reads ns (WorkflowTask.writeXml x) "task" WorkflowTask.readXml x := by
  exact h.taskTypes.elim

theorem Workflow.json_ne_null {x : Workflow} :
    Workflow.toJson x ≠ .null := Json.mk_ne_null _

theorem Workflow.json_rt {x : Workflow} (h : Workflow.JsonOk x) :
    Workflow.ofJson (Workflow.toJson x) = .ok x := by
  have hn : ["bom-ref", "uid", "name", "description", "resourceReferences", "tasks", "taskDependencies", "taskTypes", "trigger", "steps", "inputs", "outputs", "timeStart", "timeEnd", "workspaces", "runtimeTopology", "properties"].Nodup := by decide
  refine bindOk (Json.fields_mk _) ?_
  refine bindOk (Json.req_mk hn (.head _) (rfl)) ?_
  refine bindOk (Json.req_mk hn (.tail _ (.head _)) (rfl)) ?_
  refine bindOk (Json.opt_id hn (.tail _ (.tail _ (.head _))) (fun y1551 hy1551 => Json.str_ne_null)
      (fun y1551 hy1551 => rfl)) ?_
  refine bindOk (Json.opt_id hn (.tail _ (.tail _ (.tail _ (.head _)))) (fun y1552 hy1552 => Json.str_ne_null)
      (fun y1552 hy1552 => rfl)) ?_
  refine bindOk (Json.opt_id hn (.tail _ (.tail _ (.tail _ (.tail _ (.head _))))) (fun y1553 hy1553 => Json.ofList_ne_null)
      (fun y1553 hy1553 => Json.array_id (fun y1554 hy1554 => ResourceReference.json_rt ((h.resourceReferences y1553 hy1553) y1554 hy1554)))) ?_
  refine bindOk (Json.opt_id hn (.tail _ (.tail _ (.tail _ (.tail _ (.tail _ (.head _)))))) (fun y1555 hy1555 => Json.ofList_ne_null)
      (fun y1555 hy1555 => Json.array_id (fun y1556 hy1556 => WorkflowTask.json_rt ((h.tasks y1555 hy1555) y1556 hy1556)))) ?_
  refine bindOk (Json.opt_id hn (.tail _ (.tail _ (.tail _ (.tail _ (.tail _ (.tail _ (.head _))))))) (fun y1557 hy1557 => Json.ofList_ne_null)
      (fun y1557 hy1557 => Json.array_id (fun y1558 hy1558 => Dependency.json_rt))) ?_
  refine bindOk (Json.req_mk hn (.tail _ (.tail _ (.tail _ (.tail _ (.tail _ (.tail _ (.tail _ (.head _)))))))) (Json.array_id (fun y1559 hy1559 => Json.enum_rt (h.taskTypes y1559 hy1559)))) ?_
  refine bindOk (Json.opt_id hn (.tail _ (.tail _ (.tail _ (.tail _ (.tail _ (.tail _ (.tail _ (.tail _ (.head _))))))))) (fun y1560 hy1560 => Trigger.json_ne_null)
      (fun y1560 hy1560 => Trigger.json_rt (h.trigger y1560 hy1560))) ?_
  refine bindOk (Json.opt_id hn (.tail _ (.tail _ (.tail _ (.tail _ (.tail _ (.tail _ (.tail _ (.tail _ (.tail _ (.head _)))))))))) (fun y1561 hy1561 => Json.ofList_ne_null)
      (fun y1561 hy1561 => Json.array_id (fun y1562 hy1562 => Step.json_rt))) ?_
  refine bindOk (Json.opt_id hn (.tail _ (.tail _ (.tail _ (.tail _ (.tail _ (.tail _ (.tail _ (.tail _ (.tail _ (.tail _ (.head _))))))))))) (fun y1563 hy1563 => Json.ofList_ne_null)
      (fun y1563 hy1563 => Json.array_id (fun y1564 hy1564 => Input.json_rt ((h.inputs y1563 hy1563) y1564 hy1564)))) ?_
  refine bindOk (Json.opt_id hn (.tail _ (.tail _ (.tail _ (.tail _ (.tail _ (.tail _ (.tail _ (.tail _ (.tail _ (.tail _ (.tail _ (.head _)))))))))))) (fun y1565 hy1565 => Json.ofList_ne_null)
      (fun y1565 hy1565 => Json.array_id (fun y1566 hy1566 => Output.json_rt ((h.outputs y1565 hy1565) y1566 hy1566)))) ?_
  refine bindOk (Json.opt_id hn (.tail _ (.tail _ (.tail _ (.tail _ (.tail _ (.tail _ (.tail _ (.tail _ (.tail _ (.tail _ (.tail _ (.tail _ (.head _))))))))))))) (fun y1567 hy1567 => Json.str_ne_null)
      (fun y1567 hy1567 => rfl)) ?_
  refine bindOk (Json.opt_id hn (.tail _ (.tail _ (.tail _ (.tail _ (.tail _ (.tail _ (.tail _ (.tail _ (.tail _ (.tail _ (.tail _ (.tail _ (.tail _ (.head _)))))))))))))) (fun y1568 hy1568 => Json.str_ne_null)
      (fun y1568 hy1568 => rfl)) ?_
  refine bindOk (Json.opt_id hn (.tail _ (.tail _ (.tail _ (.tail _ (.tail _ (.tail _ (.tail _ (.tail _ (.tail _ (.tail _ (.tail _ (.tail _ (.tail _ (.tail _ (.head _))))))))))))))) (fun y1569 hy1569 => Json.ofList_ne_null)
      (fun y1569 hy1569 => Json.array_id (fun y1570 hy1570 => Workspace.json_rt ((h.workspaces y1569 hy1569) y1570 hy1570)))) ?_
  refine bindOk (Json.opt_id hn (.tail _ (.tail _ (.tail _ (.tail _ (.tail _ (.tail _ (.tail _ (.tail _ (.tail _ (.tail _ (.tail _ (.tail _ (.tail _ (.tail _ (.tail _ (.head _)))))))))))))))) (fun y1571 hy1571 => Json.ofList_ne_null)
      (fun y1571 hy1571 => Json.array_id (fun y1572 hy1572 => Dependency.json_rt))) ?_
  refine bindOk (Json.opt_id hn (.tail _ (.tail _ (.tail _ (.tail _ (.tail _ (.tail _ (.tail _ (.tail _ (.tail _ (.tail _ (.tail _ (.tail _ (.tail _ (.tail _ (.tail _ (.tail _ (.head _))))))))))))))))) (fun y1573 hy1573 => Json.ofList_ne_null)
      (fun y1573 hy1573 => Json.array_id (fun y1574 hy1574 => Property.json_rt))) ?_
  rfl

theorem Workflow.xml_body_wf {x : Workflow} : WellFormed true (
    ((writeSimple "uid") x.uid) ++
    ((writeOpt (writeSimple "name") x.name) ++
    ((writeOpt (writeSimple "description") x.description) ++
    ((writeOpt (writeList "resourceReferences" (ResourceReference.writeXml "resourceReference")) x.resourceReferences) ++
    ((writeOpt (writeList "tasks" WorkflowTask.writeXml) x.tasks) ++
    ((writeOpt (writeList "taskDependencies" Dependency.writeXml) x.taskDependencies) ++
    (((writeList "taskTypes" (fun e => writeSimple "taskType" (TaskType.display e))) x.taskTypes) ++
    ((writeOpt Trigger.writeXml x.trigger) ++
    ((writeOpt (writeList "steps" Step.writeXml) x.steps) ++
    ((writeOpt (writeList "inputs" Input.writeXml) x.inputs) ++
    ((writeOpt (writeList "outputs" Output.writeXml) x.outputs) ++
    ((writeOpt (writeSimple "timeStart") x.timeStart) ++
    ((writeOpt (writeSimple "timeEnd") x.timeEnd) ++
    ((writeOpt (writeList "workspaces" Workspace.writeXml) x.workspaces) ++
    ((writeOpt (writeList "runtimeTopology" Dependency.writeXml) x.runtimeTopology) ++
    ((writeOpt (writeList "properties" Property.writeXml) x.properties))))))))))))))))) :=
  (.append (writeSimple_wf)
    (.append (writeOpt_wf fun _ _ => writeSimple_wf)
    (.append (writeOpt_wf fun _ _ => writeSimple_wf)
    (.append (writeOpt_wf fun _ _ => (writeList_wf fun _ _ => ResourceReference.xml_wf))
    (.append (writeOpt_wf fun _ _ => (writeList_wf fun _ _ => WorkflowTask.xml_wf))
    (.append (writeOpt_wf fun _ _ => (writeList_wf fun _ _ => Dependency.xml_wf))
    (.append ((writeList_wf fun _ _ => writeSimple_wf))
    (.append (writeOpt_wf fun _ _ => Trigger.xml_wf)
    (.append (writeOpt_wf fun _ _ => (writeList_wf fun _ _ => Step.xml_wf))
    (.append (writeOpt_wf fun _ _ => (writeList_wf fun _ _ => Input.xml_wf))
    (.append (writeOpt_wf fun _ _ => (writeList_wf fun _ _ => Output.xml_wf))
    (.append (writeOpt_wf fun _ _ => writeSimple_wf)
    (.append (writeOpt_wf fun _ _ => writeSimple_wf)
    (.append (writeOpt_wf fun _ _ => (writeList_wf fun _ _ => Workspace.xml_wf))
    (.append (writeOpt_wf fun _ _ => (writeList_wf fun _ _ => Dependency.xml_wf))
    (writeOpt_wf fun _ _ => (writeList_wf fun _ _ => Property.xml_wf)))))))))))))))))

theorem Workflow.xml_one {x : Workflow} :
    OneElement true "workflow" (Workflow.writeXml x) :=
  writeElem_one (goodAttrs (by decide : ["bom-ref"].Nodup)) (Workflow.xml_body_wf)

theorem Workflow.xml_wf {x : Workflow} :
    WellFormed true (Workflow.writeXml x) :=
  (Workflow.xml_one).wf

theorem Workflow.arms_local :
    ∀ p ∈ Workflow.arms, LocalArm p.1 p.2 :=
  (armsCons (arm_local readSimple_local _)
    (armsCons (arm_local readSimple_local _)
    (armsCons (arm_local readSimple_local _)
    (armsCons (arm_local (readListLax_local ResourceReference.xml_local) _)
    (armsCons (arm_local (readList_local WorkflowTask.xml_local) _)
    (armsCons (arm_local (readList_local Dependency.xml_local) _)
    (armsCons (arm_local (readList_local (map_local readSimple_local TaskType.new)) _)
    (armsCons (arm_local Trigger.xml_local _)
    (armsCons (arm_local (readList_local Step.xml_local) _)
    (armsCons (arm_local (readList_local Input.xml_local) _)
    (armsCons (arm_local (readList_local Output.xml_local) _)
    (armsCons (arm_local readSimple_local _)
    (armsCons (arm_local readSimple_local _)
    (armsCons (arm_local (readList_local Workspace.xml_local) _)
    (armsCons (arm_local (readList_local Dependency.xml_local) _)
    (armsCons (arm_local (readListLax_local Property.xml_local) _)
    armsNil))))))))))))))))

theorem Workflow.xml_local {tag : String} :
    LocalAt tag Workflow.readXml :=
  readStruct_local (by simp) (Workflow.arms_local)

theorem Workflow.xml_reads {ns : Option String} {x : Workflow} (h : Workflow.XmlOk x) :
    Reads ns (Workflow.writeXml x) "workflow" Workflow.readXml x := by
  have hn : ["uid", "name", "description", "resourceReferences", "tasks", "taskDependencies", "taskTypes", "trigger", "steps", "inputs", "outputs", "timeStart", "timeEnd", "workspaces", "runtimeTopology", "properties"].Nodup := by decide
  have ha : ["bom-ref"].Nodup := by decide
  refine reads_struct (p := (x.bomRef)) (Workflow.xml_body_wf) ?_
      (Goes.append (s2 := ({ uid := some x.uid } : Workflow.Vars)) (Goes.to (Goes.one (reads_simple h.uid) (.head _) hn) rfl)
        (Goes.append (s2 := ({ uid := some x.uid, name := x.name } : Workflow.Vars)) (Goes.to (Goes.opt (fun o s => { s with name := o }) (.tail _ (.head _)) hn (fun _ => rfl) rfl
          (fun y1595 hy1595 => reads_simple (h.name y1595 hy1595))) rfl)
        (Goes.append (s2 := ({ uid := some x.uid, name := x.name, description := x.description } : Workflow.Vars)) (Goes.to (Goes.opt (fun o s => { s with description := o }) (.tail _ (.tail _ (.head _))) hn (fun _ => rfl) rfl
          (fun y1596 hy1596 => reads_simple (h.description y1596 hy1596))) rfl)
        (Goes.append (s2 := ({ uid := some x.uid, name := x.name, description := x.description, resourceReferences := x.resourceReferences } : Workflow.Vars)) (Goes.to (Goes.opt (fun o s => { s with resourceReferences := o }) (.tail _ (.tail _ (.tail _ (.head _)))) hn (fun _ => rfl) rfl
          (fun y1597 hy1597 => reads_listLax (fun y1598 hy1598 => ResourceReference.xml_reads ((h.resourceReferences y1597 hy1597) y1598 hy1598)) (fun _ _ => ResourceReference.xml_wf))) rfl)
        (Goes.append (s2 := ({ uid := some x.uid, name := x.name, description := x.description, resourceReferences := x.resourceReferences, tasks := x.tasks } : Workflow.Vars)) (Goes.to (Goes.opt (fun o s => { s with tasks := o }) (.tail _ (.tail _ (.tail _ (.tail _ (.head _))))) hn (fun _ => rfl) rfl
          (fun y1599 hy1599 => reads_list (fun y1600 hy1600 => WorkflowTask.xml_reads ((h.tasks y1599 hy1599) y1600 hy1600)) (fun _ _ => WorkflowTask.xml_wf))) rfl)
        (Goes.append (s2 := ({ uid := some x.uid, name := x.name, description := x.description, resourceReferences := x.resourceReferences, tasks := x.tasks, taskDependencies := x.taskDependencies } : Workflow.Vars)) (Goes.to (Goes.opt (fun o s => { s with taskDependencies := o }) (.tail _ (.tail _ (.tail _ (.tail _ (.tail _ (.head _)))))) hn (fun _ => rfl) rfl
          (fun y1601 hy1601 => reads_list (fun y1602 hy1602 => Dependency.xml_reads) (fun _ _ => Dependency.xml_wf))) rfl)
        (Goes.append (s2 := ({ uid := some x.uid, name := x.name, description := x.description, resourceReferences := x.resourceReferences, tasks := x.tasks, taskDependencies := x.taskDependencies, taskTypes := some x.taskTypes } : Workflow.Vars)) (Goes.to (Goes.one (reads_list (fun y1603 hy1603 => reads_enum (h.taskTypes y1603 hy1603)) (fun _ _ => writeSimple_wf)) (.tail _ (.tail _ (.tail _ (.tail _ (.tail _ (.tail _ (.head _))))))) hn) rfl)
        (Goes.append (s2 := ({ uid := some x.uid, name := x.name, description := x.description, resourceReferences := x.resourceReferences, tasks := x.tasks, taskDependencies := x.taskDependencies, taskTypes := some x.taskTypes, trigger := x.trigger } : Workflow.Vars)) (Goes.to (Goes.opt (fun o s => { s with trigger := o }) (.tail _ (.tail _ (.tail _ (.tail _ (.tail _ (.tail _ (.tail _ (.head _)))))))) hn (fun _ => rfl) rfl
          (fun y1604 hy1604 => Trigger.xml_reads (h.trigger y1604 hy1604))) rfl)
        (Goes.append (s2 := ({ uid := some x.uid, name := x.name, description := x.description, resourceReferences := x.resourceReferences, tasks := x.tasks, taskDependencies := x.taskDependencies, taskTypes := some x.taskTypes, trigger := x.trigger, steps := x.steps } : Workflow.Vars)) (Goes.to (Goes.opt (fun o s => { s with steps := o }) (.tail _ (.tail _ (.tail _ (.tail _ (.tail _ (.tail _ (.tail _ (.tail _ (.head _))))))))) hn (fun _ => rfl) rfl
          (fun y1605 hy1605 => reads_list (fun y1606 hy1606 => Step.xml_reads ((h.steps y1605 hy1605) y1606 hy1606)) (fun _ _ => Step.xml_wf))) rfl)
        (Goes.append (s2 := ({ uid := some x.uid, name := x.name, description := x.description, resourceReferences := x.resourceReferences, tasks := x.tasks, taskDependencies := x.taskDependencies, taskTypes := some x.taskTypes, trigger := x.trigger, steps := x.steps, inputs := x.inputs } : Workflow.Vars)) (Goes.to (Goes.opt (fun o s => { s with inputs := o }) (.tail _ (.tail _ (.tail _ (.tail _ (.tail _ (.tail _ (.tail _ (.tail _ (.tail _ (.head _)))))))))) hn (fun _ => rfl) rfl
          (fun y1607 hy1607 => reads_list (fun y1608 hy1608 => Input.xml_reads ((h.inputs y1607 hy1607) y1608 hy1608)) (fun _ _ => Input.xml_wf))) rfl)
        (Goes.append (s2 := ({ uid := some x.uid, name := x.name, description := x.description, resourceReferences := x.resourceReferences, tasks := x.tasks, taskDependencies := x.taskDependencies, taskTypes := some x.taskTypes, trigger := x.trigger, steps := x.steps, inputs := x.inputs, outputs := x.outputs } : Workflow.Vars)) (Goes.to (Goes.opt (fun o s => { s with outputs := o }) (.tail _ (.tail _ (.tail _ (.tail _ (.tail _ (.tail _ (.tail _ (.tail _ (.tail _ (.tail _ (.head _))))))))))) hn (fun _ => rfl) rfl
          (fun y1609 hy1609 => reads_list (fun y1610 hy1610 => Output.xml_reads ((h.outputs y1609 hy1609) y1610 hy1610)) (fun _ _ => Output.xml_wf))) rfl)
        (Goes.append (s2 := ({ uid := some x.uid, name := x.name, description := x.description, resourceReferences := x.resourceReferences, tasks := x.tasks, taskDependencies := x.taskDependencies, taskTypes := some x.taskTypes, trigger := x.trigger, steps := x.steps, inputs := x.inputs, outputs := x.outputs, timeStart := x.timeStart } : Workflow.Vars)) (Goes.to (Goes.opt (fun o s => { s with timeStart := o }) (.tail _ (.tail _ (.tail _ (.tail _ (.tail _ (.tail _ (.tail _ (.tail _ (.tail _ (.tail _ (.tail _ (.head _)))))))))))) hn (fun _ => rfl) rfl
          (fun y1611 hy1611 => reads_simple (h.timeStart y1611 hy1611))) rfl)
        (Goes.append (s2 := ({ uid := some x.uid, name := x.name, description := x.description, resourceReferences := x.resourceReferences, tasks := x.tasks, taskDependencies := x.taskDependencies, taskTypes := some x.taskTypes, trigger := x.trigger, steps := x.steps, inputs := x.inputs, outputs := x.outputs, timeStart := x.timeStart, timeEnd := x.timeEnd } : Workflow.Vars)) (Goes.to (Goes.opt (fun o s => { s with timeEnd := o }) (.tail _ (.tail _ (.tail _ (.tail _ (.tail _ (.tail _ (.tail _ (.tail _ (.tail _ (.tail _ (.tail _ (.tail _ (.head _))))))))))))) hn (fun _ => rfl) rfl
          (fun y1612 hy1612 => reads_simple (h.timeEnd y1612 hy1612))) rfl)
        (Goes.append (s2 := ({ uid := some x.uid, name := x.name, description := x.description, resourceReferences := x.resourceReferences, tasks := x.tasks, taskDependencies := x.taskDependencies, taskTypes := some x.taskTypes, trigger := x.trigger, steps := x.steps, inputs := x.inputs, outputs := x.outputs, timeStart := x.timeStart, timeEnd := x.timeEnd, workspaces := x.workspaces } : Workflow.Vars)) (Goes.to (Goes.opt (fun o s => { s with workspaces := o }) (.tail _ (.tail _ (.tail _ (.tail _ (.tail _ (.tail _ (.tail _ (.tail _ (.tail _ (.tail _ (.tail _ (.tail _ (.tail _ (.head _)))))))))))))) hn (fun _ => rfl) rfl
          (fun y1613 hy1613 => reads_list (fun y1614 hy1614 => Workspace.xml_reads ((h.workspaces y1613 hy1613) y1614 hy1614)) (fun _ _ => Workspace.xml_wf))) rfl)
        (Goes.append (s2 := ({ uid := some x.uid, name := x.name, description := x.description, resourceReferences := x.resourceReferences, tasks := x.tasks, taskDependencies := x.taskDependencies, taskTypes := some x.taskTypes, trigger := x.trigger, steps := x.steps, inputs := x.inputs, outputs := x.outputs, timeStart := x.timeStart, timeEnd := x.timeEnd, workspaces := x.workspaces, runtimeTopology := x.runtimeTopology } : Workflow.Vars)) (Goes.to (Goes.opt (fun o s => { s with runtimeTopology := o }) (.tail _ (.tail _ (.tail _ (.tail _ (.tail _ (.tail _ (.tail _ (.tail _ (.tail _ (.tail _ (.tail _ (.tail _ (.tail _ (.tail _ (.head _))))))))))))))) hn (fun _ => rfl) rfl
          (fun y1615 hy1615 => reads_list (fun y1616 hy1616 => Dependency.xml_reads) (fun _ _ => Dependency.xml_wf))) rfl)
        (Goes.opt (fun o s => { s with properties := o }) (.tail _ (.tail _ (.tail _ (.tail _ (.tail _ (.tail _ (.tail _ (.tail _ (.tail _ (.tail _ (.tail _ (.tail _ (.tail _ (.tail _ (.tail _ (.head _)))))))))))))))) hn (fun _ => rfl) rfl
          (fun y1617 hy1617 => reads_listLax (fun y1618 hy1618 => Property.xml_reads ((h.properties y1617 hy1617) y1618 hy1618)) (fun _ _ => Property.xml_wf)))
        (writeOpt_wf fun _ _ => (writeList_wf fun _ _ => Dependency.xml_wf)))
        (writeOpt_wf fun _ _ => (writeList_wf fun _ _ => Workspace.xml_wf)))
        (writeOpt_wf fun _ _ => writeSimple_wf))
        (writeOpt_wf fun _ _ => writeSimple_wf))
        (writeOpt_wf fun _ _ => (writeList_wf fun _ _ => Output.xml_wf)))
        (writeOpt_wf fun _ _ => (writeList_wf fun _ _ => Input.xml_wf)))
        (writeOpt_wf fun _ _ => (writeList_wf fun _ _ => Step.xml_wf)))
        (writeOpt_wf fun _ _ => Trigger.xml_wf))
        ((writeList_wf fun _ _ => writeSimple_wf)))
        (writeOpt_wf fun _ _ => (writeList_wf fun _ _ => Dependency.xml_wf)))
        (writeOpt_wf fun _ _ => (writeList_wf fun _ _ => WorkflowTask.xml_wf)))
        (writeOpt_wf fun _ _ => (writeList_wf fun _ _ => ResourceReference.xml_wf)))
        (writeOpt_wf fun _ _ => writeSimple_wf))
        (writeOpt_wf fun _ _ => writeSimple_wf))
        (writeSimple_wf)) ?_
  · refine bindOk (reqAttr_mk ha (.head _)) ?_
    exact congrArg Except.ok rfl
  · rfl

theorem Formula.json_ne_null {v : SpecVersion} {x : Formula} :
    Formula.toJson v x ≠ .null := Json.mk_ne_null _

theorem Formula.json_rt (v : SpecVersion) {x : Formula} (h : Formula.JsonOk v x) :
    Formula.ofJson v (Formula.toJson v x) = .ok (x.at v) := by
  have hn : ["bom-ref", "components", "services", "workflows", "properties"].Nodup := by decide
  refine bindOk (Json.fields_mk _) ?_
  refine bindOk (Json.opt_id hn (.head _) (fun y1626 hy1626 => Json.str_ne_null)
      (fun y1626 hy1626 => rfl)) ?_
  refine bindOk (Json.opt_mk hn (.tail _ (.head _)) (fun y1627 hy1627 => Json.ofList_ne_null)
      (fun y1627 hy1627 => Json.array_ofList (fun y1628 hy1628 => Component.json_rt v ((h.components y1627 hy1627) y1628 hy1628)))) ?_
  refine bindOk (Json.opt_mk hn (.tail _ (.tail _ (.head _))) (fun y1629 hy1629 => Json.ofList_ne_null)
      (fun y1629 hy1629 => Json.array_ofList (fun y1630 hy1630 => Service.json_rt v ((h.services y1629 hy1629) y1630 hy1630)))) ?_
  refine bindOk (Json.opt_id hn (.tail _ (.tail _ (.tail _ (.head _)))) (fun y1631 hy1631 => Json.ofList_ne_null)
      (fun y1631 hy1631 => Json.array_id (fun y1632 hy1632 => Workflow.json_rt ((h.workflows y1631 hy1631) y1632 hy1632)))) ?_
  refine bindOk (Json.opt_id hn (.tail _ (.tail _ (.tail _ (.tail _ (.head _))))) (fun y1633 hy1633 => Json.ofList_ne_null)
      (fun y1633 hy1633 => Json.array_id (fun y1634 hy1634 => Property.json_rt))) ?_
  rfl

theorem Formula.xml_body_wf {v : SpecVersion} {x : Formula} : WellFormed true (
    (writeOpt (writeList "components" (Component.writeXml v)) x.components) ++
    ((writeOpt (writeList "services" (Service.writeXml v)) x.services) ++
    ((writeOpt (writeList "workflows" Workflow.writeXml) x.workflows) ++
    ((writeOpt (writeList "properties" Property.writeXml) x.properties))))) :=
  (.append (writeOpt_wf fun _ _ => (writeList_wf fun _ _ => (Component.xml_wf fun _ => rfl)))
    (.append (writeOpt_wf fun _ _ => (writeList_wf fun _ _ => (Service.xml_wf fun _ => rfl)))
    (.append (writeOpt_wf fun _ _ => (writeList_wf fun _ _ => Workflow.xml_wf))
    (writeOpt_wf fun _ _ => (writeList_wf fun _ _ => Property.xml_wf)))))

theorem Formula.xml_one {v : SpecVersion} {x : Formula} :
    OneElement true "formula" (Formula.writeXml v x) :=
  writeElem_one (goodAttrs (by decide : ["bom-ref"].Nodup)) (Formula.xml_body_wf)

theorem Formula.xml_wf {v : SpecVersion} {x : Formula} :
    WellFormed true (Formula.writeXml v x) :=
  (Formula.xml_one).wf

theorem Formula.arms_local (v : SpecVersion) :
    ∀ p ∈ Formula.arms v, LocalArm p.1 p.2 :=
  (armsCons (arm_local (readListLax_local (Component.xml_local v)) _)
    (armsCons (arm_local (readListLax_local (Service.xml_local v)) _)
    (armsCons (arm_local (readList_local Workflow.xml_local) _)
    (armsCons (arm_local (readListLax_local Property.xml_local) _)
    armsNil))))

theorem Formula.xml_local (v : SpecVersion) {tag : String} :
    LocalAt tag (Formula.readXml v) :=
  readStruct_local (by simp) (Formula.arms_local v)

theorem Formula.xml_reads (v : SpecVersion) {ns : Option String} {x : Formula} (h : Formula.XmlOk v x) :
    Reads ns (Formula.writeXml v x) "formula" (Formula.readXml v) (x.at v) := by
  have hn : ["components", "services", "workflows", "properties"].Nodup := by decide
  have ha : ["bom-ref"].Nodup := by decide
  refine reads_struct (p := (x.bomRef)) (Formula.xml_body_wf) ?_
      (Goes.append (Goes.opt_at (fun o s => { s with components := o }) (.head _) hn (fun _ => rfl) rfl
          (fun y1643 hy1643 => reads_listLax_at (fun y1644 hy1644 => Component.xml_reads v ((h.components y1643 hy1643) y1644 hy1644)) (fun _ _ => (Component.xml_wf fun _ => rfl))))
        (Goes.append (Goes.opt_at (fun o s => { s with services := o }) (.tail _ (.head _)) hn (fun _ => rfl) rfl
          (fun y1645 hy1645 => reads_listLax_at (fun y1646 hy1646 => Service.xml_reads v ((h.services y1645 hy1645) y1646 hy1646)) (fun _ _ => (Service.xml_wf fun _ => rfl))))
        (Goes.append (Goes.opt (fun o s => { s with workflows := o }) (.tail _ (.tail _ (.head _))) hn (fun _ => rfl) rfl
          (fun y1647 hy1647 => reads_list (fun y1648 hy1648 => Workflow.xml_reads ((h.workflows y1647 hy1647) y1648 hy1648)) (fun _ _ => Workflow.xml_wf)))
        (Goes.opt (fun o s => { s with properties := o }) (.tail _ (.tail _ (.tail _ (.head _)))) hn (fun _ => rfl) rfl
          (fun y1649 hy1649 => reads_listLax (fun y1650 hy1650 => Property.xml_reads ((h.properties y1649 hy1649) y1650 hy1650)) (fun _ _ => Property.xml_wf)))
        (writeOpt_wf fun _ _ => (writeList_wf fun _ _ => Workflow.xml_wf)))
        (writeOpt_wf fun _ _ => (writeList_wf fun _ _ => (Service.xml_wf fun _ => rfl))))
        (writeOpt_wf fun _ _ => (writeList_wf fun _ _ => (Component.xml_wf fun _ => rfl)))) ?_
  · exact congrArg Except.ok (optAttr_mk ha (.head _))
  · rfl

end Cdx
